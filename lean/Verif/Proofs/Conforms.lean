import Verif.Proofs.SpellingsJson
import Verif.Proofs.SpellingsMsgPack

/-! # What the three codecs write is a way to write the value -/

namespace Wamp
open Wamp.Spec

theorem bigEndian_be {k n : Nat} (h : n < 256 ^ k) : bigEndian (be k n) = n := by
  have h1 := takeNat_be .recursionError h []
  rw [takeNat_spelled .recursionError (be_length k n)] at h1
  exact (Prod.mk.inj (Except.ok.inj h1)).1

/-! ## CBOR -/

namespace Cbor

theorem head_conforms (m n : Nat) (h : n < 2 ^ 64) : CborHead m n (head m n) := by
  unfold head
  split
  · exact .short (by assumption)
  split
  · exact .long 0 (be 1 n) (by omega) (be_length ..) (bigEndian_be (by omega))
  split
  · exact .long 1 (be 2 n) (by omega) (be_length ..) (bigEndian_be (by omega))
  split
  · exact .long 2 (be 4 n) (by omega) (be_length ..) (bigEndian_be (by omega))
  · exact .long 3 (be 8 n) (by omega) (be_length ..) (bigEndian_be (by omega))

theorem float_conforms (x : PyFloat) (h : PlainFloat x) : CborFloat x (float x) := by
  unfold float
  split
  · rename_i hn
    rw [h (by simp [PyFloat.isNaN, hn.1, hn.2])]
    exact .half [0x7e, 0x00] rfl (.inr (.inr (.inr ⟨by decide, rfl⟩)))
  split
  · rename_i h; rw [h]; exact .half [0x7c, 0x00] rfl (.inr (.inl ⟨by decide, rfl⟩))
  split
  · rename_i h; rw [h]; exact .half [0xfc, 0x00] rfl (.inr (.inr (.inl ⟨by decide, rfl⟩)))
  · exact .double _ (be_length ..) (bigEndian_be (by have := x.bits.isLt; omega))

theorem bytes_conforms (b : Bytes) (h : b.length < 2 ^ 64) : CborBytes b (head 2 b.length ++ b) := .whole b _ (head_conforms 2 _ h)

theorem str_conforms (s : String) (h : s.utf8ByteSize < 2 ^ 64) : CborStr s (encode (.str s)) := by
  rw [encode]; exact .whole s _ (head_conforms 3 _ (by rw [utf8_length]; exact h))

theorem int_conforms (n : Int) (h : n.natAbs.log2 < 2 ^ 63) : CborItem (.int n) (integer n) := by
  have hb : ∀ k : Nat, k ≤ n.natAbs → (beMin k).length < 2 ^ 64 := by
    intro k hk
    have := beMin_length k
    have : k.log2 ≤ n.natAbs.log2 := by
      by_cases h0 : k = 0
      · subst h0; simp
      · rw [Nat.le_log2 (by omega)]; exact Nat.le_trans (Nat.log2_self_le h0) hk
    omega
  have hne : ∀ k : Nat, ¬ k < 2 ^ 64 → beMin k ≠ [] := by
    intro k hk
    rw [beMin, dif_neg (by omega)]; simp
  cases n with
  | ofNat n =>
    rw [integer, magnitude]
    split
    · exact .unsigned n _ (head_conforms 0 n (by assumption))
    · have := CborItem.bigUnsigned _ _ _ (hne n (by assumption)) (head_conforms 6 2 (by omega)) (bytes_conforms (beMin n) (hb n (by simp)))
      rw [← ofBe_eq, ofBe_beMin] at this
      exact this
  | negSucc n =>
    rw [integer, magnitude]
    have e : Int.negSucc n = -1 - (n : Int) := by rw [Int.negSucc_eq]; omega
    split
    · rw [e]; exact .negative n _ (head_conforms 1 n (by assumption))
    · have := CborItem.bigNegative _ _ _ (hne n (by assumption)) (head_conforms 6 3 (by omega)) (bytes_conforms (beMin n) (hb n (by simp)))
      rw [← ofBe_eq, ofBe_beMin] at this
      rw [e]; exact this

mutual
theorem conforms : ∀ v, Fits cborLimits v → CborItem v (encode v)
  | .none, _ => by rw [encode]; exact .none
  | .bool false, _ => by rw [encode]; exact .false
  | .bool true, _ => by rw [encode]; exact .true
  | .int n, h => by rw [Fits] at h; rw [encode]; exact int_conforms n h
  | .float x, h => by rw [Fits] at h; rw [encode]; exact .float x _ (float_conforms x h)
  | .str s, h => by rw [Fits] at h; exact .str s _ (str_conforms s h)
  | .bytes b, h => by rw [Fits] at h; rw [encode]; exact .bytes b _ (bytes_conforms b h.2)
  | .list l, h => by rw [Fits] at h; rw [encode]; exact .list l _ _ (head_conforms 4 _ h.1) (list_conforms l h.2)
  | .dict d, h => by rw [Fits] at h; rw [encode]; exact .dict d _ _ h.2.1 (head_conforms 5 _ h.1) (dict_conforms d h.2.2)
  | .obj .., h => by simp [Fits] at h
theorem list_conforms : ∀ l, FitsList cborLimits l → CborItems l (encodeList l)
  | [], _ => by rw [encodeList]; exact .nil
  | v :: l, h => by rw [FitsList] at h; rw [encodeList]; exact .cons v l _ _ (conforms v h.1) (list_conforms l h.2)
theorem dict_conforms : ∀ d, FitsDict cborLimits d → CborPairs d (encodeDict d)
  | [], _ => by rw [encodeDict]; exact .nil
  | (k, v) :: d, h => by
    rw [FitsDict] at h
    obtain ⟨⟨s, rfl, hs⟩, h2, h3⟩ := h
    rw [encodeDict]; exact .cons s v d _ _ _ (str_conforms s hs) (conforms v h2) (dict_conforms d h3)
end

end Cbor

/-! ## MessagePack -/

namespace MsgPack

theorem str_conforms (s : String) (h : s.utf8ByteSize < 2 ^ 32) : MsgPackStr s (pack (.str s)) := by
  rw [pack]
  refine ⟨_, ?_, rfl⟩
  rw [← utf8_length] at h
  unfold strHead
  split
  · exact .short (by assumption)
  split
  · exact .long 0xd9 1 (be 1 _) (by simp) (be_length ..) (bigEndian_be (by omega))
  split
  · exact .long 0xda 2 (be 2 _) (by simp) (be_length ..) (bigEndian_be (by omega))
  · exact .long 0xdb 4 (be 4 _) (by simp) (be_length ..) (bigEndian_be (by omega))

theorem bin_conforms (n : Nat) (h : n < 2 ^ 32) : MsgPackHead 0 0 [(0xc4, 1), (0xc5, 2), (0xc6, 4)] n (binHead n) := by
  unfold binHead
  split
  · exact .long 0xc4 1 (be 1 _) (by simp) (be_length ..) (bigEndian_be (by omega))
  split
  · exact .long 0xc5 2 (be 2 _) (by simp) (be_length ..) (bigEndian_be (by omega))
  · exact .long 0xc6 4 (be 4 _) (by simp) (be_length ..) (bigEndian_be (by omega))

theorem array_conforms (n : Nat) (h : n < 2 ^ 32) : MsgPackHead 16 0x90 [(0xdc, 2), (0xdd, 4)] n (arrayHead n) := by
  unfold arrayHead
  split
  · exact .short (by assumption)
  split
  · exact .long 0xdc 2 (be 2 _) (by simp) (be_length ..) (bigEndian_be (by omega))
  · exact .long 0xdd 4 (be 4 _) (by simp) (be_length ..) (bigEndian_be (by omega))

theorem map_conforms (n : Nat) (h : n < 2 ^ 32) : MsgPackHead 16 0x80 [(0xde, 2), (0xdf, 4)] n (mapHead n) := by
  unfold mapHead
  split
  · exact .short (by assumption)
  split
  · exact .long 0xde 2 (be 2 _) (by simp) (be_length ..) (bigEndian_be (by omega))
  · exact .long 0xdf 4 (be 4 _) (by simp) (be_length ..) (bigEndian_be (by omega))

/-- Two's complement -/
theorem signed_conforms {i : Nat} (hi : i < 4) {n : Int} (h1 : n < 0) (h2 : -(2 ^ (8 * 2 ^ i - 1) : Nat) ≤ n) :
    MsgPackInt n (byte (0xd0 + i) :: be (2 ^ i) (n + (2 ^ (8 * 2 ^ i) : Nat)).toNat) := by
  have hb : (n + (2 ^ (8 * 2 ^ i) : Nat)).toNat < 256 ^ 2 ^ i := by
    rcases (show i = 0 ∨ i = 1 ∨ i = 2 ∨ i = 3 by omega) with rfl | rfl | rfl | rfl <;> simp at h2 ⊢ <;> omega
  have := MsgPackInt.signed i (be (2 ^ i) (n + (2 ^ (8 * 2 ^ i) : Nat)).toNat) hi (be_length ..)
  rw [bigEndian_be hb] at this
  have e : (if (n + (2 ^ (8 * 2 ^ i) : Nat)).toNat < 2 ^ (8 * 2 ^ i - 1) then (((n + (2 ^ (8 * 2 ^ i) : Nat)).toNat : Nat) : Int)
      else ((n + (2 ^ (8 * 2 ^ i) : Nat)).toNat : Int) - 2 ^ (8 * 2 ^ i)) = n := by
    rcases (show i = 0 ∨ i = 1 ∨ i = 2 ∨ i = 3 by omega) with rfl | rfl | rfl | rfl <;> simp at h2 ⊢ <;> omega
  rw [e] at this
  exact this

theorem int_conforms (n : Int) (h : -2 ^ 63 ≤ n ∧ n < 2 ^ 64) : MsgPackInt n (packInt n) := by
  have un : ∀ i, i < 4 → 0 ≤ n → n.toNat < 256 ^ 2 ^ i → MsgPackInt n (byte (0xcc + i) :: be (2 ^ i) n.toNat) := by
    intro i hi h0 hn
    have := MsgPackInt.unsigned i (be (2 ^ i) n.toNat) hi (be_length ..)
    rw [bigEndian_be hn, Int.toNat_of_nonneg h0] at this
    exact this
  unfold packInt
  split
  · split
    · exact signed_conforms (i := 3) (by omega) (by omega) (by simp; omega)
    split
    · exact signed_conforms (i := 2) (by omega) (by omega) (by simp; omega)
    split
    · exact signed_conforms (i := 1) (by omega) (by omega) (by simp; omega)
    · exact signed_conforms (i := 0) (by omega) (by omega) (by simp; omega)
  split
  · have := MsgPackInt.negative n.natAbs (by omega) (by omega)
    rw [show -(n.natAbs : Int) = n by omega] at this
    have e : (n + 2 ^ 8).toNat = 256 - n.natAbs := by omega
    rw [be_one, e]
    exact this
  split
  · have := MsgPackInt.positive n.toNat (by omega)
    rw [Int.toNat_of_nonneg (by omega)] at this
    exact this
  split
  · exact un 0 (by omega) (by omega) (by simp; omega)
  split
  · exact un 1 (by omega) (by omega) (by simp; omega)
  split
  · exact un 2 (by omega) (by omega) (by simp; omega)
  · exact un 3 (by omega) (by omega) (by simp; omega)

mutual
theorem conforms : ∀ v, Fits msgpackLimits v → MsgPackItem v (pack v)
  | .none, _ => by rw [pack]; exact .none
  | .bool false, _ => by rw [pack]; exact .false
  | .bool true, _ => by rw [pack]; exact .true
  | .int n, h => by rw [Fits] at h; rw [pack]; exact .int n _ (int_conforms n h)
  | .float x, _ => by rw [pack]; exact .double x _ (be_length ..) (bigEndian_be (by have := x.bits.isLt; omega))
  | .str s, h => by rw [Fits] at h; exact .str s _ (str_conforms s h)
  | .bytes b, h => by rw [Fits] at h; rw [pack]; exact .bytes b _ (bin_conforms _ h.2)
  | .list l, h => by rw [Fits] at h; rw [pack]; exact .list l _ _ (array_conforms _ h.1) (list_conforms l h.2)
  | .dict d, h => by rw [Fits] at h; rw [pack]; exact .dict d _ _ h.2.1 (map_conforms _ h.1) (dict_conforms d h.2.2)
  | .obj .., h => by simp [Fits] at h
theorem list_conforms : ∀ l, FitsList msgpackLimits l → MsgPackItems l (packList l)
  | [], _ => by rw [packList]; exact .nil
  | v :: l, h => by rw [FitsList] at h; rw [packList]; exact .cons v l _ _ (conforms v h.1) (list_conforms l h.2)
theorem dict_conforms : ∀ d, FitsDict msgpackLimits d → MsgPackPairs d (packDict d)
  | [], _ => by rw [packDict]; exact .nil
  | (k, v) :: d, h => by
    rw [FitsDict] at h
    obtain ⟨⟨s, rfl, hs⟩, h2, h3⟩ := h
    rw [packDict]; exact .cons s v d _ _ _ (str_conforms s hs) (conforms v h2) (dict_conforms d h3)
end

end MsgPack

/-! ## JSON -/

namespace Json

theorem hexDigit_conforms (n : Nat) (h : n < 16) : HexDigit n (hexDigit n) := by
  refine ⟨h, .inl ?_⟩
  have : ∀ k, k < 16 → "0123456789abcdef".toList[k]? = some (hexDigit k) := by decide
  exact this n h

theorem unicode_conforms (n : Nat) (h : n < 0x10000) : JsonUnit n (unicode n) :=
  .mk n (n / 4096 % 16) (n / 256 % 16) (n / 16 % 16) (n % 16) _ _ _ _ (hexDigit_conforms _ (by omega)) (hexDigit_conforms _ (by omega))
    (hexDigit_conforms _ (by omega)) (hexDigit_conforms _ (by omega)) (by omega)

theorem char_conforms (c : Char) : JsonChar c (escape c) := by
  have hc := char_lt c
  unfold escape
  split
  · exact .short '"' (by simp [*])
  split
  · exact .short '\\' (by simp [*])
  split
  · exact .short 'n' (by simp [*])
  split
  · exact .short 'r' (by simp [*])
  split
  · exact .short 't' (by simp [*])
  split
  · rename_i h
    have : c = '\x0c' := by rw [← Char.ofNat_toNat c, h]
    exact .short 'f' (by simp [this])
  split
  · rename_i h
    have : c = '\x08' := by rw [← Char.ofNat_toNat c, h]
    exact .short 'b' (by simp [this])
  split
  · rename_i h1 h2 _ _ _ _ _ h
    exact .plain h1 h2 h.1
  split
  · exact .code _ (unicode_conforms _ (by assumption))
  · exact .pair _ _ (by omega) (unicode_conforms _ (by omega)) (unicode_conforms _ (by omega))

theorem chars_conforms : ∀ s : List Char, JsonChars s (s.flatMap escape)
  | [] => .nil
  | c :: s => .cons c s _ _ (char_conforms c) (chars_conforms s)

theorem str_conforms (s : String) : JsonStr s (quote s.toList) := ⟨_, chars_conforms _, rfl⟩

theorem digits_conform : ∀ ds : List Char, (∀ c ∈ ds, isDigit c = true) → ∃ fs : List (Fin 10), ds = fs.map digitChar
  | [], _ => ⟨[], rfl⟩
  | c :: ds, h => by
    obtain ⟨fs, rfl⟩ := digits_conform ds fun d hd => h d (by simp [hd])
    have hc := h c (by simp)
    simp [isDigit] at hc
    refine ⟨⟨c.toNat - 48, by omega⟩ :: fs, ?_⟩
    rw [List.map_cons, digitChar_eq]
    congr 1
    show c = Char.ofNat (48 + (c.toNat - 48))
    rw [show 48 + (c.toNat - 48) = c.toNat by omega, Char.ofNat_toNat]

/-- Digits without a leading zero are a number. -/
theorem decimal_conforms (ds : List Char) : ds ≠ [] → (∀ c ∈ ds, isDigit c = true) → (ds.head? = some '0' → ds = ['0']) →
    decimal (digitsVal ds) = ds := by
  induction ds using List.reverseRecOn with
  | nil => intro h; exact absurd rfl h
  | append_singleton ds c ih =>
    intro _ hd h0
    have hc := hd c (by simp)
    simp [isDigit] at hc
    have ec : Char.ofNat (48 + (c.toNat - 48)) = c := by
      rw [show 48 + (c.toNat - 48) = c.toNat by omega, Char.ofNat_toNat]
    rw [digitsVal_snoc]
    by_cases he : ds = []
    · subst he
      rw [show digitsVal [] = 0 from rfl, decimal_eq, if_pos (by omega), Nat.zero_mul, Nat.zero_add, ec]; rfl
    · obtain ⟨a, t, rfl⟩ := List.exists_cons_of_ne_nil he
      have ha : a ≠ '0' := by
        rintro rfl
        have := h0 rfl
        simp at this
      have ih := ih (by simp) (fun d hd' => hd d (by simp at hd' ⊢; rcases hd' with h | h <;> simp [h])) (by
        intro h; simp at h; exact absurd h ha)
      have hp : digitsVal (a :: t) ≠ 0 := by
        intro h
        rw [h] at ih
        have : decimal 0 = ['0'] := by decide
        rw [this] at ih
        exact ha (List.cons.inj ih).1.symm
      rw [decimal_eq, if_neg (by omega)]
      have e1 : (digitsVal (a :: t) * 10 + (c.toNat - 48)) / 10 = digitsVal (a :: t) := by omega
      have e2 : (digitsVal (a :: t) * 10 + (c.toNat - 48)) % 10 = c.toNat - 48 := by omega
      rw [e1, e2, ih, ec]

theorem layout_conforms (neg : Bool) (d : Nat) (x : Int) (h0 : d = 0 → x = 0) : ∃ n : Numeral, (n.fraction ≠ [] ∨ n.expo ≠ none) ∧
    n.neg = neg ∧ n.magnitude = (d : ℚ) * 10 ^ x ∧
    n.text = (if neg then ['-'] else []) ++ PyFloat.layout (decimal d) ((decimal d).length + x) := by
  obtain ⟨c, t, e, hz⟩ := decimal_cons d
  have hd := decimal_digits d
  have hl : 0 < (decimal d).length := by rw [e]; simp
  have hx : c = '0' → x = 0 ∧ t = [] := fun h => ⟨h0 (hz h).1, (hz h).2⟩
  generalize hp : ((decimal d).length : Int) + x = p
  have key : ∀ (w fs : List Char) (ex : Option Expo), w ≠ [] → (∀ c ∈ w, isDigit c = true) → (w.head? = some '0' → w = ['0']) →
      (∀ c ∈ fs, isDigit c = true) → (fs ≠ [] ∨ ex ≠ none) → ∃ n : Numeral, (n.fraction ≠ [] ∨ n.expo ≠ none) ∧
        n.neg = neg ∧ n.magnitude = (digitsVal (w ++ fs) : ℚ) * 10 ^ (expoValue ex - fs.length) ∧
        n.text = (if neg then ['-'] else []) ++ (w ++ ((if fs = [] then [] else '.' :: fs) ++ expoText ex)) := by
    intro w fs ex hw1 hw2 hw3 hf hor
    obtain ⟨gs, rfl⟩ := digits_conform fs hf
    refine ⟨⟨neg, digitsVal w, gs, ex⟩, by simpa using hor, rfl, ?_, ?_⟩
    · rw [Numeral.magnitude, fractionValue_eq, digitsVal_append, digitsVal_chars, List.length_map, zpow_sub₀ (by norm_num), zpow_natCast]
      push_cast
      field_simp
    rw [Numeral.text, decimal_repr, decimal_conforms w hw1 hw2 hw3]
    simp
  have hdv := digitsVal_decimal d
  have zeros : ∀ k, ∀ c ∈ List.replicate k '0', isDigit c = true := zeros_digits
  generalize (if neg then ['-'] else []) = sg at *
  unfold PyFloat.layout
  split
  · split
    · -- 0.000ds
      rename_i hp0 _
      obtain ⟨n, h1, hs, hm, h2⟩ := key ['0'] (List.replicate (-p).toNat '0' ++ decimal d) none (by simp) (by simp; decide) (by simp)
        (by intro c hc; rcases List.mem_append.1 hc with h | h; exact zeros _ c h; exact hd c h) (by rw [e]; simp)
      refine ⟨n, h1, hs, ?_, ?_⟩
      · rw [hm, digitsVal_append, digitsVal_append, digitsVal_zeros, hdv, show digitsVal ['0'] = 0 from rfl, expoValue]
        simp only [List.length_append, List.length_replicate, Nat.zero_mul, Nat.zero_add]
        congr 2
        push_cast
        omega
      rw [h2, if_neg (by rw [e]; simp)]
      simp [expoText]
    split
    · rename_i h1 h2 h3
      obtain ⟨n, h4, hs, hm, h5⟩ := key (decimal d ++ List.replicate (p.toNat - (decimal d).length) '0') ['0'] none (by rw [e]; simp)
        (by intro c hc; rcases List.mem_append.1 hc with h | h; exact hd c h; exact zeros _ c h)
        (by
          rw [e]; intro h
          have hc : c = '0' := by simpa using h
          obtain ⟨hx1, hx2⟩ := hx hc
          rw [hc, hx2]
          rw [e, hx2, hx1] at hp
          simp at hp
          rw [← hp]; rfl)
        (by simp; decide) (by simp)
      refine ⟨n, h4, hs, ?_, ?_⟩
      · obtain ⟨j, hj⟩ : ∃ j : Nat, x = j := Int.eq_ofNat_of_zero_le (by omega)
        subst hj
        rw [hm, digitsVal_append, digitsVal_append, digitsVal_zeros, hdv, show digitsVal ['0'] = 0 from rfl, expoValue]
        simp only [List.length_replicate, List.length_singleton, Nat.add_zero]
        rw [show p.toNat - (decimal d).length = j by omega, zpow_natCast]
        norm_num; ring
      rw [h5]; simp [expoText]
    · rename_i h1 h2 h3
      have ht : (decimal d).take p.toNat = c :: t.take (p.toNat - 1) := by
        obtain ⟨k, hk⟩ : ∃ k, p.toNat = k + 1 := ⟨p.toNat - 1, by omega⟩
        rw [hk, e]; simp
      obtain ⟨n, h4, hs, hm, h5⟩ := key ((decimal d).take p.toNat) ((decimal d).drop p.toNat) none (by rw [ht]; simp)
        (fun c hc => hd c (List.mem_of_mem_take hc))
        (by
          rw [ht]; intro h
          have hc : c = '0' := by simpa using h
          rw [hc, (hx hc).2]; simp)
        (fun c hc => hd c (List.mem_of_mem_drop hc)) (.inl (by simp; omega))
      refine ⟨n, h4, hs, ?_, ?_⟩
      · rw [hm, List.take_append_drop, hdv, expoValue, List.length_drop]
        congr 2
        omega
      rw [h5, if_neg (by simp; omega)]; simp [expoText]
  · -- the exponent
    have hex : ∃ y : Expo, y.value = p - 1 ∧ y.text = 'e' :: (if p - 1 < 0 then '-' else '+') ::
        (if (p - 1).natAbs < 10 then '0' :: decimal (p - 1).natAbs else decimal (p - 1).natAbs) := by
      have hk : ∃ k, k = (p - 1).natAbs := ⟨_, rfl⟩
      obtain ⟨k, hk⟩ := hk
      rw [← hk]
      have hval : digitsVal (if k < 10 then '0' :: decimal k else decimal k) = k := by
        split
        · show digitsVal (['0'] ++ decimal k) = k
          rw [digitsVal_append, digitsVal_decimal, show digitsVal ['0'] = 0 from rfl]; simp
        · exact digitsVal_decimal k
      obtain ⟨ds, h⟩ := digits_conform (if k < 10 then '0' :: decimal k else decimal k) (by
        split
        · intro c hc
          rcases List.mem_cons.1 hc with rfl | h
          · decide
          · exact decimal_digits _ c h
        · exact decimal_digits _)
      cases ds with
      | nil =>
        obtain ⟨a, b, e', _⟩ := decimal_cons k
        rw [e'] at h
        split at h <;> simp at h
      | cons a ds =>
        refine ⟨⟨false, some (decide (p - 1 < 0)), a, ds⟩, ?_, ?_⟩
        · rw [h, digitsVal_chars] at hval
          rw [Expo.value]
          simp only [hval, Option.some.injEq, decide_eq_true_eq]
          split <;> omega
        rw [Expo.text, h]
        by_cases hn : p - 1 < 0 <;> simp [hn, signText]
    obtain ⟨y, hyv, hy⟩ := hex
    obtain ⟨n, h4, hs, hm, h5⟩ := key ((decimal d).take 1) ((decimal d).drop 1) (some y) (by rw [e]; simp)
      (fun c hc => hd c (List.mem_of_mem_take hc)) (by rw [e]; simp) (fun c hc => hd c (List.mem_of_mem_drop hc)) (by simp)
    refine ⟨n, h4, hs, ?_, ?_⟩
    · rw [hm, List.take_append_drop, hdv, expoValue, hyv, List.length_drop]
      congr 2
      omega
    rw [h5, expoText, hy]
    simp only
    congr 1
    rw [← List.append_assoc]
    congr 2
    have : ((decimal d).drop 1 = []) = ((decimal d).length ≤ 1) := by rw [List.drop_eq_nil_iff]
    simp only [this]

theorem float_conforms (x : PyFloat) (h : PlainFloat x) : JsonItem (.float x) (floatText x) := by
  rcases float_cases x h with ⟨rfl, e⟩ | ⟨rfl, e⟩ | ⟨rfl, e⟩ | ⟨he, e⟩
  · rw [e]; exact .nan
  · rw [e]; exact .infinity
  · rw [e]; exact .minusInfinity
  · obtain ⟨n, h1, _, _, h2⟩ := layout_conforms x.sign x.shortest.1 x.shortest.2 (shortest_zero x he)
    have ht : n.text = x.finiteText := h2
    have hr : Stop ([] : List Char) := by intro c hc; cases hc
    have h3 := (number_finite x he [] hr).1
    have h4 := (number_numeral n h1 hr).1
    rw [ht, h3] at h4
    have h5 : x = _ := Value.float.inj (Prod.mk.inj (Except.ok.inj h4)).1
    rw [e, ← ht]
    have := readAs_nearest n
    rw [← h5] at this
    exact .float n x h1 this

theorem int_conforms (n : Int) : JsonItem (.int n) (integer n) := by
  cases n with
  | ofNat n =>
    have := JsonItem.int false n
    rw [Numeral.text, decimal_repr] at this
    simpa [expoText, integer] using this
  | negSucc n =>
    have := JsonItem.int true (n + 1)
    rw [Numeral.text, decimal_repr] at this
    simpa [expoText, integer, Int.negSucc_eq] using this

theorem blank_nil : Blank [] := by intro c hc; cases hc

theorem blank_space : Blank [' '] := by intro c hc; left; simpa using hc

mutual
theorem conforms : ∀ v, Fits jsonLimits v → JsonItem v (text v)
  | .none, _ => by rw [text]; exact .none
  | .bool false, _ => by rw [text]; exact .false
  | .bool true, _ => by rw [text]; exact .true
  | .int n, _ => by rw [text]; exact int_conforms n
  | .float x, h => by rw [Fits] at h; rw [text]; exact float_conforms x h
  | .str s, _ => by rw [text]; exact .str s _ (str_conforms s)
  | .bytes _, h => by simp [Fits, jsonLimits] at h
  | .list [], _ => by rw [text]; exact .emptyList [] blank_nil
  | .list (v :: l), h => by
    rw [Fits, FitsList] at h
    obtain ⟨w, h1, h2⟩ := list_conforms l h.2.2 v [] (text v) blank_nil (conforms v h.2.1)
    rw [List.nil_append] at h1
    rw [text, ← h1]; exact .list _ w h2
  | .dict [], _ => by rw [text]; exact .emptyDict [] blank_nil
  | .dict ((k, v) :: d), h => by
    rw [Fits, FitsDict] at h
    obtain ⟨⟨s, rfl, _⟩, h2, h3⟩ := h.2.2
    obtain ⟨w, h4, h5⟩ := dict_conforms d h3 s v [] (text v) blank_nil (conforms v h2)
    rw [List.nil_append] at h4
    rw [text, keyText, ← h4]
    exact .dict _ w h.2.1 h5
  | .obj .., h => by simp [Fits] at h
theorem list_conforms : ∀ l, FitsList jsonLimits l → ∀ (v : Value) (a t : List Char), Blank a → JsonItem v t →
    ∃ w, w ++ [']'] = a ++ (t ++ textTail l) ∧ JsonItems (v :: l) w
  | [], _, v, a, t, ha, hv => ⟨a ++ (t ++ []), by rw [textTail]; simp, .last v a t [] ha hv blank_nil⟩
  | x :: l, h, v, a, t, ha, hv => by
    rw [FitsList] at h
    obtain ⟨w, h1, h2⟩ := list_conforms l h.2 x [' '] (text x) blank_space (conforms x h.1)
    refine ⟨a ++ (t ++ ([] ++ ',' :: w)), ?_, .more v (x :: l) a t [] w ha hv blank_nil h2⟩
    rw [textTail]
    simp [h1]
theorem dict_conforms : ∀ d, FitsDict jsonLimits d → ∀ (k : String) (v : Value) (a t : List Char), Blank a → JsonItem v t →
    ∃ w, w ++ ['}'] = a ++ (quote k.toList ++ (':' :: ' ' :: (t ++ textMembers d))) ∧ JsonMembers ((.str k, v) :: d) w
  | [], _, k, v, a, t, ha, hv =>
    ⟨a ++ (quote k.toList ++ ([] ++ ':' :: ([' '] ++ (t ++ [])))), by rw [textMembers]; simp,
      .last k v a _ [] [' '] t [] ha (str_conforms k) blank_nil blank_space hv blank_nil⟩
  | (k', x) :: d, h, k, v, a, t, ha, hv => by
    rw [FitsDict] at h
    obtain ⟨⟨s, rfl, _⟩, h2, h3⟩ := h
    obtain ⟨w, h4, h5⟩ := dict_conforms d h3 s x [' '] (text x) blank_space (conforms x h2)
    refine ⟨a ++ (quote k.toList ++ ([] ++ ':' :: ([' '] ++ (t ++ ([] ++ ',' :: w))))), ?_,
      .more k v _ a _ [] [' '] t [] w ha (str_conforms k) blank_nil blank_space hv blank_nil h5⟩
    rw [textMembers, keyText]
    simp [h4]
end

end Json
end Wamp
