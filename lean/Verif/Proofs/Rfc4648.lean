import Verif.Spec.Encoding
import Verif.Proofs.Encoding

/-! # Hex and base64 of the model are those of RFC 4648 -/

namespace Wamp
open Spec

theorem length_natBits (k n : Nat) : (natBits k n).length = k := by
  induction k generalizing n with
  | zero => rfl
  | succ k ih => simp [natBits, ih]

theorem natBits_add (j k x y : Nat) (h : y < 2 ^ k) : natBits (j + k) (x * 2 ^ k + y) = natBits j x ++ natBits k y := by
  induction k generalizing y with
  | zero => simp [natBits]; congr 1; omega
  | succ k ih =>
    have e1 : (x * 2 ^ (k + 1) + y) / 2 = x * 2 ^ k + y / 2 := by
      rw [Nat.pow_succ, ← Nat.mul_assoc]; omega
    have e2 : (x * 2 ^ (k + 1) + y) % 2 = y % 2 := by
      rw [Nat.pow_succ, ← Nat.mul_assoc]; omega
    rw [← Nat.add_assoc, natBits, e1, e2, ih (y / 2) (by rw [Nat.pow_succ] at h; omega), natBits, List.append_assoc]

theorem natBits_inj (k a b : Nat) (ha : a < 2 ^ k) (hb : b < 2 ^ k) (h : natBits k a = natBits k b) : a = b := by
  induction k generalizing a b with
  | zero => simp at ha hb; omega
  | succ k ih =>
    simp only [natBits] at h
    obtain ⟨h1, h2⟩ := List.append_inj h (by simp [length_natBits])
    have := ih (a / 2) (b / 2) (by rw [Nat.pow_succ] at ha; omega) (by rw [Nat.pow_succ] at hb; omega) h1
    simp at h2
    omega

theorem bits_nil : bits [] = [] := rfl
theorem bits_cons (x : UInt8) (b : Bytes) : bits (x :: b) = natBits 8 x.toNat ++ bits b := by simp [bits]
theorem length_bits (b : Bytes) : (bits b).length = 8 * b.length := by
  induction b with
  | nil => rfl
  | cons x b ih => simp [bits_cons, length_natBits, ih]; omega

theorem bits_inj (a b : Bytes) (h : bits a = bits b) : a = b := by
  induction a generalizing b with
  | nil =>
    cases b with
    | nil => rfl
    | cons y b => have := congrArg List.length h; simp [length_bits] at this
  | cons x a ih =>
    cases b with
    | nil => have := congrArg List.length h; simp [length_bits] at this
    | cons y b =>
      rw [bits_cons, bits_cons] at h
      obtain ⟨h1, h2⟩ := List.append_inj h (by simp [length_natBits])
      have := natBits_inj 8 _ _ x.toNat_lt y.toNat_lt h1
      rw [ih b h2, UInt8.toNat_inj.1 this]

/-! ## Hex -/

theorem hexDigit_stands : ∀ n, n < 16 → alphabet16[n]? = some (hexDigit n) := by decide

theorem hexlify_base16 (b : Bytes) : Base16 (hexlifyChars b) b := by
  unfold Base16
  induction b with
  | nil => exact .nil
  | cons x b ih =>
    have hx := x.toNat_lt
    have := natBits_add 4 4 (x.toNat / 16) (x.toNat % 16) (by omega)
    rw [show x.toNat / 16 * 2 ^ 4 + x.toNat % 16 = x.toNat by omega] at this
    rw [bits_cons, this, List.append_assoc]
    exact .cons (hexDigit_stands _ (by omega)) (.cons (hexDigit_stands _ (by omega)) ih)

theorem Spec.Stands.length {al : List Char} {k : Nat} {t : List Char} {b : List Bool} (h : Stands al k t b) :
    b.length = k * t.length := by
  induction h with
  | nil => rfl
  | cons _ _ ih => simp [length_natBits, ih, Nat.mul_add]; omega

/-- A text for the bits is unique if the alphabet has at most `2 ^ k` characters. -/
theorem Spec.Stands.unique {al : List Char} {k : Nat} (hal : al.length ≤ 2 ^ k) (hk : 0 < k) {t t' : List Char} {b : List Bool}
    (h : Stands al k t b) (h' : Stands al k t' b) : t = t' := by
  induction h generalizing t' with
  | nil =>
    have := h'.length
    cases t' with
    | nil => rfl
    | cons _ _ => simp [Nat.mul_add] at this; omega
  | cons hi ht ih =>
    generalize hb : natBits k _ ++ _ = bb at h'
    cases h' with
    | nil => have := congrArg List.length hb; simp [length_natBits] at this; omega
    | cons hi' ht' =>
      obtain ⟨h1, h2⟩ := List.append_inj hb (by simp [length_natBits])
      have l1 := (List.getElem?_eq_some_iff.1 hi).1
      have l2 := (List.getElem?_eq_some_iff.1 hi').1
      have := natBits_inj k _ _ (by omega) (by omega) h1
      subst this; subst h2
      rw [hi] at hi'; cases hi'
      rw [ih ht']

theorem char_of_ascii (c : Char) (h : c.toNat < 128) : ∃ k, k < 128 ∧ c = Char.ofNat k :=
  ⟨c.toNat, h, (Char.ofNat_toNat c).symm⟩

theorem hexVal_ascii : ∀ k, k < 128 → ∀ n, n < 16 →
    (hexVal (Char.ofNat k) = some n ↔ (Char.ofNat k).toLower = hexDigit n) := by decide +kernel

theorem hexVal_lt {c : Char} {n : Nat} (h : hexVal c = some n) : n < 16 ∧ c.toNat < 128 := by
  unfold hexVal at h
  split at h
  · cases h; omega
  · split at h
    · cases h; omega
    · split at h
      · cases h; omega
      · cases h

theorem toLower_ascii (c : Char) (h : 128 ≤ c.toNat) : c.toLower = c := by
  unfold Char.toLower
  rw [dif_neg]
  intro ⟨_, h2⟩
  have : c.toNat ≤ 90 := h2
  omega

theorem hexVal_iff (c : Char) (n : Nat) (hn : n < 16) : hexVal c = some n ↔ c.toLower = hexDigit n := by
  by_cases h : c.toNat < 128
  · obtain ⟨k, hk, rfl⟩ := char_of_ascii c h
    exact hexVal_ascii k hk n hn
  · refine ⟨fun e => absurd (hexVal_lt e).2 h, fun e => ?_⟩
    rw [toLower_ascii c (by omega)] at e
    exact absurd (e ▸ hexDigit_ascii n hn) h

theorem unhexlifyChars_iff (cs : List Char) (b : Bytes) : unhexlifyChars cs = .ok b ↔ cs.map Char.toLower = hexlifyChars b := by
  fun_induction unhexlifyChars cs generalizing b with
  | case1 => cases b <;> simp [hexlifyChars]
  | case2 c => cases b <;> simp [hexlifyChars]
  | case3 c d rest x y hy hx ih =>
    have lx := (hexVal_lt hx).1
    have ly := (hexVal_lt hy).1
    cases b with
    | nil => cases h : unhexlifyChars rest <;> simp [hexlifyChars, Except.map]
    | cons z b =>
      have ex : c.toLower = hexDigit x := (hexVal_iff c x lx).1 hx
      have ey : d.toLower = hexDigit y := (hexVal_iff d y ly).1 hy
      have hz := z.toNat_lt
      simp only [List.map_cons, hexlifyChars, List.cons.injEq, ← ih, ex, ey]
      have inj : ∀ m, m < 16 → ∀ n, n < 16 → (hexDigit m = hexDigit n ↔ m = n) := by decide
      rw [inj _ lx _ (by omega), inj _ ly _ (by omega)]
      have e : UInt8.ofNat (x * 16 + y) = z ↔ x = z.toNat / 16 ∧ y = z.toNat % 16 := by
        rw [← UInt8.toNat_inj, UInt8.toNat_ofNat']
        omega
      cases h : unhexlifyChars rest with
      | error e => simp [Except.map]
      | ok b' =>
        simp only [Except.map, Except.ok.injEq, List.cons.injEq, e, and_assoc]
  | case4 c d rest hn =>
    constructor
    · intro h; cases h
    · intro h
      cases b with
      | nil => simp [hexlifyChars] at h
      | cons z b =>
        have hz := z.toNat_lt
        simp only [List.map_cons, hexlifyChars, List.cons.injEq] at h
        exact absurd ((hexVal_iff d _ (by omega)).2 h.2.1) (hn _ _ ((hexVal_iff c _ (by omega)).2 h.1))

/-! ## Base64 -/

theorem b64Char_stands : ∀ n, n < 64 → alphabet64[n]? = some (b64Char n) := by decide

theorem b64encode_base64 (b : Bytes) : Base64 (b64encodeChars b) b := by
  fun_induction b64encodeChars b with
  | case1 => exact ⟨[], 0, 0, .nil, by decide, rfl, by decide, rfl⟩
  | case2 a =>
    have ha := a.toNat_lt
    have e1 := natBits_add 6 2 (a.toNat / 4) (a.toNat % 4) (by omega)
    rw [show a.toNat / 4 * 2 ^ 2 + a.toNat % 4 = a.toNat by omega] at e1
    have e2 := natBits_add 2 4 (a.toNat % 4) 0 (by decide)
    simp only [Nat.add_zero] at e2
    have h := Stands.cons (k := 6) (b64Char_stands (a.toNat / 4) (by omega))
      (.cons (k := 6) (b64Char_stands (a.toNat % 4 * 16) (by omega)) .nil)
    refine ⟨[b64Char (a.toNat / 4), b64Char (a.toNat % 4 * 16)], 4, 2, ?_, by decide, rfl, by decide, by simp⟩
    rw [bits_cons, bits_nil, e1]
    rw [show a.toNat % 4 * 16 = a.toNat % 4 * 2 ^ 4 from rfl, e2] at h
    simpa [natBits, List.replicate] using h
  | case3 a b =>
    have ha := a.toNat_lt
    have hb := b.toNat_lt
    have e1 := natBits_add 6 2 (a.toNat / 4) (a.toNat % 4) (by omega)
    rw [show a.toNat / 4 * 2 ^ 2 + a.toNat % 4 = a.toNat by omega] at e1
    have e2 := natBits_add 2 4 (a.toNat % 4) (b.toNat / 16) (by omega)
    have e3 := natBits_add 4 4 (b.toNat / 16) (b.toNat % 16) (by omega)
    rw [show b.toNat / 16 * 2 ^ 4 + b.toNat % 16 = b.toNat by omega] at e3
    have e4 := natBits_add 4 2 (b.toNat % 16) 0 (by decide)
    simp only [Nat.add_zero] at e4
    have h := Stands.cons (k := 6) (b64Char_stands (a.toNat / 4) (by omega)) (.cons (k := 6) (b64Char_stands (a.toNat % 4 * 16 + b.toNat / 16) (by omega))
      (.cons (k := 6) (b64Char_stands (b.toNat % 16 * 4) (by omega)) .nil))
    refine ⟨[b64Char (a.toNat / 4), b64Char (a.toNat % 4 * 16 + b.toNat / 16), b64Char (b.toNat % 16 * 4)], 2, 1, ?_, by decide, rfl,
      by decide, by simp⟩
    rw [bits_cons, bits_cons, bits_nil, e1, e3]
    rw [show a.toNat % 4 * 16 = a.toNat % 4 * 2 ^ 4 from rfl, e2, show b.toNat % 16 * 4 = b.toNat % 16 * 2 ^ 2 from rfl, e4] at h
    simpa [natBits, List.replicate] using h
  | case4 a b c rest ih =>
    obtain ⟨body, fill, pad, h1, h2, h3, h4, h5⟩ := ih
    have ha := a.toNat_lt
    have hb := b.toNat_lt
    have hc := c.toNat_lt
    have e1 := natBits_add 6 2 (a.toNat / 4) (a.toNat % 4) (by omega)
    rw [show a.toNat / 4 * 2 ^ 2 + a.toNat % 4 = a.toNat by omega] at e1
    have e2 := natBits_add 2 4 (a.toNat % 4) (b.toNat / 16) (by omega)
    have e3 := natBits_add 4 4 (b.toNat / 16) (b.toNat % 16) (by omega)
    rw [show b.toNat / 16 * 2 ^ 4 + b.toNat % 16 = b.toNat by omega] at e3
    have e4 := natBits_add 4 2 (b.toNat % 16) (c.toNat / 64) (by omega)
    have e5 := natBits_add 2 6 (c.toNat / 64) (c.toNat % 64) (by omega)
    rw [show c.toNat / 64 * 2 ^ 6 + c.toNat % 64 = c.toNat by omega] at e5
    have h := Stands.cons (k := 6) (b64Char_stands (a.toNat / 4) (by omega)) (.cons (k := 6) (b64Char_stands (a.toNat % 4 * 16 + b.toNat / 16) (by omega))
      (.cons (k := 6) (b64Char_stands (b.toNat % 16 * 4 + c.toNat / 64) (by omega))
      (.cons (k := 6) (b64Char_stands (c.toNat % 64) (by omega)) h1)))
    refine ⟨b64Char (a.toNat / 4) :: b64Char (a.toNat % 4 * 16 + b.toNat / 16) :: b64Char (b.toNat % 16 * 4 + c.toNat / 64) ::
      b64Char (c.toNat % 64) :: body, fill, pad, ?_, h2, by rw [h3]; rfl, h4, by simp only [List.length_cons]; omega⟩
    rw [bits_cons, bits_cons, bits_cons, e1, e3, e5]
    rw [show a.toNat % 4 * 16 = a.toNat % 4 * 2 ^ 4 from rfl, e2, show b.toNat % 16 * 4 = b.toNat % 16 * 2 ^ 2 from rfl, e4] at h
    simpa using h

theorem base64_unique (t t' : List Char) (b : Bytes) (h : Base64 t b) (h' : Base64 t' b) : t = t' := by
  obtain ⟨body, fill, pad, h1, h2, rfl, h4, h5⟩ := h
  obtain ⟨body', fill', pad', h1', h2', rfl, h4', h5'⟩ := h'
  have l := h1.length
  have l' := h1'.length
  simp only [List.length_append, List.length_replicate, length_bits] at l l' h5 h5'
  have : fill = fill' := by omega
  subst this
  have := h1.unique (by decide) (by decide) h1'
  subst this
  rw [show pad = pad' by omega]

theorem b64Val_ascii : ∀ k, k < 128 → ∀ n, b64Val (Char.ofNat k) = some n → alphabet64[n]? = some (Char.ofNat k) := by
  intro k hk n h
  have key : ∀ k, k < 128 → (b64Val (Char.ofNat k)).all (fun n => alphabet64[n]? = some (Char.ofNat k)) = true := by decide +kernel
  have := key k hk
  rw [h] at this; simpa using this

theorem b64Val_none_ascii : ∀ k, k < 128 → b64Val (Char.ofNat k) = none → Char.ofNat k ∉ alphabet64 := by decide +kernel

theorem b64Val_some {c : Char} {n : Nat} (h : b64Val c = some n) : alphabet64[n]? = some c ∧ n < 64 := by
  have hc : c.toNat < 128 := by
    unfold b64Val at h
    split at h
    · omega
    · split at h
      · omega
      · split at h
        · omega
        · split at h
          · rename_i e; rw [e]; decide
          · split at h
            · rename_i e; rw [e]; decide
            · cases h
  obtain ⟨k, hk, rfl⟩ := char_of_ascii c hc
  have := b64Val_ascii k hk n h
  exact ⟨this, by have := (List.getElem?_eq_some_iff.1 this).1; exact this⟩

theorem alphabet64_ascii : ∀ c ∈ alphabet64, c.toNat < 128 := by decide

theorem b64Val_none {c : Char} : b64Val c = none ↔ c ∉ alphabet64 := by
  constructor
  · intro h hm
    obtain ⟨k, hk, rfl⟩ := char_of_ascii c (alphabet64_ascii c hm)
    exact b64Val_none_ascii k hk h hm
  · intro h
    cases hv : b64Val c with
    | none => rfl
    | some n => exact absurd (List.mem_of_getElem? (b64Val_some hv).1) h

/-- How many bits are carried when `q` characters of a group have been read. -/
def b64carry : Nat → Nat
  | 0 => 0 | 1 => 6 | 2 => 4 | _ => 2

theorem b64loop_lenient (cs : List Char) (q l p : Nat) (b : Bytes) (hq : q < 4) (hl : l < 2 ^ b64carry q)
    (h : b64loop cs q l p = .ok b) :
    ∃ used rest fill B, cs = used ++ rest ∧ (rest ≠ [] → ∃ u, used = u ++ ['=']) ∧
      Stands alphabet64 6 (used.filter (· ∈ alphabet64)) B ∧ natBits (b64carry q) l ++ B = bits b ++ fill ∧ fill.length < 6 := by
  induction cs generalizing q l p b with
  | nil =>
    unfold b64loop at h
    split at h
    · rename_i hq0; subst hq0; cases h
      exact ⟨[], [], [], [], rfl, fun h => absurd rfl h, .nil, rfl, by decide⟩
    · cases h
  | cons c cs ih =>
    unfold b64loop at h
    split at h
    · rename_i hc; subst hc
      have skip : ∀ q l p, q < 4 → l < 2 ^ b64carry q → b64loop cs q l p = .ok b →
          ∃ used rest fill B, '=' :: cs = used ++ rest ∧ (rest ≠ [] → ∃ u, used = u ++ ['=']) ∧
            Stands alphabet64 6 (used.filter (· ∈ alphabet64)) B ∧ natBits (b64carry q) l ++ B = bits b ++ fill ∧ fill.length < 6 := by
        intro q l p hq hl h
        obtain ⟨used, rest, fill, B, h1, h2, h3, h4, h5⟩ := ih q l p b hq hl h
        refine ⟨'=' :: used, rest, fill, B, by rw [h1]; rfl, fun hr => ?_, ?_, h4, h5⟩
        · obtain ⟨u, hu⟩ := h2 hr; exact ⟨'=' :: u, by rw [hu]; rfl⟩
        · rw [List.filter_cons_of_neg (by decide)]; exact h3
      split at h
      · split at h
        · cases h
          refine ⟨['='], cs, natBits (b64carry q) l, [], rfl, fun _ => ⟨[], rfl⟩, ?_, by simp [bits], ?_⟩
          · rw [List.filter_cons_of_neg (by decide)]; exact .nil
          · rw [length_natBits]
            rcases q with _ | _ | _ | _ | q <;> simp_all [b64carry]
        · exact skip q l _ hq hl h
      · exact skip q l _ hq hl h
    · rename_i hc
      cases hv : b64Val c with
      | none =>
        rw [hv] at h
        obtain ⟨used, rest, fill, B, h1, h2, h3, h4, h5⟩ := ih q l p b hq hl h
        refine ⟨c :: used, rest, fill, B, by rw [h1]; rfl, fun hr => ?_, ?_, h4, h5⟩
        · obtain ⟨u, hu⟩ := h2 hr; exact ⟨c :: u, by rw [hu]; rfl⟩
        · rw [List.filter_cons_of_neg (by simpa using b64Val_none.1 hv)]; exact h3
      | some v =>
        rw [hv] at h
        obtain ⟨hs, hv64⟩ := b64Val_some hv
        have fin : ∀ q' l' bs, q' < 4 → l' < 2 ^ b64carry q' → b64loop cs q' l' 0 = .ok bs →
            (∀ B fill, natBits (b64carry q') l' ++ B = bits bs ++ fill →
              natBits (b64carry q) l ++ (natBits 6 v ++ B) = bits b ++ fill) →
            ∃ used rest fill B, c :: cs = used ++ rest ∧ (rest ≠ [] → ∃ u, used = u ++ ['=']) ∧
              Stands alphabet64 6 (used.filter (· ∈ alphabet64)) B ∧ natBits (b64carry q) l ++ B = bits b ++ fill ∧ fill.length < 6 := by
          intro q' l' bs hq' hl' h hb
          obtain ⟨used, rest, fill, B, h1, h2, h3, h4, h5⟩ := ih q' l' 0 bs hq' hl' h
          refine ⟨c :: used, rest, fill, _, by rw [h1]; rfl, fun hr => ?_, ?_, hb B fill h4, h5⟩
          · obtain ⟨u, hu⟩ := h2 hr; exact ⟨c :: u, by rw [hu]; rfl⟩
          · rw [List.filter_cons_of_pos (by simpa using List.mem_of_getElem? hs)]; exact .cons hs h3
        have split8 : ∀ (q' l' x : Nat), (b64loop cs q' l' 0).map (UInt8.ofNat x :: ·) = .ok b →
            ∃ bs, b64loop cs q' l' 0 = .ok bs ∧ b = UInt8.ofNat x :: bs := by
          intro q' l' x h
          cases hb : b64loop cs q' l' 0 with
          | error e => rw [hb] at h; cases h
          | ok bs => rw [hb] at h; cases h; exact ⟨bs, rfl, rfl⟩
        match q, hq with
        | 0, _ =>
          refine fin 1 v b (by decide) hv64 h ?_
          intro B fill e
          simp only [b64carry, natBits] at *
          have : l = 0 := by simp [b64carry] at hl; exact hl
          simpa using e
        | 1, _ =>
          obtain ⟨bs, h1, h2⟩ := split8 _ _ _ h
          have hl' : l < 64 := hl
          refine fin 2 (v % 16) bs (by decide) (by show v % 16 < 16; omega) h1 ?_
          intro B fill e
          have e1 : natBits 8 (l * 4 + v / 16) = natBits 6 l ++ natBits 2 (v / 16) := natBits_add 6 2 l (v / 16) (by omega)
          have e2 := natBits_add 2 4 (v / 16) (v % 16) (by omega)
          rw [show v / 16 * 2 ^ 4 + v % 16 = v by omega] at e2
          simp only [b64carry] at e ⊢
          rw [h2, bits_cons, UInt8.toNat_ofNat', Nat.mod_eq_of_lt (by omega), e1, List.append_assoc, ← e, e2]
          simp only [List.append_assoc]
        | 2, _ =>
          obtain ⟨bs, h1, h2⟩ := split8 _ _ _ h
          have hl' : l < 16 := hl
          refine fin 3 (v % 4) bs (by decide) (by show v % 4 < 4; omega) h1 ?_
          intro B fill e
          have e1 : natBits 8 (l * 16 + v / 4) = natBits 4 l ++ natBits 4 (v / 4) := natBits_add 4 4 l (v / 4) (by omega)
          have e2 := natBits_add 4 2 (v / 4) (v % 4) (by omega)
          rw [show v / 4 * 2 ^ 2 + v % 4 = v by omega] at e2
          simp only [b64carry] at e ⊢
          rw [h2, bits_cons, UInt8.toNat_ofNat', Nat.mod_eq_of_lt (by omega), e1, List.append_assoc, ← e, e2]
          simp only [List.append_assoc]
        | 3, _ =>
          obtain ⟨bs, h1, h2⟩ := split8 _ _ _ h
          have hl' : l < 4 := hl
          refine fin 0 0 bs (by decide) (by decide) h1 ?_
          intro B fill e
          have e1 : natBits 8 (l * 64 + v) = natBits 2 l ++ natBits 6 v := natBits_add 2 6 l v (by omega)
          simp only [b64carry, natBits, List.nil_append] at e
          simp only [b64carry]
          rw [h2, bits_cons, UInt8.toNat_ofNat', Nat.mod_eq_of_lt (by omega), e1, List.append_assoc, ← e]
          simp only [List.append_assoc]

end Wamp
