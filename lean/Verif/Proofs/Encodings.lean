import Verif.Spec.Encodings
import Verif.Proofs.Conforms
import Verif.Proofs.Hmac

/-! # Texts as bytes: every encoding is recognised and read back -/

namespace Wamp
open Spec

theorem byte_toNat {n : Nat} (h : n < 256) : (byte n).toNat = n := by
  simp [byte, UInt8.toNat_ofNat']; omega

theorem byte_zero {n : Nat} (h : n < 256) : byte n = 0 ↔ n = 0 := by
  constructor
  · intro e; have := congrArg UInt8.toNat e; rw [byte_toNat h] at this; simpa using this
  · rintro rfl; rfl

theorem char_valid (c : Char) : c.toNat.isValidChar := c.valid

theorem char_lt (c : Char) : c.toNat < 0x110000 := by
  have := char_valid c
  unfold Nat.isValidChar at this; omega

theorem ofNat_toNat' (c : Char) {n : Nat} (h : n = c.toNat) : Char.ofNat n = c := by rw [h, Char.ofNat_toNat]

/-! ## UTF-16 -/

theorem units16_ordered (big : Bool) {n : Nat} (h : n < 0x10000) (r : Bytes) :
    units16 big (ordered big (twoBytes n) ++ r) = (units16 big r).map (n :: ·) := by
  have e : n / 256 * 256 + n % 256 = n := by omega
  cases big
  · show (units16 false r).map _ = _
    congr 1; funext l
    show ((byte (n / 256)).toNat * 256 + (byte (n % 256)).toNat) :: l = _
    rw [byte_toNat (by omega), byte_toNat (by omega), e]
  · show (units16 true r).map _ = _
    congr 1; funext l
    show ((byte (n / 256)).toNat * 256 + (byte (n % 256)).toNat) :: l = _
    rw [byte_toNat (by omega), byte_toNat (by omega), e]

theorem chars16_single (c : Char) (h : c.toNat < 0x10000) (r : List Nat) : chars16 (c.toNat :: r) = (chars16 r).map (c :: ·) := by
  have hv := char_valid c
  unfold Nat.isValidChar at hv
  rw [chars16.eq_def]
  simp only
  rw [if_neg (by omega), if_neg (by omega), Char.ofNat_toNat]

theorem chars16_pair (c : Char) (h : 0x10000 ≤ c.toNat) (r : List Nat) :
    chars16 ((0xd800 + (c.toNat - 0x10000) / 0x400) :: (0xdc00 + (c.toNat - 0x10000) % 0x400) :: r) = (chars16 r).map (c :: ·) := by
  have := char_lt c
  rw [chars16.eq_def]
  simp only
  rw [if_pos (by omega)]
  rw [if_pos (by omega), ofNat_toNat' c (by omega)]

theorem utf16_read (big : Bool) : ∀ s : List Char, ∃ us, units16 big (s.flatMap (Charset.utf16 big).char) = some us ∧ chars16 us = some s
  | [] => ⟨[], rfl, rfl⟩
  | c :: s => by
    obtain ⟨us, h1, h2⟩ := utf16_read big s
    have := char_lt c
    rw [List.flatMap_cons, Charset.char]
    split
    · rename_i h
      exact ⟨c.toNat :: us, by rw [units16_ordered big h, h1]; rfl, by rw [chars16_single c h, h2]; rfl⟩
    · rename_i h
      refine ⟨_, ?_, by rw [chars16_pair c (by omega), h2]; rfl⟩
      rw [List.append_assoc, units16_ordered big (by omega), units16_ordered big (by omega), h1]; rfl

theorem ofUtf16_encode (big : Bool) (s : String) : ofUtf16 big (s.toList.flatMap (Charset.utf16 big).char) = some s := by
  obtain ⟨us, h1, h2⟩ := utf16_read big s.toList
  rw [ofUtf16, h1, Option.bind_some, h2]
  simp

/-! ## UTF-32 -/

theorem utf32_read (big : Bool) : ∀ s : List Char, chars32 big (s.flatMap (Charset.utf32 big).char) = some s
  | [] => rfl
  | c :: s => by
    have h := char_lt c
    have e : c.toNat / 2 ^ 16 / 256 * 2 ^ 24 + c.toNat / 2 ^ 16 % 256 * 2 ^ 16 + c.toNat % 2 ^ 16 / 256 * 256 + c.toNat % 2 ^ 16 % 256 = c.toNat := by omega
    have hn : (byte (c.toNat / 2 ^ 16 / 256)).toNat * 2 ^ 24 + (byte (c.toNat / 2 ^ 16 % 256)).toNat * 2 ^ 16 +
        (byte (c.toNat % 2 ^ 16 / 256)).toNat * 256 + (byte (c.toNat % 2 ^ 16 % 256)).toNat = c.toNat := by
      rw [byte_toNat (by omega), byte_toNat (by omega), byte_toNat (by omega), byte_toNat (by omega), e]
    have ih := utf32_read big s
    rw [List.flatMap_cons, Charset.char]
    cases big
    · show chars32 false (_ :: _ :: _ :: _ :: _) = _
      rw [chars32]
      simp only [Bool.false_eq_true, if_false]
      rw [hn, if_pos (char_valid c), Char.ofNat_toNat]
      exact (congrArg (Option.map (c :: ·)) ih).trans rfl
    · show chars32 true (_ :: _ :: _ :: _ :: _) = _
      rw [chars32]
      simp only [if_true]
      rw [hn, if_pos (char_valid c), Char.ofNat_toNat]
      exact (congrArg (Option.map (c :: ·)) ih).trans rfl

theorem ofUtf32_encode (big : Bool) (s : String) : ofUtf32 big (s.toList.flatMap (Charset.utf32 big).char) = some s := by
  rw [ofUtf32, utf32_read]; simp

/-! ## UTF-8 -/

theorem utf8_char (c : Char) : Charset.utf8.char c = String.utf8EncodeChar c := by
  show utf8 (String.singleton c) = _
  rw [Hmac.utf8_flatMap]; simp

theorem utf8_encode (s : String) : s.toList.flatMap Charset.utf8.char = utf8 s := by
  rw [Hmac.utf8_flatMap]; congr 1; funext c; exact utf8_char c

/-! ## Which encoding it is -/

/-- A text that starts with an ASCII character and has no NUL -/
def Plain (s : List Char) : Prop := ∃ c t, s = c :: t ∧ c.toNat < 0x80 ∧ ∀ d ∈ s, d ≠ '\x00'

theorem ne_nul {c : Char} (h : c ≠ '\x00') : c.toNat ≠ 0 := by
  intro e; apply h; apply Char.ext; apply UInt32.toNat.inj; exact e

theorem utf8_ascii {c : Char} (h : c.toNat < 0x80) : String.utf8EncodeChar c = [byte c.toNat] := by
  have h' : c.val.toNat < 0x80 := h
  unfold String.utf8EncodeChar
  simp only
  rw [if_pos (by omega)]
  rfl

theorem detect16be {y : UInt8} (h : y ≠ 0) {r : Bytes} (hr : r = [] ∨ 2 ≤ r.length) : detectEncoding (0 :: y :: r) = .utf16be := by
  match r, hr with
  | [], _ => simp [detectEncoding, startsWith]
  | [_], .inr h => simp at h
  | z :: w :: r, _ => simp [detectEncoding, startsWith, h, h.symm]

theorem detect16le {x : UInt8} (h : x ≠ 0) (h1 : x ≠ 0xfe) (h2 : x ≠ 0xff) (h3 : x ≠ 0xef) {r : Bytes}
    (hr : r = [] ∨ ∃ z w r', r = z :: w :: r' ∧ (z ≠ 0 ∨ w ≠ 0)) : detectEncoding (x :: 0 :: r) = .utf16le := by
  rcases hr with rfl | ⟨z, w, r, rfl, hr⟩
  · simp [detectEncoding, startsWith, h, h1.symm, h2.symm]
  · simp [detectEncoding, startsWith, h, h1.symm, h2.symm, h.symm, h3.symm, hr]

theorem detect32be {z w : UInt8} (h : w ≠ 0xff) (r : Bytes) : detectEncoding (0 :: 0 :: z :: w :: r) = .utf32be := by
  simp [detectEncoding, startsWith, h.symm]

theorem detect32le {x : UInt8} (h : x ≠ 0) (h2 : x ≠ 0xff) (r : Bytes) : detectEncoding (x :: 0 :: 0 :: 0 :: r) = .utf32le := by
  simp [detectEncoding, startsWith, h.symm, h2.symm, h]

theorem detect8 {x : UInt8} (h : x ≠ 0) (h1 : x ≠ 0xfe) (h2 : x ≠ 0xff) (h3 : x ≠ 0xef) {r : Bytes} (hr : 0 ∉ r) : detectEncoding (x :: r) = .utf8 := by
  match r, hr with
  | [], _ => simp [detectEncoding, startsWith]
  | [y], hr =>
    have hy : y ≠ 0 := fun e => hr (by simp [e])
    simp [detectEncoding, startsWith, h, h1.symm, h2.symm, hy]
  | [y, z], hr => simp [detectEncoding, startsWith, h1.symm, h2.symm, h3.symm]
  | y :: z :: w :: r, hr =>
    have hy : y ≠ 0 := fun e => hr (by simp [e])
    simp [detectEncoding, startsWith, h, h.symm, h1.symm, h2.symm, h3.symm, hy]

theorem twoBytes_ascii {n : Nat} (h : n < 256) : twoBytes n = [0, byte n] := by
  rw [twoBytes, show n / 256 = 0 by omega, show n % 256 = n by omega]; rfl

theorem twoBytes_zero {n : Nat} (hn : n < 0x10000) {a b : UInt8} (h : twoBytes n = [a, b]) (ha : a = 0) (hb : b = 0) : n = 0 := by
  rw [twoBytes] at h
  obtain ⟨h1, h2⟩ := List.cons.inj h
  have h2 := (List.cons.inj h2).1
  rw [ha, byte_zero (by omega)] at h1
  rw [hb, byte_zero (by omega)] at h2
  omega

/-- The first two bytes of a character other than NUL are not both zero. -/
theorem utf16_first (big : Bool) (c : Char) (h : c ≠ '\x00') : ∃ z w r, (Charset.utf16 big).char c = z :: w :: r ∧ (z ≠ 0 ∨ w ≠ 0) := by
  have key : ∀ n, n < 0x10000 → n ≠ 0 → ∃ z w, ordered big (twoBytes n) = [z, w] ∧ (z ≠ 0 ∨ w ≠ 0) := by
    intro n hn h0
    have : byte (n / 256) ≠ 0 ∨ byte (n % 256) ≠ 0 := by
      rw [Ne, byte_zero (by omega), Ne, byte_zero (by omega)]; omega
    cases big
    · exact ⟨_, _, rfl, this.symm⟩
    · exact ⟨_, _, rfl, this⟩
  have := char_lt c
  rw [Charset.char]
  split
  · rename_i hc
    obtain ⟨z, w, e, hz⟩ := key _ hc (ne_nul h)
    exact ⟨z, w, [], e, hz⟩
  · obtain ⟨z, w, e, hz⟩ := key (0xd800 + (c.toNat - 0x10000) / 0x400) (by omega) (by omega)
    rw [e]; exact ⟨z, w, _, rfl, hz⟩

/-- What `decode` gets from a text in an encoding -/
theorem decode_encode (e : Charset) (mark : Bool) (s : String) (h : Plain s.toList) :
    decodeWith (detectEncoding (e.encode mark s)) (e.encode mark s) = some s := by
  obtain ⟨c, t, hs, hc, h0⟩ := h
  have hc0 : c.toNat ≠ 0 := ne_nul (h0 c (by rw [hs]; simp))
  have bn : ∀ n, 0x80 ≤ n → n < 256 → byte c.toNat ≠ byte n := by
    intro n h1 h2 e
    have := congrArg UInt8.toNat e
    rw [byte_toNat (by omega), byte_toNat (by omega)] at this
    omega
  have bc : byte c.toNat ≠ 0 := by rw [Ne, byte_zero (by omega)]; exact hc0
  have bfe : byte c.toNat ≠ 0xfe := bn 0xfe (by decide) (by decide)
  have bff : byte c.toNat ≠ 0xff := bn 0xff (by decide) (by decide)
  have bef : byte c.toNat ≠ 0xef := bn 0xef (by decide) (by decide)
  have ht : ∀ big, t.flatMap (Charset.utf16 big).char = [] ∨
      ∃ z w r', t.flatMap (Charset.utf16 big).char = z :: w :: r' ∧ (z ≠ 0 ∨ w ≠ 0) := by
    intro big
    match t, hs with
    | [], _ => exact .inl rfl
    | d :: t, hs =>
      obtain ⟨z, w, r, e, hz⟩ := utf16_first big d (h0 d (by rw [hs]; simp))
      right; rw [List.flatMap_cons, e]; exact ⟨z, w, _, rfl, hz⟩
  have e16 : ∀ big, (Charset.utf16 big).char c = ordered big [0, byte c.toNat] := by
    intro big; rw [Charset.char, if_pos (by omega), twoBytes_ascii (by omega)]
  have e32 : ∀ big, (Charset.utf32 big).char c = ordered big [0, 0, 0, byte c.toNat] := by
    intro big; rw [Charset.char, fourBytes, show c.toNat / 2 ^ 16 = 0 by omega, show c.toNat % 2 ^ 16 = c.toNat by omega,
      twoBytes_ascii (by omega), twoBytes_ascii (n := c.toNat) (by omega)]; rfl
  cases mark
  · -- without a mark
    rw [Charset.encode]
    simp only [Bool.false_eq_true, if_false, List.nil_append]
    rcases e with _ | big | big
    · rw [utf8_encode]
      have hu : utf8 s = byte c.toNat :: t.flatMap String.utf8EncodeChar := by
        rw [Hmac.utf8_flatMap, hs, List.flatMap_cons, utf8_ascii hc]; rfl
      have hz : 0 ∉ t.flatMap String.utf8EncodeChar := by
        intro hz
        obtain ⟨d, hd, hz⟩ := List.mem_flatMap.1 hz
        exact h0 d (by rw [hs]; exact List.mem_cons_of_mem _ hd) (Hmac.encodeChar_zero d hz)
      have : detectEncoding (utf8 s) = .utf8 := by rw [hu]; exact detect8 bc bfe bff bef hz
      rw [this]; exact ofUtf8_utf8 s
    · have key := ofUtf16_encode big s
      have hd : detectEncoding (s.toList.flatMap (Charset.utf16 big).char) = if big then .utf16be else .utf16le := by
        rw [hs, List.flatMap_cons, e16]
        cases big
        · exact detect16le bc bfe bff bef (ht false)
        · refine detect16be bc ?_
          rcases ht true with h | ⟨z, w, r, h, _⟩ <;> rw [h]
          · exact .inl rfl
          · exact .inr (by simp)
      rw [hd]
      cases big
      · exact key
      · exact key
    · have key := ofUtf32_encode big s
      have hd : detectEncoding (s.toList.flatMap (Charset.utf32 big).char) = if big then .utf32be else .utf32le := by
        rw [hs, List.flatMap_cons, e32]
        cases big
        · exact detect32le bc bff _
        · exact detect32be bff _
      rw [hd]
      cases big
      · exact key
      · exact key
  · -- after a mark
    rw [Charset.encode]
    simp only [if_true]
    rcases e with _ | big | big
    · rw [utf8_encode]
      have hm : Charset.utf8.char '\ufeff' = [0xef, 0xbb, 0xbf] := by rw [utf8_char]; decide
      rw [hm]
      exact ofUtf8_utf8 s
    · have key := ofUtf16_encode big s
      cases big
      · show decodeWith (detectEncoding (0xff :: 0xfe :: s.toList.flatMap (Charset.utf16 false).char)) (0xff :: 0xfe :: s.toList.flatMap (Charset.utf16 false).char) = _
        have hd : detectEncoding (0xff :: 0xfe :: s.toList.flatMap (Charset.utf16 false).char) = .utf16 := by
          rw [hs, List.flatMap_cons, e16]
          show detectEncoding (0xff :: 0xfe :: byte c.toNat :: 0 :: _) = _
          simp [detectEncoding, startsWith, bc.symm]
        rw [hd]; exact key
      · exact key
    · have key := ofUtf32_encode big s
      cases big <;> exact key

/-! ## JSON texts -/

namespace Json

/-- There is no NUL in it. -/
def NoNul (w : List Char) : Prop := ∀ d ∈ w, d ≠ '\x00'

theorem NoNul.append {a b : List Char} (h : NoNul a) (h' : NoNul b) : NoNul (a ++ b) := by
  intro d hd
  rcases List.mem_append.1 hd with hd | hd
  · exact h d hd
  · exact h' d hd

theorem NoNul.cons {c : Char} {b : List Char} (h : c ≠ '\x00') (h' : NoNul b) : NoNul (c :: b) := by
  intro d hd
  rcases List.mem_cons.1 hd with rfl | hd
  · exact h
  · exact h' d hd

theorem noNul_nil : NoNul [] := by intro d hd; cases hd

theorem noNul_blank {w : List Char} (h : Blank w) : NoNul w := by
  intro d hd
  rcases h d hd with rfl | rfl | rfl | rfl <;> decide

theorem noNul_digits (ds : List (Fin 10)) : NoNul (ds.map digitChar) := by
  intro d hd
  obtain ⟨x, _, rfl⟩ := List.mem_map.1 hd
  have : ∀ x : Fin 10, digitChar x ≠ '\x00' := by decide
  exact this x

theorem noNul_decimal (n : Nat) : NoNul (decimal n) := by
  intro d hd e
  have := decimal_digits n d hd
  rw [e] at this; revert this; decide

theorem noNul_numeral (n : Numeral) : NoNul n.text := by
  have hs : ∀ o, NoNul (signText o) := by rintro (_ | _ | _) <;> intro d hd <;> revert d <;> decide
  rw [Numeral.text, decimal_repr]
  refine .append (.append (.append ?_ (noNul_decimal _)) ?_) ?_
  · split
    · exact .cons (by decide) noNul_nil
    · exact noNul_nil
  · split
    · exact noNul_nil
    · exact .cons (by decide) (noNul_digits _)
  · cases n.expo with
    | none => exact noNul_nil
    | some e => exact .cons (by split <;> decide) (.append (hs _) (noNul_digits _))

theorem noNul_unit {n : Nat} {u : List Char} (h : JsonUnit n u) : NoNul u := by
  have hx : ∀ {n c}, HexDigit n c → c ≠ '\x00' := by
    rintro n c ⟨h1, h2⟩ rfl
    have : ∀ n < 16, ¬ ("0123456789abcdef".toList[n]? = some '\x00' ∨ "0123456789ABCDEF".toList[n]? = some '\x00') := by decide
    exact this n h1 h2
  obtain ⟨a, b, c, d, w, x, y, z, h1, h2, h3, h4, _⟩ := h
  exact .cons (by decide) (.cons (by decide) (.cons (hx h1) (.cons (hx h2) (.cons (hx h3) (.cons (hx h4) noNul_nil)))))

theorem noNul_char {c : Char} {u : List Char} (h : JsonChar c u) : NoNul u := by
  cases h with
  | plain h1 h2 h3 => exact .cons (by rintro rfl; revert h3; decide) noNul_nil
  | short e h =>
    refine .cons (by decide) (.cons ?_ noNul_nil)
    rintro rfl
    simp at h
  | code u h => exact noNul_unit h
  | pair u w _ h1 h2 => exact .append (noNul_unit h1) (noNul_unit h2)

theorem noNul_chars : ∀ {s u : List Char}, JsonChars s u → NoNul u
  | _, _, .nil => noNul_nil
  | _, _, .cons _ _ _ _ h1 h2 => .append (noNul_char h1) (noNul_chars h2)

theorem noNul_str {s : String} {w : List Char} (h : JsonStr s w) : NoNul w := by
  obtain ⟨u, h1, rfl⟩ := h
  exact .cons (by decide) (.append (noNul_chars h1) (.cons (by decide) noNul_nil))

mutual
theorem noNul_item : ∀ {v : Value} {w : List Char}, JsonItem v w → NoNul w
  | _, _, .none => by unfold NoNul; decide
  | _, _, .true => by unfold NoNul; decide
  | _, _, .false => by unfold NoNul; decide
  | _, _, .nan => by unfold NoNul; decide
  | _, _, .infinity => by unfold NoNul; decide
  | _, _, .minusInfinity => by unfold NoNul; decide
  | _, _, .int _ _ => noNul_numeral _
  | _, _, .float _ _ _ _ => noNul_numeral _
  | _, _, .str _ _ h => noNul_str h
  | _, _, .emptyList _ h => .cons (by decide) (.append (noNul_blank h) (.cons (by decide) noNul_nil))
  | _, _, .emptyDict _ h => .cons (by decide) (.append (noNul_blank h) (.cons (by decide) noNul_nil))
  | _, _, .list _ _ h => .cons (by decide) (.append (noNul_items h) (.cons (by decide) noNul_nil))
  | _, _, .dict _ _ _ h => .cons (by decide) (.append (noNul_members h) (.cons (by decide) noNul_nil))
theorem noNul_items : ∀ {l : List Value} {w : List Char}, JsonItems l w → NoNul w
  | _, _, .last _ _ _ _ h1 h2 h3 => .append (noNul_blank h1) (.append (noNul_item h2) (noNul_blank h3))
  | _, _, .more _ _ _ _ _ _ h1 h2 h3 h4 =>
    .append (noNul_blank h1) (.append (noNul_item h2) (.append (noNul_blank h3) (.cons (by decide) (noNul_items h4))))
theorem noNul_members : ∀ {l : List (Value × Value)} {w : List Char}, JsonMembers l w → NoNul w
  | _, _, .last _ _ _ _ _ _ _ _ h1 h2 h3 h4 h5 h6 =>
    .append (noNul_blank h1) (.append (noNul_str h2) (.append (noNul_blank h3) (.cons (by decide)
      (.append (noNul_blank h4) (.append (noNul_item h5) (noNul_blank h6))))))
  | _, _, .more _ _ _ _ _ _ _ _ _ _ h1 h2 h3 h4 h5 h6 h7 =>
    .append (noNul_blank h1) (.append (noNul_str h2) (.append (noNul_blank h3) (.cons (by decide)
      (.append (noNul_blank h4) (.append (noNul_item h5) (.append (noNul_blank h6) (.cons (by decide) (noNul_members h7))))))))
end

theorem ascii_number {c : Char} (h : startsNumber c) : c.toNat < 0x80 := by
  rcases h with rfl | h
  · decide
  · simp [isDigit] at h
    have : c.toNat ≤ 57 := h.2
    omega

theorem ascii_item : ∀ {v : Value} {w : List Char}, JsonItem v w → ∃ c t, w = c :: t ∧ c.toNat < 0x80
  | _, _, .none => ⟨'n', _, rfl, by decide⟩
  | _, _, .true => ⟨'t', _, rfl, by decide⟩
  | _, _, .false => ⟨'f', _, rfl, by decide⟩
  | _, _, .nan => ⟨'N', _, rfl, by decide⟩
  | _, _, .infinity => ⟨'I', _, rfl, by decide⟩
  | _, _, .minusInfinity => ⟨'-', _, rfl, by decide⟩
  | _, _, .int neg n => by
    obtain ⟨_, c, t, e, h, _⟩ := int_spelled neg n (r := []) (by intro c hc; cases hc)
    exact ⟨c, t, e, ascii_number h⟩
  | _, _, .float n x h _ => by
    obtain ⟨_, c, t, e, h, _⟩ := number_numeral n h (r := []) (by intro c hc; cases hc)
    exact ⟨c, t, e, ascii_number h⟩
  | _, _, .str s w ⟨u, _, e⟩ => ⟨'"', _, e, by decide⟩
  | _, _, .emptyList .. => ⟨'[', _, rfl, by decide⟩
  | _, _, .list .. => ⟨'[', _, rfl, by decide⟩
  | _, _, .emptyDict .. => ⟨'{', _, rfl, by decide⟩
  | _, _, .dict .. => ⟨'{', _, rfl, by decide⟩

theorem plain_text {v : Value} {s : String} (h : JsonText v s) : Plain s.toList := by
  obtain ⟨a, w, b, ha, hw, hb, e⟩ := h
  have h0 : NoNul s.toList := by rw [e]; exact .append (noNul_blank ha) (.append (noNul_item hw) (noNul_blank hb))
  cases a with
  | nil =>
    obtain ⟨c, t, rfl, hc⟩ := ascii_item hw
    exact ⟨c, t ++ b, by rw [e]; rfl, hc, h0⟩
  | cons c a =>
    refine ⟨c, a ++ (w ++ b), by rw [e]; rfl, ?_, h0⟩
    rcases ha c (by simp) with rfl | rfl | rfl | rfl <;> decide

/-- A text in any of the encodings is read. -/
theorem loadsBytes_encode (e : Charset) (mark : Bool) {v : Value} {s : String} (h : JsonText v s) : loadsBytes (e.encode mark s) = .ok v := by
  rw [loadsBytes, decode_encode e mark s (plain_text h)]
  exact loads_spelled h

theorem loadsBytes_utf8 {v : Value} {s : String} (h : JsonText v s) : loadsBytes (utf8 s) = .ok v := by
  have := loadsBytes_encode .utf8 false h
  rwa [Charset.encode, utf8_encode] at this

theorem loadsBytes_text {v : Value} (h : Fits jsonLimits v) : loadsBytes (utf8 (String.ofList (text v))) = .ok v :=
  loadsBytes_utf8 ⟨[], text v, [], blank_nil, conforms v h, blank_nil, by simp⟩

end Json
end Wamp
