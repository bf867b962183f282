import Verif.Model.Auth

/-! # Hex and base64 round trips -/

namespace Wamp

/-! ## Hex -/

theorem hexVal_hexDigit : ∀ n, n < 16 → hexVal (hexDigit n) = some n := by decide
theorem hexDigit_ascii : ∀ n, n < 16 → (hexDigit n).toNat < 128 := by decide

theorem unhexlifyChars_append (a : Bytes) (cs : List Char) :
    unhexlifyChars (hexlifyChars a ++ cs) = (unhexlifyChars cs).map (a ++ ·) := by
  induction a with
  | nil => simp only [hexlifyChars, List.nil_append]; cases unhexlifyChars cs <;> rfl
  | cons b a ih =>
    have h1 := hexVal_hexDigit (b.toNat / 16) (by have := b.toNat_lt; omega)
    have h2 := hexVal_hexDigit (b.toNat % 16) (by omega)
    have h3 : UInt8.ofNat (b.toNat / 16 * 16 + b.toNat % 16) = b := by
      rw [show b.toNat / 16 * 16 + b.toNat % 16 = b.toNat by omega, UInt8.ofNat_toNat]
    simp only [hexlifyChars, List.cons_append, unhexlifyChars, h1, h2, h3, ih]
    cases unhexlifyChars cs <;> rfl

theorem unhexlifyChars_hexlify (a : Bytes) : unhexlifyChars (hexlifyChars a) = .ok a := by
  have := unhexlifyChars_append a []
  simpa [unhexlifyChars, Except.map] using this

theorem hexlifyChars_ascii (a : Bytes) : ∀ c ∈ hexlifyChars a, c.toNat < 128 := by
  induction a with
  | nil => intro c h; cases h
  | cons b a ih =>
    intro c h
    simp only [hexlifyChars, List.mem_cons] at h
    rcases h with rfl | rfl | h
    · exact hexDigit_ascii _ (by have := b.toNat_lt; omega)
    · exact hexDigit_ascii _ (by omega)
    · exact ih c h

theorem isAscii_iff {s : String} : isAscii s = true ↔ ∀ c ∈ s.toList, c.toNat < 128 := by
  simp [isAscii]

theorem isAscii_hexlify (a : Bytes) : isAscii (hexlify a) = true := by
  rw [isAscii_iff, hexlify, String.toList_ofList]; exact hexlifyChars_ascii a

theorem isAscii_append {s t : String} (hs : isAscii s = true) (ht : isAscii t = true) : isAscii (s ++ t) = true := by
  rw [isAscii_iff] at *
  intro c hc
  rw [String.toList_append, List.mem_append] at hc
  exact hc.elim (hs c) (ht c)

theorem unhexlify_hexlify (a : Bytes) : unhexlify (hexlify a) = .ok a := by
  unfold unhexlify
  rw [if_pos (isAscii_hexlify a), hexlify, String.toList_ofList, unhexlifyChars_hexlify]

theorem unhexlify_hexlify_append (a : Bytes) (s : String) (b : Bytes) (h : unhexlify s = .ok b) :
    unhexlify (hexlify a ++ s) = .ok (a ++ b) := by
  unfold unhexlify at h ⊢
  split at h
  · rename_i hs
    rw [if_pos (isAscii_append (isAscii_hexlify a) hs), String.toList_append, hexlify, String.toList_ofList,
      unhexlifyChars_append, h]
    rfl
  · cases h

/-! ## Base64 -/

theorem b64Val_b64Char : ∀ n, n < 64 → b64Val (b64Char n) = some n := by decide
theorem b64Char_ne_pad : ∀ n, n < 64 → b64Char n ≠ '=' := by decide
theorem b64Char_ascii : ∀ n, n < 64 → (b64Char n).toNat < 128 := by decide

theorem b64loop_char {n : Nat} (h : n < 64) (rest : List Char) (q l p : Nat) :
    b64loop (b64Char n :: rest) q l p =
      match q with
        | 0 => b64loop rest 1 n 0
        | 1 => (b64loop rest 2 (n % 16) 0).map (UInt8.ofNat (l * 4 + n / 16) :: ·)
        | 2 => (b64loop rest 3 (n % 4) 0).map (UInt8.ofNat (l * 16 + n / 4) :: ·)
        | _ => (b64loop rest 0 0 0).map (UInt8.ofNat (l * 64 + n) :: ·) := by
  rw [b64loop, if_neg (b64Char_ne_pad n h), b64Val_b64Char n h]
  rfl

theorem b64loop_pad (rest : List Char) (q l p : Nat) :
    b64loop ('=' :: rest) q l p =
      if q ≥ 2 then (if q + (p + 1) ≥ 4 then .ok [] else b64loop rest q l (p + 1)) else b64loop rest q l p := by
  rw [b64loop, if_pos rfl]

theorem b64loop_0 {n : Nat} (h : n < 64) (rest : List Char) (l p : Nat) :
    b64loop (b64Char n :: rest) 0 l p = b64loop rest 1 n 0 := b64loop_char h rest 0 l p
theorem b64loop_1 {n : Nat} (h : n < 64) (rest : List Char) (l p : Nat) {x : UInt8} (hx : l * 4 + n / 16 = x.toNat) :
    b64loop (b64Char n :: rest) 1 l p = (b64loop rest 2 (n % 16) 0).map (x :: ·) := by
  have := b64loop_char h rest 1 l p
  simp only [hx, UInt8.ofNat_toNat] at this; exact this
theorem b64loop_2 {n : Nat} (h : n < 64) (rest : List Char) (l p : Nat) {x : UInt8} (hx : l * 16 + n / 4 = x.toNat) :
    b64loop (b64Char n :: rest) 2 l p = (b64loop rest 3 (n % 4) 0).map (x :: ·) := by
  have := b64loop_char h rest 2 l p
  simp only [hx, UInt8.ofNat_toNat] at this; exact this
theorem b64loop_3 {n : Nat} (h : n < 64) (rest : List Char) (l p : Nat) {x : UInt8} (hx : l * 64 + n = x.toNat) :
    b64loop (b64Char n :: rest) 3 l p = (b64loop rest 0 0 0).map (x :: ·) := by
  have := b64loop_char h rest 3 l p
  simp only [hx, UInt8.ofNat_toNat] at this; exact this

theorem b64loop_encode (b : Bytes) : b64loop (b64encodeChars b) 0 0 0 = .ok b := by
  fun_induction b64encodeChars b with
  | case1 => rfl
  | case2 a =>
    have ha := a.toNat_lt
    rw [b64loop_0 (by omega), b64loop_1 (x := a) (by omega) _ _ _ (by omega), b64loop_pad, if_pos (by omega), if_neg (by omega),
      b64loop_pad, if_pos (by omega), if_pos (by omega)]
    rfl
  | case3 a b =>
    have ha := a.toNat_lt
    have hb := b.toNat_lt
    rw [b64loop_0 (by omega), b64loop_1 (x := a) (by omega) _ _ _ (by omega), b64loop_2 (x := b) (by omega) _ _ _ (by omega),
      b64loop_pad, if_pos (by omega), if_pos (by omega)]
    rfl
  | case4 a b c rest ih =>
    have ha := a.toNat_lt
    have hb := b.toNat_lt
    have hc := c.toNat_lt
    rw [b64loop_0 (by omega), b64loop_1 (x := a) (by omega) _ _ _ (by omega), b64loop_2 (x := b) (by omega) _ _ _ (by omega),
      b64loop_3 (x := c) (by omega) _ _ _ (by omega), ih]
    rfl

theorem b64encodeChars_ascii (b : Bytes) : ∀ c ∈ b64encodeChars b, c.toNat < 128 := by
  fun_induction b64encodeChars b with
  | case1 => intro c h; cases h
  | case2 a =>
    have ha := a.toNat_lt
    intro c h
    simp only [List.mem_cons, List.not_mem_nil, or_false] at h
    rcases h with rfl | rfl | rfl | rfl
    · exact b64Char_ascii _ (by omega)
    · exact b64Char_ascii _ (by omega)
    · decide
    · decide
  | case3 a b =>
    have ha := a.toNat_lt
    have hb := b.toNat_lt
    intro c h
    simp only [List.mem_cons, List.not_mem_nil, or_false] at h
    rcases h with rfl | rfl | rfl | rfl
    · exact b64Char_ascii _ (by omega)
    · exact b64Char_ascii _ (by omega)
    · exact b64Char_ascii _ (by omega)
    · decide
  | case4 a b c rest ih =>
    have ha := a.toNat_lt
    have hb := b.toNat_lt
    have hc := c.toNat_lt
    intro x h
    simp only [List.mem_cons] at h
    rcases h with rfl | rfl | rfl | rfl | h
    · exact b64Char_ascii _ (by omega)
    · exact b64Char_ascii _ (by omega)
    · exact b64Char_ascii _ (by omega)
    · exact b64Char_ascii _ (by omega)
    · exact ih x h

/-- Decoding an encoding gives the bytes back. -/
theorem b64decode_b64encode (b : Bytes) : b64decode (b64encode b) = .ok b := by
  have : isAscii (b64encode b) = true := by
    rw [isAscii_iff, b64encode, String.toList_ofList]; exact b64encodeChars_ascii b
  unfold b64decode
  rw [if_pos this, b64encode, String.toList_ofList, b64loop_encode]

theorem isAscii_b64encode (b : Bytes) : isAscii (b64encode b) = true := by
  rw [isAscii_iff, b64encode, String.toList_ofList]; exact b64encodeChars_ascii b

theorem unhexlifyChars_valueError (cs : List Char) (e : Exc) : unhexlifyChars cs = .error e → e.isValueError = true := by
  fun_induction unhexlifyChars cs with
  | case1 => intro h; cases h
  | case2 => intro h; cases h; rfl
  | case3 a b rest x y hx hy ih =>
    intro h
    cases hr : unhexlifyChars rest with
    | error e' => rw [hr] at h; cases h; exact ih hr
    | ok b => rw [hr] at h; cases h
  | case4 => intro h; cases h; rfl

end Wamp
