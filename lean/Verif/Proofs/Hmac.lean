import Verif.Model.Hmac
import Verif.Spec.Hmac
import Verif.Proofs.Bytes

/-! # HMAC: keys taken for one, and where equal MACs come from -/

namespace Wamp.Hmac
open Spec
variable (H : Bytes → Bytes)

theorem utf8_injective {s t : String} (h : utf8 s = utf8 t) : s = t := by
  have := congrArg ofUtf8 h
  rw [ofUtf8_utf8, ofUtf8_utf8] at this
  exact Option.some.inj this

/-- The key or its hash -/
def shortKey (k : Bytes) : Bytes := if k.length > 64 then H k else k

theorem blockKey_eq (k : Bytes) : blockKey H k = shortKey H k ++ List.replicate (64 - (shortKey H k).length) 0 := rfl

theorem shortKey_length (hH : ∀ x, (H x).length ≤ 64) (k : Bytes) : (shortKey H k).length ≤ 64 := by
  unfold shortKey; split
  · exact hH k
  · omega

theorem blockKey_length (hH : ∀ x, (H x).length ≤ 64) (k : Bytes) : (blockKey H k).length = 64 := by
  have := shortKey_length H hH k
  rw [blockKey_eq, List.length_append, List.length_replicate]; omega

theorem pad_eq_iff {x y : Bytes} (hx : x.length ≤ 64) (hy : y.length ≤ 64) :
    x ++ List.replicate (64 - x.length) 0 = y ++ List.replicate (64 - y.length) 0 ↔ UpToZeros x y := by
  constructor
  · intro h; exact ⟨_, _, h⟩
  · rintro ⟨m, n, h⟩
    apply List.ext_getElem?
    intro i
    have hi := congrArg (fun l => l[i]?) h
    simp only [List.getElem?_append, List.getElem?_replicate] at hi ⊢
    by_cases h1 : i < x.length <;> by_cases h2 : i < y.length <;> simp only [h1, h2, if_true, if_false] at hi ⊢
    · exact hi
    · by_cases h3 : i - y.length < n
      · rw [if_pos h3] at hi
        rw [hi, if_pos (by omega)]
      · rw [if_neg h3, List.getElem?_eq_getElem h1] at hi; cases hi
    · by_cases h3 : i - x.length < m
      · rw [if_pos h3] at hi
        rw [← hi, if_pos (by omega)]
      · rw [if_neg h3, List.getElem?_eq_getElem h2] at hi; cases hi
    · by_cases h3 : i < 64
      · rw [if_pos (by omega), if_pos (by omega)]
      · rw [if_neg (by omega), if_neg (by omega)]

theorem upToZeros_length {x y : Bytes} (h : UpToZeros x y) (hl : x.length = y.length) : x = y := by
  obtain ⟨m, n, h⟩ := h
  exact (List.append_inj h hl).1

/-- Keys have the same block iff HMAC takes them for one. -/
theorem blockKey_iff (hH : ∀ x, (H x).length = 32) (k k' : Bytes) : blockKey H k = blockKey H k' ↔ SameKey H k k' := by
  have hH' : ∀ x, (H x).length ≤ 64 := fun x => by rw [hH]; omega
  rw [blockKey_eq, blockKey_eq, pad_eq_iff (shortKey_length H hH' k) (shortKey_length H hH' k')]
  unfold shortKey SameKey
  by_cases h1 : k.length > 64 <;> by_cases h2 : k'.length > 64 <;> simp only [h1, h2, if_true, if_false]
  · constructor
    · intro h; exact .inr (.inl ⟨trivial, trivial, upToZeros_length h (by rw [hH, hH])⟩)
    · rintro (⟨h, -, -⟩ | ⟨-, -, h⟩ | ⟨-, h, -⟩ | ⟨h, -, -⟩)
      · omega
      · rw [h]; exact ⟨0, 0, rfl⟩
      · omega
      · omega
  · constructor
    · intro h; exact .inr (.inr (.inl ⟨trivial, by omega, h⟩))
    · rintro (⟨h, -, -⟩ | ⟨-, h, -⟩ | ⟨-, -, h⟩ | ⟨-, h, -⟩)
      · omega
      · cases h
      · exact h
      · cases h
  · constructor
    · intro h; exact .inr (.inr (.inr ⟨by omega, trivial, h⟩))
    · rintro (⟨-, h, -⟩ | ⟨h, -, -⟩ | ⟨h, -, -⟩ | ⟨-, -, h⟩)
      · omega
      · cases h
      · cases h
      · exact h
  · constructor
    · intro h; exact .inl ⟨by omega, by omega, h⟩
    · rintro (⟨-, -, h⟩ | ⟨h, -, -⟩ | ⟨h, -, -⟩ | ⟨-, h, -⟩)
      · exact h
      · cases h
      · cases h
      · cases h

theorem map_xor_injective (c : UInt8) {x y : Bytes} (h : x.map (· ^^^ c) = y.map (· ^^^ c)) : x = y := by
  have := congrArg (List.map (· ^^^ c)) h
  simpa [List.map_map, Function.comp_def, UInt8.xor_assoc] using this

/-- Equal MACs: the same key and the same text, or a collision of the hash, at one of two places that can be computed. -/
theorem hmac_eq (hH : ∀ x, (H x).length = 32) (k k' m m' : Bytes) (h : hmac H k m = hmac H k' m') :
    (SameKey H k k' ∧ m = m') ∨ Collides H (outer H k m) (outer H k' m') ∨ Collides H (inner H k m) (inner H k' m') := by
  have hH' : ∀ x, (H x).length ≤ 64 := fun x => by rw [hH]; omega
  by_cases ho : outer H k m = outer H k' m'
  · by_cases hi : inner H k m = inner H k' m'
    · unfold inner at hi
      have := List.append_inj hi (by simp [blockKey_length H hH'])
      exact .inl ⟨(blockKey_iff H hH k k').1 (map_xor_injective _ this.1), this.2⟩
    · unfold outer at ho
      exact .inr (.inr ⟨hi, (List.append_inj ho (by simp [blockKey_length H hH'])).2⟩)
  · exact .inr (.inl ⟨ho, h⟩)

theorem hmac_same (hH : ∀ x, (H x).length = 32) {k k' : Bytes} (h : SameKey H k k') : hmac H k = hmac H k' := by
  have := (blockKey_iff H hH k k').2 h
  funext m
  unfold hmac outer inner
  rw [this]

theorem pbkdf2_same (hH : ∀ x, (H x).length = 32) {k k' : Bytes} (h : SameKey H k k') : pbkdf2Checked H k = pbkdf2Checked H k' := by
  funext salt i l
  unfold pbkdf2Checked pbkdf2
  rw [hmac_same H hH h]

/-- Keys without zero bytes, neither longer than a block -/
theorem sameKey_nonzero {k k' : Bytes} (h0 : 0 ∉ k) (h0' : 0 ∉ k') (h : UpToZeros k k') : k = k' := by
  obtain ⟨m, n, h⟩ := h
  rcases Nat.lt_trichotomy k.length k'.length with hl | hl | hl
  · have := congrArg (fun l => l[k.length]?) h
    simp only [List.getElem?_append, Nat.lt_irrefl, if_false, hl, if_true, List.getElem?_replicate, Nat.sub_self] at this
    by_cases hm : 0 < m
    · rw [if_pos hm] at this
      exact absurd (List.mem_of_getElem? this.symm) h0'
    · rw [if_neg hm, List.getElem?_eq_getElem hl] at this; cases this
  · exact (List.append_inj h hl).1
  · have := congrArg (fun l => l[k'.length]?) h
    simp only [List.getElem?_append, Nat.lt_irrefl, if_false, hl, if_true, List.getElem?_replicate, Nat.sub_self] at this
    by_cases hn : 0 < n
    · rw [if_pos hn] at this
      exact absurd (List.mem_of_getElem? this) h0
    · rw [if_neg hn, List.getElem?_eq_getElem hl] at this; cases this

theorem encodeChar_zero (c : Char) (h : 0 ∈ String.utf8EncodeChar c) : c = '\x00' := by
  have key : c.val.toNat = 0 → c = '\x00' := fun h => by
    apply Char.ext; apply UInt32.toNat.inj; exact h
  have z : ∀ n, n < 256 → (0 : UInt8) = UInt8.ofNat n → n = 0 := fun n hn hz => by
    have := congrArg UInt8.toNat hz
    simp [UInt8.toNat_ofNat'] at this; omega
  apply key
  unfold String.utf8EncodeChar at h
  simp only at h
  split at h
  · simp only [List.mem_singleton] at h; exact z _ (by omega) h
  · split at h
    · simp only [List.mem_cons, List.not_mem_nil, or_false] at h
      rcases h with h | h <;> have := z _ (by omega) h <;> omega
    · split at h
      · simp only [List.mem_cons, List.not_mem_nil, or_false] at h
        rcases h with h | h | h <;> have := z _ (by omega) h <;> omega
      · simp only [List.mem_cons, List.not_mem_nil, or_false] at h
        rcases h with h | h | h | h <;> have := z _ (by omega) h <;> omega

theorem utf8_flatMap (s : String) : utf8 s = s.toList.flatMap String.utf8EncodeChar := by
  unfold utf8
  rw [String.toUTF8_eq_toByteArray, ← String.utf8Encode_toList, List.utf8Encode]
  simp

theorem utf8ByteSize_le (s : String) : s.utf8ByteSize ≤ 4 * s.toList.length := by
  rw [← utf8_length, utf8_flatMap]
  induction s.toList with
  | nil => simp
  | cons c l ih =>
    have : c.utf8Size ≤ 4 := c.utf8Size_le_four
    simp only [List.flatMap_cons, List.length_append, String.length_utf8EncodeChar, List.length_cons]; omega

theorem b64encodeChars_length (b : Bytes) : (b64encodeChars b).length ≤ 4 * b.length := by
  fun_induction b64encodeChars b <;> simp_all <;> omega

theorem utf8_zero (s : String) (h : 0 ∈ utf8 s) : '\x00' ∈ s.toList := by
  rw [utf8_flatMap, List.mem_flatMap] at h
  obtain ⟨c, hc, h⟩ := h
  rw [← encodeChar_zero c h]; exact hc

end Wamp.Hmac
