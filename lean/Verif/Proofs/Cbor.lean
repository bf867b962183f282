import Verif.Proofs.MsgPack

/-! # `cbor2.loads` restores what `cbor2.dumps` wrote -/

namespace Wamp.Cbor
open Wamp.Spec
open Wamp.MsgPack (be_one toNat_small length_flatMap_le)

theorem decode_byte (f : Nat) {m i n : Nat} (hm : m < 7) (hi : i < 32) {r r' : Bytes}
    (h : argument i r = .ok (n, r')) : decode (f + 1) (be 1 (m * 32 + i) ++ r) = decodeBody (decode f) m n r' := by
  have ht : (UInt8.ofNat (m * 32 + i)).toNat = m * 32 + i := toNat_small (by omega)
  have h1 : (m * 32 + i) / 32 = m := by omega
  have h2 : (m * 32 + i) % 32 = i := by omega
  have h3 : ¬ i = 31 := by rintro rfl; cases h
  rw [be_one, List.singleton_append, decode, ht, decodeRest]
  simp only [h1, h2, if_neg (show ¬ m = 7 by omega), if_neg h3, h, bind, Except.bind]

theorem decode_head (f : Nat) {m n : Nat} (hm : m < 7) (hn : n < 2 ^ 64) (r : Bytes) :
    decode (f + 1) (head m n ++ r) = decodeBody (decode f) m n r := by
  unfold head
  split
  · exact decode_byte f hm (by omega) (by rw [argument, if_pos (by assumption)])
  split
  · rw [List.append_assoc]; exact decode_byte f hm (by omega) (takeNat_be _ (by omega) r)
  split
  · rw [List.append_assoc]; exact decode_byte f hm (by omega) (takeNat_be _ (by omega) r)
  split
  · rw [List.append_assoc]; exact decode_byte f hm (by omega) (takeNat_be _ (by omega) r)
  · rw [List.append_assoc]; exact decode_byte f hm (by omega) (takeNat_be _ (by omega) r)

theorem head_pos (m n : Nat) : 0 < (head m n).length := by
  unfold head; repeat' split
  all_goals simp [be_length]

theorem ofBe_beMin (n : Nat) : ofBe (beMin n) = n := by
  induction n using Nat.strongRecOn with
  | _ n ih =>
    rw [beMin]
    split
    · subst n; rfl
    · rw [ofBe_append_one, ih (n / 256) (by omega), UInt8.toNat_ofNat']; omega

theorem log2_le {a b : Nat} (h : a ≤ b) : a.log2 ≤ b.log2 := by
  by_cases ha : a = 0
  · subst ha; simp
  · rw [Nat.le_log2 (by omega)]
    exact Nat.le_trans (Nat.log2_self_le ha) h

theorem beMin_length (n : Nat) : (beMin n).length ≤ n.log2 + 1 := by
  induction n using Nat.strongRecOn with
  | _ n ih =>
    rw [beMin]
    split
    · simp
    · have h := ih (n / 256) (by omega)
      have : (n / 256).log2 ≤ (n / 2).log2 := log2_le (by omega)
      rw [List.length_append, List.length_singleton]
      by_cases h2 : n < 2
      · have : n = 1 := by omega
        subst this; simp [beMin]
      · have : n.log2 = (n / 2).log2 + 1 := by rw [Nat.log2_def, if_pos (by omega)]
        omega

theorem decode_magnitude (f : Nat) {m t n : Nat} (hm : m < 7) (ht : t < 2 ^ 64) (hn : n.log2 < 2 ^ 63) (r : Bytes) :
    decode (f + 2) (magnitude m t n ++ r) =
      if n < 2 ^ 64 then decodeBody (decode (f + 1)) m n r
      else decodeTag (fun _ => .ok (.bytes (beMin n), r)) t r := by
  unfold magnitude
  split
  · rw [decode_head _ hm (by assumption)]
  · rw [List.append_assoc, decode_head _ (by omega) ht]
    have hl := beMin_length n
    have : decode (f + 1) (head 2 (beMin n).length ++ beMin n ++ r) = .ok (.bytes (beMin n), r) := by
      rw [List.append_assoc, decode_head _ (by omega) (by omega)]
      show decodeBin _ _ = _
      rw [decodeBin, takeBytes_append _ rfl]; rfl
    show decodeTag _ _ _ = _
    unfold decodeTag
    simp only [this]

theorem encodeList_flatMap : ∀ l, encodeList l = l.flatMap encode
  | [] => by simp [encodeList]
  | v :: l => by simp [encodeList, encodeList_flatMap l]

theorem encodeDict_flatMap : ∀ d, encodeDict d = d.flatMap fun kv => encode kv.1 ++ encode kv.2
  | [] => by simp [encodeDict]
  | (k, v) :: d => by simp [encodeDict, encodeDict_flatMap d]

theorem magnitude_pos (m t n : Nat) : 0 < (magnitude m t n).length := by
  unfold magnitude
  split
  · exact head_pos m n
  · rw [List.length_append]; have := head_pos 6 t; omega

theorem float_pos (f : PyFloat) : 0 < (float f).length := by
  unfold float; repeat' split
  all_goals simp

theorem decode_short (f : Nat) (a b : UInt8) (x : PyFloat) (h : PyFloat.widen 5 10 (ofBe [a, b]) = some x) (r : Bytes) :
    decode (f + 1 + 1) ([0xf9, a, b] ++ r) = .ok (.float x, r) := by
  show decodeShort 5 10 (ofBe [a, b]) r = _
  rw [decodeShort, h]

theorem encode_pos : ∀ v, Fits cborLimits v → 0 < (encode v).length
  | .none, _ => by simp [encode]
  | .bool false, _ => by simp [encode]
  | .bool true, _ => by simp [encode]
  | .int (.ofNat n), _ => by rw [encode, integer]; exact magnitude_pos _ _ _
  | .int (.negSucc n), _ => by rw [encode, integer]; exact magnitude_pos _ _ _
  | .float f, _ => by rw [encode]; exact float_pos f
  | .str s, _ => by rw [encode, List.length_append]; have := head_pos 3 (utf8 s).length; omega
  | .bytes b, _ => by rw [encode, List.length_append]; have := head_pos 2 b.length; omega
  | .list b, _ => by rw [encode, List.length_append]; have := head_pos 4 b.length; omega
  | .dict b, _ => by rw [encode, List.length_append]; have := head_pos 5 b.length; omega
  | .obj .., h => by simp [Fits] at h

theorem log2_pred (n : Nat) : n.log2 ≤ (n + 1).log2 := log2_le (by omega)

/-- One more unit of fuel than the length, because a big integer is an item within an item. -/
theorem decode_encode : ∀ (f : Nat) (v : Value), Fits cborLimits v → (encode v).length ≤ f → ∀ r,
    decode (f + 1) (encode v ++ r) = .ok (v, r) := by
  intro f
  induction f with
  | zero =>
    intro v hv hl
    have := encode_pos v hv
    omega
  | succ f ih =>
    intro v hv hl r
    cases v with
    | none => rfl
    | bool b => cases b <;> rfl
    | int n =>
      rw [Fits] at hv
      have hv : n.natAbs.log2 < 2 ^ 63 := hv
      cases n with
      | ofNat n =>
        rw [encode, integer, decode_magnitude f (by omega) (by omega) (by exact hv)]
        split
        · rfl
        · show Except.ok (Value.int (ofBe (beMin n)), r) = _
          rw [ofBe_beMin]; rfl
      | negSucc n =>
        have hv : (n + 1).log2 < 2 ^ 63 := hv
        have := log2_pred n
        rw [encode, integer, decode_magnitude f (by omega) (by omega) (by omega)]
        split
        · show Except.ok (Value.int (-(n : Int) - 1), r) = _
          rw [Int.negSucc_eq]; congr 3; omega
        · show Except.ok (Value.int (-(ofBe (beMin n) : Int) - 1), r) = _
          rw [ofBe_beMin, Int.negSucc_eq]; congr 3; omega
    | float x =>
      rw [Fits] at hv
      have hv : PlainFloat x := hv
      rw [encode, float]
      split
      · rename_i hn
        have := hv (by simp [PyFloat.isNaN, hn.1, hn.2])
        subst this
        exact decode_short f _ _ _ (by decide) r
      split
      · rename_i h; subst h
        exact decode_short f _ _ _ (by decide) r
      split
      · rename_i h; subst h
        exact decode_short f _ _ _ (by decide) r
      show (takeNat eof 8 (be 8 x.bits.toNat ++ r) >>= fun y => Except.ok (Value.float ⟨BitVec.ofNat 64 y.1⟩, y.2)) = _
      rw [takeNat_be _ (by have := x.bits.isLt; omega)]
      simp [bind, Except.bind]
    | str s =>
      rw [Fits] at hv
      rw [encode, List.append_assoc, decode_head _ (by omega) (by rw [utf8_length]; exact hv)]
      show decodeStr _ _ = _
      rw [decodeStr, takeBytes_append _ rfl]
      simp only [bind, Except.bind, ofUtf8_utf8]
    | bytes b =>
      rw [Fits] at hv
      rw [encode, List.append_assoc, decode_head _ (by omega) hv.2]
      show decodeBin _ _ = _
      rw [decodeBin, takeBytes_append _ rfl]; rfl
    | list l =>
      rw [Fits, fitsList_iff] at hv
      rw [encode, encodeList_flatMap, List.length_append] at hl
      rw [encode, List.append_assoc, decode_head _ (by omega) hv.1]
      show decodeArray _ _ _ = _
      rw [decodeArray, encodeList_flatMap, readMany_flatMap]
      · rfl
      · intro v hm r
        have h1 := length_flatMap_le encode l v hm
        have h2 := head_pos 4 l.length
        exact ih v (hv.2 v hm) (by omega) r
    | dict d =>
      rw [Fits, fitsDict_iff] at hv
      rw [encode, encodeDict_flatMap, List.length_append] at hl
      rw [encode, List.append_assoc, decode_head _ (by omega) hv.1]
      show decodeMap _ _ _ = _
      rw [decodeMap, encodeDict_flatMap, readPairs_flatMap]
      · simp only [bind, Except.bind, ofPairs_nodup d hv.2.1]
      · intro kv hm r
        obtain ⟨⟨s, hs, hz⟩, _⟩ := hv.2.2 kv hm
        have h1 := length_flatMap_le (fun kv => encode kv.1 ++ encode kv.2) d kv hm
        have h2 := head_pos 5 d.length
        simp only [List.length_append] at h1
        have := ih kv.1 (by rw [hs, Fits]; exact hz) (by omega) r
        rw [decodeKey, this, hs]; rfl
      · intro kv hm r
        have h1 := length_flatMap_le (fun kv => encode kv.1 ++ encode kv.2) d kv hm
        have h2 := head_pos 5 d.length
        simp only [List.length_append] at h1
        exact ih kv.2 (hv.2.2 kv hm).2 (by omega) r
    | obj => simp [Fits] at hv

mutual
theorem encodable_fits : ∀ v, Fits cborLimits v → encodable v = .ok ()
  | .none, _ => by simp [encodable]
  | .bool _, _ => by simp [encodable]
  | .int n, h => by simp [encodable]
  | .float _, _ => by simp [encodable]
  | .str s, h => by simp [encodable]
  | .bytes b, h => by simp [encodable]
  | .list l, h => by rw [Fits] at h; rw [encodable, encodableList_fits l h.2]
  | .dict d, h => by rw [Fits] at h; rw [encodable, encodableDict_fits d h.2.2]
  | .obj .., h => by simp [Fits] at h
theorem encodableList_fits : ∀ l, FitsList cborLimits l → encodableList l = .ok ()
  | [], _ => by rw [encodableList]
  | v :: l, h => by rw [FitsList] at h; rw [encodableList, encodable_fits v h.1, encodableList_fits l h.2]; rfl
theorem encodableDict_fits : ∀ d, FitsDict cborLimits d → encodableDict d = .ok ()
  | [], _ => by rw [encodableDict]
  | (k, v) :: d, h => by
    rw [FitsDict] at h
    obtain ⟨⟨s, rfl, hs⟩, h2, h3⟩ := h
    have : encodable (.str s) = .ok () := by simp [encodable]
    rw [encodableDict, this, encodable_fits v h2, encodableDict_fits d h3]; rfl
end

theorem dumps_fits (v : Value) (h : Fits cborLimits v) : dumps v = .ok (encode v) := by
  rw [dumps, encodable_fits v h]; rfl

theorem loads_encode (v : Value) (h : Fits cborLimits v) (r : Bytes) : loads (encode v ++ r) = .ok v := by
  have := decode_encode ((encode v ++ r).length) v h (by simp) r
  rw [loads, this]; rfl

end Wamp.Cbor
