import Verif.Model.Bytes

/-! # Reading back what was written: numbers, text, items in a row -/

namespace Wamp

theorem ofBe_append_one (b : Bytes) (x : UInt8) : ofBe (b ++ [x]) = ofBe b * 256 + x.toNat := by
  simp [ofBe]

theorem be_length : ∀ k n, (be k n).length = k
  | 0, _ => rfl
  | k + 1, n => by simp [be, be_length k]

theorem ofBe_be : ∀ k n, n < 256 ^ k → ofBe (be k n) = n
  | 0, n, h => by simp at h; subst h; rfl
  | k + 1, n, h => by
    rw [be, ofBe_append_one, ofBe_be k (n / 256) (by rw [Nat.pow_succ] at h; omega), UInt8.toNat_ofNat']
    omega

theorem takeBytes_append (e : Exc) {n : Nat} {b : Bytes} (h : b.length = n) (r : Bytes) :
    takeBytes e n (b ++ r) = .ok (b, r) := by
  unfold takeBytes
  rw [if_neg (by simp; omega)]
  subst h
  simp

theorem takeNat_be (e : Exc) {k n : Nat} (h : n < 256 ^ k) (r : Bytes) : takeNat e k (be k n ++ r) = .ok (n, r) := by
  unfold takeNat
  rw [takeBytes_append e (be_length k n)]
  show Except.ok (ofBe (be k n), r) = _
  rw [ofBe_be k n h]

theorem ofUtf8_utf8 (s : String) : ofUtf8 (utf8 s) = some s := by
  unfold ofUtf8 utf8 String.fromUTF8?
  have : (⟨s.toUTF8.data.toList.toArray⟩ : ByteArray) = s.toUTF8 := by simp
  rw [this]
  have hv : s.toUTF8.IsValidUTF8 := by
    simpa using s.isValidUTF8
  rw [dif_pos hv]
  rfl

theorem utf8_length (s : String) : (utf8 s).length = s.utf8ByteSize := by
  simp [utf8]

theorem readMany_flatMap (item : Bytes → Except Exc (Value × Bytes)) (enc : Value → Bytes) : ∀ l : List Value,
    (∀ v ∈ l, ∀ r, item (enc v ++ r) = .ok (v, r)) → ∀ r, readMany item l.length (l.flatMap enc ++ r) = .ok (l, r)
  | [], _, r => rfl
  | v :: l, h, r => by
    have hv := h v (by simp)
    have hl := readMany_flatMap item enc l fun w hw => h w (by simp [hw])
    simp only [List.flatMap_cons, List.append_assoc, List.length_cons, readMany, hv, hl, bind, Except.bind]

theorem readPairs_flatMap (key item : Bytes → Except Exc (Value × Bytes)) (enc : Value → Bytes) : ∀ d : List (Value × Value),
    (∀ kv ∈ d, ∀ r, key (enc kv.1 ++ r) = .ok (kv.1, r)) → (∀ kv ∈ d, ∀ r, item (enc kv.2 ++ r) = .ok (kv.2, r)) →
    ∀ r, readPairs key item d.length (d.flatMap (fun kv => enc kv.1 ++ enc kv.2) ++ r) = .ok (d, r)
  | [], _, _, r => rfl
  | (k, v) :: d, hk, hv, r => by
    have h1 := hk (k, v) (by simp)
    have h2 := hv (k, v) (by simp)
    have hl := readPairs_flatMap key item enc d (fun w hw => hk w (by simp [hw])) fun w hw => hv w (by simp [hw])
    simp only at h1 h2
    simp only [List.flatMap_cons, List.append_assoc, List.length_cons, readPairs, h1, h2, hl, bind, Except.bind]

theorem put_fresh : ∀ (d : PyDict) (k v : Value), k ∉ d.map (·.1) → d.put k v = d ++ [(k, v)]
  | [], _, _, _ => rfl
  | (k', w) :: d, k, v, h => by
    simp only [List.map_cons, List.mem_cons, not_or] at h
    rw [PyDict.put, if_neg (fun e => h.1 e.symm), put_fresh d k v h.2]; rfl

theorem foldl_put : ∀ (l d : PyDict), ((d ++ l).map (·.1)).Nodup → l.foldl (fun d kv => d.put kv.1 kv.2) d = d ++ l
  | [], d, _ => by simp
  | (k, v) :: l, d, h => by
    have hk : k ∉ d.map (·.1) := by
      rw [List.map_append, List.nodup_append] at h
      intro hm
      exact h.2.2 k hm k (by simp) rfl
    rw [List.foldl_cons, put_fresh d k v hk, foldl_put l (d ++ [(k, v)]) (by simpa using h)]
    simp

theorem ofPairs_nodup (d : PyDict) (h : (d.map (·.1)).Nodup) : PyDict.ofPairs d = d := by
  have := foldl_put d [] (by simpa using h)
  simpa [PyDict.ofPairs] using this

end Wamp
