import Verif.Proofs.OneReading
import Verif.Proofs.Cbor

/-! # `cbor2.loads` reads every way to write a value -/

namespace Wamp

theorem ofBe_cons (a : UInt8) (b : Bytes) : ofBe (a :: b) = a.toNat * 256 ^ b.length + ofBe b := by
  have : ∀ (b : Bytes) (n : Nat), b.foldl (fun n x => n * 256 + x.toNat) n = n * 256 ^ b.length + ofBe b := by
    intro b
    induction b with
    | nil => intro n; simp [ofBe]
    | cons x b ih =>
      intro n
      simp only [ofBe, List.foldl_cons, List.length_cons] at ih ⊢
      rw [ih, ih (0 * 256 + x.toNat), Nat.pow_succ]
      simp only [Nat.add_mul]
      have : n * 256 * 256 ^ b.length = n * (256 ^ b.length * 256) := by
        rw [Nat.mul_assoc, Nat.mul_comm 256]
      omega
  simp only [ofBe, List.foldl_cons]
  rw [this]; simp [ofBe]

theorem ofBe_eq : ∀ b, ofBe b = Spec.bigEndian b
  | [] => rfl
  | a :: b => by rw [ofBe_cons, Spec.bigEndian, ofBe_eq b]

theorem bigEndian_lt : ∀ b : Bytes, Spec.bigEndian b < 256 ^ b.length
  | [] => by decide
  | a :: b => by
    rw [Spec.bigEndian, List.length_cons, Nat.pow_succ, Nat.mul_comm (256 ^ b.length)]
    have := bigEndian_lt b
    have h := a.toNat_lt
    have : a.toNat * 256 ^ b.length + 256 ^ b.length ≤ 256 * 256 ^ b.length := by
      rw [← Nat.succ_mul]; exact Nat.mul_le_mul_right _ (by omega)
    omega

theorem takeNat_spelled (e : Exc) {k : Nat} {b : Bytes} (h : b.length = k) (r : Bytes) :
    takeNat e k (b ++ r) = .ok (Spec.bigEndian b, r) := by
  unfold takeNat
  rw [takeBytes_append e h, ← ofBe_eq]; rfl

namespace Cbor
open Wamp.Spec

theorem head_spelled (f : Nat) {m n : Nat} (hm : m < 7) {h : Bytes} (hh : CborHead m n h) (r : Bytes) :
    decode (f + 1) (h ++ r) = decodeBody (decode f) m n r := by
  cases hh with
  | short hn => exact decode_byte f hm (by omega) (by rw [argument, if_pos (by assumption)])
  | long i b hi hl hb =>
    have hr := takeNat_spelled eof hl r
    rw [hb] at hr
    have : decode (f + 1) (be 1 (m * 32 + (24 + i)) ++ (b ++ r)) = decodeBody (decode f) m n r := by
      apply decode_byte f hm (by omega)
      rcases (show i = 0 ∨ i = 1 ∨ i = 2 ∨ i = 3 by omega) with rfl | rfl | rfl | rfl <;> exact hr
    rw [← Nat.add_assoc] at this
    exact this

theorem head_length {m n : Nat} {h : Bytes} (hh : CborHead m n h) : 0 < h.length := by
  cases hh <;> simp

/-- The head of a piece -/
theorem piece_spelled {m n : Nat} (hm : m < 7) {h : Bytes} (hh : CborHead m n h) : ∃ b t, h = b :: t ∧ b.toNat ≠ 255 ∧ b.toNat / 32 = m ∧
    ∀ r, argument (b.toNat % 32) (t ++ r) = .ok (n, r) := by
  cases hh with
  | short hn =>
    have ht : (byte (m * 32 + n)).toNat = m * 32 + n := MsgPack.toNat_small (by omega)
    refine ⟨_, [], rfl, by omega, by omega, fun r => ?_⟩
    rw [ht, show (m * 32 + n) % 32 = n by omega, argument, if_pos hn]; rfl
  | long i b hi hl hb =>
    have ht : (byte (m * 32 + 24 + i)).toNat = m * 32 + 24 + i := MsgPack.toNat_small (by omega)
    refine ⟨_, b, rfl, by omega, by omega, fun r => ?_⟩
    have hr := takeNat_spelled eof hl r
    rw [hb] at hr
    rw [ht, show (m * 32 + 24 + i) % 32 = 24 + i by omega]
    rcases (show i = 0 ∨ i = 1 ∨ i = 2 ∨ i = 3 by omega) with rfl | rfl | rfl | rfl <;> exact hr

theorem pieces_spelled {m : Nat} (hm : m < 7) : ∀ (ps : List (Bytes × Bytes)), (∀ p ∈ ps, CborHead m p.1.length p.2) →
    ∀ n r, ps.length < n → decodePieces m n (ps.flatMap (fun p => p.2 ++ p.1) ++ 255 :: r) = .ok (ps.map (·.1), r)
  | [], _, n + 1, r, _ => rfl
  | p :: ps, h, n + 1, r, hn => by
    obtain ⟨b, t, e, h1, h2, h3⟩ := piece_spelled hm (h p (by simp))
    have ih := pieces_spelled hm ps (fun q hq => h q (by simp [hq])) n r (by simp at hn; omega)
    rw [List.flatMap_cons, e, List.cons_append, List.cons_append, List.cons_append, List.append_assoc, List.append_assoc, decodePieces, if_neg h1, if_pos h2, h3]
    simp only [bind, Except.bind]
    rw [takeBytes_append eof rfl]
    simp only [ih, List.map_cons]

theorem flatMap_length_ge {α : Type} (g : α → Bytes) : ∀ l : List α, (∀ x ∈ l, 0 < (g x).length) → l.length ≤ (l.flatMap g).length
  | [], _ => by simp
  | x :: l, h => by
    have := flatMap_length_ge g l fun y hy => h y (by simp [hy])
    have := h x (by simp)
    rw [List.flatMap_cons, List.length_append, List.length_cons]; omega

theorem bytes_spelled (f : Nat) {b w : Bytes} (h : CborBytes b w) (r : Bytes) : decode (f + 1) (w ++ r) = .ok (.bytes b, r) := by
  cases h with
  | whole b h hh =>
    rw [List.append_assoc, head_spelled f (by omega) hh]
    show decodeBin _ _ = _
    rw [decodeBin, takeBytes_append _ rfl]; rfl
  | pieces ps hp =>
    have hl := flatMap_length_ge (fun p : Bytes × Bytes => p.2 ++ p.1) ps fun p hp' => by
      have := head_length (hp p hp'); simp only [List.length_append]; omega
    have hd := pieces_spelled (m := 2) (by omega) ps hp ((ps.flatMap (fun p => p.2 ++ p.1) ++ 255 :: r).length + 1) r
      (by rw [List.length_append]; omega)
    rw [List.cons_append, List.append_assoc, List.singleton_append]
    show decodeOpen (decode f) 2 _ = _
    rw [decodeOpen, if_pos rfl, hd]
    simp only [bind, Except.bind, ← List.flatMap_def]

theorem str_spelled (f : Nat) {s : String} {w : Bytes} (h : CborStr s w) (r : Bytes) : decode (f + 1) (w ++ r) = .ok (.str s, r) := by
  cases h with
  | whole s h hh =>
    rw [List.append_assoc, head_spelled f (by omega) hh]
    show decodeStr _ _ = _
    rw [decodeStr, takeBytes_append _ rfl]
    simp only [bind, Except.bind, ofUtf8_utf8]
  | pieces ps hp =>
    have hl := flatMap_length_ge (fun p : String × Bytes => p.2 ++ utf8 p.1) ps fun p hp' => by
      have := head_length (hp p hp'); simp only [List.length_append]; omega
    have hd := pieces_spelled (m := 3) (by omega) (ps.map fun p => (utf8 p.1, p.2))
      (fun q hq => by obtain ⟨p, h1, rfl⟩ := List.mem_map.1 hq; exact hp p h1)
      ((ps.flatMap (fun p => p.2 ++ utf8 p.1) ++ 255 :: r).length + 1) r
      (by rw [List.length_append, List.length_map]; omega)
    rw [List.flatMap_map, List.map_map] at hd
    have hu : ∀ qs : List (String × Bytes), (qs.map ((fun p : Bytes × Bytes => p.1) ∘ fun p => (utf8 p.1, p.2))).mapM ofUtf8 = some (qs.map (·.1)) := by
      intro qs
      induction qs with
      | nil => rfl
      | cons q qs ih => rw [List.map_cons, List.mapM_cons, ih]; simp [ofUtf8_utf8]
    rw [List.cons_append, List.append_assoc, List.singleton_append]
    show decodeOpen (decode f) 3 _ = _
    rw [decodeOpen, if_neg (by decide), if_pos rfl, hd]
    simp only [bind, Except.bind, hu]

theorem float_spelled (f : Nat) {x : PyFloat} {w : Bytes} (h : CborFloat x w) (r : Bytes) : decode (f + 1) (w ++ r) = .ok (.float x, r) := by
  cases h with
  | double b hl hb =>
    show (takeNat eof 8 (b ++ r) >>= fun y => Except.ok (Value.float ⟨BitVec.ofNat 64 y.1⟩, y.2)) = _
    rw [takeNat_spelled _ hl, hb]
    simp [bind, Except.bind]
  | single b hl hb =>
    show (takeNat eof 4 (b ++ r) >>= fun y => decodeShort 8 23 y.1 y.2) = _
    rw [takeNat_spelled _ hl]
    show decodeShort 8 23 _ r = _
    rw [decodeShort, PyFloat.widen_same (.inr ⟨rfl, rfl⟩) (by have := bigEndian_lt b; rw [hl] at this; omega) hb]
  | half b hl hb =>
    show (takeNat eof 2 (b ++ r) >>= fun y => decodeShort 5 10 y.1 y.2) = _
    rw [takeNat_spelled _ hl]
    show decodeShort 5 10 _ r = _
    rw [decodeShort, PyFloat.widen_same (.inl ⟨rfl, rfl⟩) (by have := bigEndian_lt b; rw [hl] at this; omega) hb]

theorem str_first {s : String} {w : Bytes} (h : CborStr s w) : ∃ b t, w = b :: t ∧ b.toNat ≠ 255 := by
  cases h with
  | whole s h hh =>
    obtain ⟨b, t, rfl, h1, _⟩ := piece_spelled (by omega) hh
    exact ⟨b, _, rfl, h1⟩
  | pieces ps hp => exact ⟨_, _, rfl, by decide⟩

theorem bytes_first {s : Bytes} {w : Bytes} (h : CborBytes s w) : ∃ b t, w = b :: t ∧ b.toNat ≠ 255 := by
  cases h with
  | whole s h hh =>
    obtain ⟨b, t, rfl, h1, _⟩ := piece_spelled (by omega) hh
    exact ⟨b, _, rfl, h1⟩
  | pieces ps hp => exact ⟨_, _, rfl, by decide⟩

theorem head_first {m n : Nat} (hm : m < 7) {h : Bytes} (hh : CborHead m n h) (w : Bytes) : ∃ b t, h ++ w = b :: t ∧ b.toNat ≠ 255 := by
  obtain ⟨b, t, rfl, h1, _⟩ := piece_spelled hm hh
  exact ⟨b, _, rfl, h1⟩

/-- No value begins with the byte that ends lists and dicts. -/
theorem item_first {v : Value} {w : Bytes} (h : CborItem v w) : ∃ b t, w = b :: t ∧ b.toNat ≠ 255 := by
  cases h with
  | none => exact ⟨_, _, rfl, by decide⟩
  | false => exact ⟨_, _, rfl, by decide⟩
  | true => exact ⟨_, _, rfl, by decide⟩
  | unsigned n h hh => simpa using head_first (by omega) hh []
  | negative n h hh => simpa using head_first (by omega) hh []
  | bigUnsigned h b w _ hh _ => exact head_first (by omega) hh w
  | bigNegative h b w _ hh _ => exact head_first (by omega) hh w
  | float x w hx => cases hx <;> exact ⟨_, _, rfl, by decide⟩
  | bytes b w hb => exact bytes_first hb
  | str s w hs => exact str_first hs
  | list l h w hh _ => exact head_first (by omega) hh w
  | openList l w _ => exact ⟨_, _, rfl, by decide⟩
  | dict l h w _ hh _ => exact head_first (by omega) hh w
  | openDict l w _ _ => exact ⟨_, _, rfl, by decide⟩

mutual
theorem item_spelled : ∀ {v : Value} {w : Bytes}, CborItem v w → ∀ (f : Nat) (r : Bytes), w.length ≤ f → decode (f + 1) (w ++ r) = .ok (v, r)
  | _, _, .none, f, r, _ => rfl
  | _, _, .false, f, r, _ => rfl
  | _, _, .true, f, r, _ => rfl
  | _, _, .unsigned n h hh, f, r, _ => by rw [head_spelled f (by omega) hh]; rfl
  | _, _, .negative n h hh, f, r, _ => by
    rw [head_spelled f (by omega) hh]
    show Except.ok (Value.int (-(n : Int) - 1), r) = _
    congr 3; omega
  | _, _, .bigUnsigned h b w _ hh hb, f, r, hf => by
    have := head_length hh
    obtain ⟨g, rfl⟩ : ∃ g, f = g + 1 := ⟨f - 1, by rw [List.length_append] at hf; omega⟩
    rw [List.append_assoc, head_spelled _ (by omega) hh]
    show decodeTag _ 2 _ = _
    rw [decodeTag, if_pos rfl, bytes_spelled g hb, ← ofBe_eq]; rfl
  | _, _, .bigNegative h b w _ hh hb, f, r, hf => by
    have := head_length hh
    obtain ⟨g, rfl⟩ : ∃ g, f = g + 1 := ⟨f - 1, by rw [List.length_append] at hf; omega⟩
    rw [List.append_assoc, head_spelled _ (by omega) hh]
    show decodeTag _ 3 _ = _
    rw [decodeTag, if_neg (by decide), if_pos rfl, bytes_spelled g hb, ← ofBe_eq]
    show Except.ok (Value.int (-(ofBe b : Int) - 1), r) = _
    congr 3; omega
  | _, _, .float x w hx, f, r, _ => float_spelled f hx r
  | _, _, .bytes b w hb, f, r, _ => bytes_spelled f hb r
  | _, _, .str s w hs, f, r, _ => str_spelled f hs r
  | _, _, .list l h w hh hl, f, r, hf => by
    have := head_length hh
    obtain ⟨g, rfl⟩ : ∃ g, f = g + 1 := ⟨f - 1, by rw [List.length_append] at hf; omega⟩
    rw [List.append_assoc, head_spelled _ (by omega) hh]
    show decodeArray _ _ _ = _
    rw [decodeArray, (items_spelled hl g (by rw [List.length_append] at hf; omega)).1]; rfl
  | _, _, .openList l w hl, f, r, hf => by
    obtain ⟨g, rfl⟩ : ∃ g, f = g + 1 := ⟨f - 1, by rw [List.length_cons] at hf; omega⟩
    rw [List.cons_append, List.append_assoc, List.singleton_append]
    show decodeOpen _ 4 _ = _
    rw [decodeOpen, if_neg (by decide), if_neg (by decide), if_pos rfl,
      (items_spelled hl g (by simp at hf; omega)).2 r _ (by simp; omega)]; rfl
  | _, _, .dict l h w hd hh hl, f, r, hf => by
    have := head_length hh
    obtain ⟨g, rfl⟩ : ∃ g, f = g + 1 := ⟨f - 1, by rw [List.length_append] at hf; omega⟩
    rw [List.append_assoc, head_spelled _ (by omega) hh]
    show decodeMap _ _ _ = _
    rw [decodeMap, (pairs_spelled hl g (by rw [List.length_append] at hf; omega)).1]
    simp only [bind, Except.bind, ofPairs_nodup l hd]
  | _, _, .openDict l w hd hl, f, r, hf => by
    obtain ⟨g, rfl⟩ : ∃ g, f = g + 1 := ⟨f - 1, by rw [List.length_cons] at hf; omega⟩
    rw [List.cons_append, List.append_assoc, List.singleton_append]
    show decodeOpen _ 5 _ = _
    rw [decodeOpen, if_neg (by decide), if_neg (by decide), if_neg (by decide), if_pos rfl,
      (pairs_spelled hl g (by simp at hf; omega)).2 r _ (by simp; omega)]
    simp only [bind, Except.bind, ofPairs_nodup l hd]
theorem items_spelled : ∀ {l : List Value} {w : Bytes}, CborItems l w → ∀ (f : Nat), w.length ≤ f →
    (∀ r, readMany (decode (f + 1)) l.length (w ++ r) = .ok (l, r)) ∧
    (∀ r n, w.length < n → decodeItems (decode (f + 1)) n (w ++ 255 :: r) = .ok (l, r))
  | _, _, .nil, f, _ => ⟨fun r => rfl, fun r n hn => by
      obtain ⟨n, rfl⟩ : ∃ m, n = m + 1 := ⟨n - 1, by omega⟩
      rfl⟩
  | _, _, .cons v l a w hv hl, f, hf => by
    have h1 := item_spelled hv f
    rw [List.length_append] at hf
    have h2 := items_spelled hl f (by omega)
    obtain ⟨b, t, e, hb⟩ := item_first hv
    refine ⟨fun r => ?_, fun r n hn => ?_⟩
    · rw [List.length_cons, readMany, List.append_assoc, h1 _ (by omega)]
      simp only [bind, Except.bind, h2.1]
    · obtain ⟨n, rfl⟩ : ∃ m, n = m + 1 := ⟨n - 1, by omega⟩
      have h3 := h1 (w ++ 255 :: r) (by omega)
      rw [List.append_assoc]
      rw [List.length_append] at hn
      rw [e] at h3 hn ⊢
      rw [List.cons_append] at h3 ⊢
      rw [decodeItems, if_neg hb, h3]
      simp only [bind, Except.bind]
      rw [h2.2 r n (by simp at hn; omega)]
theorem pairs_spelled : ∀ {d : List (Value × Value)} {w : Bytes}, CborPairs d w → ∀ (f : Nat), w.length ≤ f →
    (∀ r, readPairs (decodeKey (decode (f + 1))) (decode (f + 1)) d.length (w ++ r) = .ok (d, r)) ∧
    (∀ r n, w.length < n → decodePairs (decode (f + 1)) n (w ++ 255 :: r) = .ok (d, r))
  | _, _, .nil, f, _ => ⟨fun r => rfl, fun r n hn => by
      obtain ⟨n, rfl⟩ : ∃ m, n = m + 1 := ⟨n - 1, by omega⟩
      rfl⟩
  | _, _, .cons k v d a b w hk hv hl, f, hf => by
    have h0 : ∀ r, decodeKey (decode (f + 1)) (a ++ r) = .ok (.str k, r) := by
      intro r; rw [decodeKey, str_spelled f hk]; rfl
    have h1 := item_spelled hv f
    rw [List.length_append, List.length_append] at hf
    have h2 := pairs_spelled hl f (by omega)
    obtain ⟨c, t, e, hb⟩ := str_first hk
    refine ⟨fun r => ?_, fun r n hn => ?_⟩
    · rw [List.length_cons, readPairs, List.append_assoc, h0, List.append_assoc]
      simp only [bind, Except.bind]
      rw [h1 _ (by omega)]
      simp only [h2.1]
    · obtain ⟨n, rfl⟩ : ∃ m, n = m + 1 := ⟨n - 1, by omega⟩
      rw [List.append_assoc, List.append_assoc]
      rw [List.length_append, List.length_append] at hn
      have h3 := h0 (b ++ (w ++ 255 :: r))
      rw [e] at h3 hn ⊢
      rw [List.cons_append] at h3 ⊢
      rw [decodePairs, if_neg hb, h3]
      simp only [bind, Except.bind]
      rw [h1 _ (by omega)]
      simp only
      rw [h2.2 r n (by simp at hn; omega)]
end

/-- What follows is ignored (C91). -/
theorem loads_spelled {v : Value} {w : Bytes} (h : CborItem v w) (r : Bytes) : loads (w ++ r) = .ok v := by
  rw [loads, item_spelled h (w ++ r).length r (by simp)]; rfl

end Cbor
end Wamp
