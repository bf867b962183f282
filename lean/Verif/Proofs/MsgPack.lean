import Verif.Proofs.Formats

/-! # `msgpack.loads` restores what `msgpack.dumps` wrote -/

namespace Wamp.MsgPack
open Wamp.Spec

theorem be_one (n : Nat) : be 1 n = [UInt8.ofNat n] := rfl

theorem toNat_small {n : Nat} (h : n < 256) : (UInt8.ofNat n).toNat = n := by
  rw [UInt8.toNat_ofNat']; omega

theorem unpack_num (f : Nat) {b : UInt8} {k : Nat} {use : Nat → Bytes → Except Exc (Value × Bytes)}
    (hb : ∀ r, unpack (f + 1) (b :: r) = (takeNat incomplete k r >>= fun x => use x.1 x.2)) {n : Nat} (hn : n < 256 ^ k) (r : Bytes) :
    unpack (f + 1) ((b :: be k n) ++ r) = use n r := by
  rw [List.cons_append, hb, takeNat_be _ hn]; rfl

theorem signed_neg {k : Nat} {n : Int} (h1 : n < 0) (h2 : -(256 ^ k / 2 : Nat) ≤ n) (h3 : 256 ^ k / 2 + 256 ^ k / 2 = 256 ^ k) :
    signed k (n + (256 ^ k : Nat)).toNat = n := by
  unfold signed
  rw [if_neg (by omega)]
  omega

theorem unpack_int (f : Nat) (n : Int) (h : -2 ^ 63 ≤ n ∧ n < 2 ^ 64) (r : Bytes) :
    unpack (f + 1) (packInt n ++ r) = .ok (.int n, r) := by
  unfold packInt
  split
  · split
    · rw [unpack_num f (b := 0xd3) (k := 8) (use := fun n r => .ok (.int (signed 8 n), r)) (fun _ => rfl) (by omega)]
      have := signed_neg (k := 8) (n := n) (by omega) (by simp; omega) (by decide)
      simp at this
      simp [this]
    split
    · rw [unpack_num f (b := 0xd2) (k := 4) (use := fun n r => .ok (.int (signed 4 n), r)) (fun _ => rfl) (by omega)]
      have := signed_neg (k := 4) (n := n) (by omega) (by simp; omega) (by decide)
      simp at this
      simp [this]
    split
    · rw [unpack_num f (b := 0xd1) (k := 2) (use := fun n r => .ok (.int (signed 2 n), r)) (fun _ => rfl) (by omega)]
      have := signed_neg (k := 2) (n := n) (by omega) (by simp; omega) (by decide)
      simp at this
      simp [this]
    · rw [unpack_num f (b := 0xd0) (k := 1) (use := fun n r => .ok (.int (signed 1 n), r)) (fun _ => rfl) (by omega)]
      have := signed_neg (k := 1) (n := n) (by omega) (by simp; omega) (by decide)
      simp at this
      simp [this]
  split
  · have : (UInt8.ofNat (n + 2 ^ 8).toNat).toNat = (n + 2 ^ 8).toNat := toNat_small (by omega)
    rw [be_one, List.singleton_append, unpack, this, unpackRest]
    repeat rw [if_neg (by omega)]
    rw [if_pos (by omega)]
    congr 3
    omega
  split
  · have : (UInt8.ofNat n.toNat).toNat = n.toNat := toNat_small (by omega)
    rw [be_one, List.singleton_append, unpack, this, unpackRest]
    simp only [if_pos (show n.toNat < 0x80 by omega)]
    congr 3
    omega
  split
  · rw [unpack_num f (b := 0xcc) (k := 1) (use := fun n r => .ok (.int n, r)) (fun _ => rfl) (by omega)]
    congr 3; omega
  split
  · rw [unpack_num f (b := 0xcd) (k := 2) (use := fun n r => .ok (.int n, r)) (fun _ => rfl) (by omega)]
    congr 3; omega
  split
  · rw [unpack_num f (b := 0xce) (k := 4) (use := fun n r => .ok (.int n, r)) (fun _ => rfl) (by omega)]
    congr 3; omega
  · rw [unpack_num f (b := 0xcf) (k := 8) (use := fun n r => .ok (.int n, r)) (fun _ => rfl) (by omega)]
    congr 3; omega

theorem unpack_str_head (f n : Nat) (hn : n < 2 ^ 32) (r : Bytes) :
    unpack (f + 1) (strHead n ++ r) = unpackStr n r := by
  unfold strHead
  split
  · have : (UInt8.ofNat (0xa0 + n)).toNat = 0xa0 + n := toNat_small (by omega)
    rw [be_one, List.singleton_append, unpack, this, unpackRest]
    simp only [if_neg (show ¬ 0xa0 + n < 0x80 by omega), if_neg (show ¬ 0xa0 + n < 0x90 by omega),
      if_neg (show ¬ 0xa0 + n < 0xa0 by omega), if_pos (show 0xa0 + n < 0xc0 by omega), Nat.add_sub_cancel_left]
  split
  · rw [unpack_num f (b := 0xd9) (k := 1) (use := unpackStr) (fun _ => rfl) (by omega)]
  split
  · rw [unpack_num f (b := 0xda) (k := 2) (use := unpackStr) (fun _ => rfl) (by omega)]
  · rw [unpack_num f (b := 0xdb) (k := 4) (use := unpackStr) (fun _ => rfl) (by omega)]

theorem unpack_bin_head (f n : Nat) (hn : n < 2 ^ 32) (r : Bytes) :
    unpack (f + 1) (binHead n ++ r) = unpackBin n r := by
  unfold binHead
  split
  · rw [unpack_num f (b := 0xc4) (k := 1) (use := unpackBin) (fun _ => rfl) (by omega)]
  split
  · rw [unpack_num f (b := 0xc5) (k := 2) (use := unpackBin) (fun _ => rfl) (by omega)]
  · rw [unpack_num f (b := 0xc6) (k := 4) (use := unpackBin) (fun _ => rfl) (by omega)]

theorem unpack_array_head (f n : Nat) (hn : n < 2 ^ 32) (r : Bytes) :
    unpack (f + 1) (arrayHead n ++ r) = unpackArray (unpack f) n r := by
  unfold arrayHead
  split
  · have : (UInt8.ofNat (0x90 + n)).toNat = 0x90 + n := toNat_small (by omega)
    rw [be_one, List.singleton_append, unpack, this, unpackRest]
    simp only [if_neg (show ¬ 0x90 + n < 0x80 by omega), if_neg (show ¬ 0x90 + n < 0x90 by omega),
      if_pos (show 0x90 + n < 0xa0 by omega), Nat.add_sub_cancel_left]
  split
  · rw [unpack_num f (b := 0xdc) (k := 2) (use := unpackArray (unpack f)) (fun _ => rfl) (by omega)]
  · rw [unpack_num f (b := 0xdd) (k := 4) (use := unpackArray (unpack f)) (fun _ => rfl) (by omega)]

theorem unpack_map_head (f n : Nat) (hn : n < 2 ^ 32) (r : Bytes) :
    unpack (f + 1) (mapHead n ++ r) = unpackMap (unpack f) n r := by
  unfold mapHead
  split
  · have : (UInt8.ofNat (0x80 + n)).toNat = 0x80 + n := toNat_small (by omega)
    rw [be_one, List.singleton_append, unpack, this, unpackRest]
    simp only [if_neg (show ¬ 0x80 + n < 0x80 by omega), if_pos (show 0x80 + n < 0x90 by omega), Nat.add_sub_cancel_left]
  split
  · rw [unpack_num f (b := 0xde) (k := 2) (use := unpackMap (unpack f)) (fun _ => rfl) (by omega)]
  · rw [unpack_num f (b := 0xdf) (k := 4) (use := unpackMap (unpack f)) (fun _ => rfl) (by omega)]

theorem packList_flatMap : ∀ l, packList l = l.flatMap pack
  | [] => by simp [packList]
  | v :: l => by simp [packList, packList_flatMap l]

theorem packDict_flatMap : ∀ d, packDict d = d.flatMap fun kv => pack kv.1 ++ pack kv.2
  | [] => by simp [packDict]
  | (k, v) :: d => by simp [packDict, packDict_flatMap d]

theorem length_flatMap_le {α : Type} (g : α → Bytes) : ∀ (l : List α) (x : α), x ∈ l → (g x).length ≤ (l.flatMap g).length
  | y :: l, x, h => by
    rw [List.flatMap_cons, List.length_append]
    rcases List.mem_cons.1 h with rfl | h
    · omega
    · have := length_flatMap_le g l x h; omega

theorem head_pos (n : Nat) : 0 < (strHead n).length ∧ 0 < (binHead n).length ∧ 0 < (arrayHead n).length ∧ 0 < (mapHead n).length := by
  refine ⟨?_, ?_, ?_, ?_⟩
  · unfold strHead; repeat' split
    all_goals simp [be_length]
  · unfold binHead; repeat' split
    all_goals simp
  · unfold arrayHead; repeat' split
    all_goals simp [be_length]
  · unfold mapHead; repeat' split
    all_goals simp [be_length]

theorem packInt_pos (n : Int) : 0 < (packInt n).length := by
  unfold packInt; repeat' split
  all_goals simp [be_length]

theorem unpack_str (f : Nat) (s : String) (hn : s.utf8ByteSize < 2 ^ 32) (r : Bytes) :
    unpack (f + 1) (pack (.str s) ++ r) = .ok (.str s, r) := by
  rw [pack, List.append_assoc, unpack_str_head f _ (by rw [utf8_length]; exact hn), unpackStr, takeBytes_append _ rfl]
  simp only [bind, Except.bind, ofUtf8_utf8]

theorem pack_pos : ∀ v, Fits msgpackLimits v → 0 < (pack v).length
  | .none, _ => by simp [pack]
  | .bool false, _ => by simp [pack]
  | .bool true, _ => by simp [pack]
  | .int n, _ => by rw [pack]; exact packInt_pos n
  | .float _, _ => by simp [pack]
  | .str s, _ => by rw [pack, List.length_append]; have := (head_pos (utf8 s).length).1; omega
  | .bytes b, _ => by rw [pack, List.length_append]; have := (head_pos b.length).2.1; omega
  | .list b, _ => by rw [pack, List.length_append]; have := (head_pos b.length).2.2.1; omega
  | .dict b, _ => by rw [pack, List.length_append]; have := (head_pos b.length).2.2.2; omega
  | .obj .., h => by simp [Fits] at h

theorem unpack_pack : ∀ (f : Nat) (v : Value), Fits msgpackLimits v → (pack v).length ≤ f → ∀ r, unpack f (pack v ++ r) = .ok (v, r) := by
  intro f
  induction f with
  | zero =>
    intro v hv hl
    have := pack_pos v hv
    omega
  | succ f ih =>
    intro v hv hl r
    cases v with
    | none => rfl
    | bool b => cases b <;> rfl
    | int n => rw [pack]; rw [Fits] at hv; exact unpack_int f n hv r
    | float x =>
      rw [pack, unpack_num f (b := 0xcb) (k := 8) (use := fun n r => .ok (.float ⟨BitVec.ofNat 64 n⟩, r)) (fun _ => rfl) (by have := x.bits.isLt; omega)]
      simp
    | str s => rw [Fits] at hv; exact unpack_str f s hv r
    | bytes b =>
      rw [Fits] at hv
      rw [pack, List.append_assoc, unpack_bin_head f _ hv.2, unpackBin, takeBytes_append _ rfl]; rfl
    | list l =>
      rw [Fits, fitsList_iff] at hv
      rw [pack, packList_flatMap, List.length_append] at hl
      rw [pack, List.append_assoc, unpack_array_head f _ hv.1, unpackArray, packList_flatMap, readMany_flatMap]
      · rfl
      · intro v hm r
        have h1 := length_flatMap_le pack l v hm
        have h2 := (head_pos l.length).2.2.1
        exact ih v (hv.2 v hm) (by omega) r
    | dict d =>
      rw [Fits, fitsDict_iff] at hv
      rw [pack, packDict_flatMap, List.length_append] at hl
      rw [pack, List.append_assoc, unpack_map_head f _ hv.1, unpackMap, packDict_flatMap, readPairs_flatMap]
      · simp only [bind, Except.bind, ofPairs_nodup d hv.2.1]
      · intro kv hm r
        obtain ⟨⟨s, hs, hz⟩, _⟩ := hv.2.2 kv hm
        have h1 := length_flatMap_le (fun kv => pack kv.1 ++ pack kv.2) d kv hm
        have h2 := (head_pos d.length).2.2.2
        simp only [List.length_append] at h1
        have := ih kv.1 (by rw [hs, Fits]; exact hz) (by omega) r
        rw [unpackKey, this, hs]; rfl
      · intro kv hm r
        have h1 := length_flatMap_le (fun kv => pack kv.1 ++ pack kv.2) d kv hm
        have h2 := (head_pos d.length).2.2.2
        simp only [List.length_append] at h1
        exact ih kv.2 (hv.2.2 kv hm).2 (by omega) r
    | obj => simp [Fits] at hv

mutual
theorem packable_fits : ∀ v, Fits msgpackLimits v → packable v = .ok ()
  | .none, _ => by rw [packable]
  | .bool _, _ => by rw [packable]
  | .int n, h => by rw [Fits] at h; rw [packable, if_pos (by exact h)]
  | .float _, _ => by rw [packable]
  | .str s, h => by rw [Fits] at h; rw [packable, if_pos (by rw [utf8_length]; exact h)]
  | .bytes b, h => by rw [Fits] at h; rw [packable, if_pos (by exact h.2)]
  | .list l, h => by rw [Fits] at h; rw [packable, if_pos (by exact h.1), packableList_fits l h.2]
  | .dict d, h => by rw [Fits] at h; rw [packable, if_pos (by exact h.1), packableDict_fits d h.2.2]
  | .obj .., h => by simp [Fits] at h
theorem packableList_fits : ∀ l, FitsList msgpackLimits l → packableList l = .ok ()
  | [], _ => by rw [packableList]
  | v :: l, h => by rw [FitsList] at h; rw [packableList, packable_fits v h.1, packableList_fits l h.2]; rfl
theorem packableDict_fits : ∀ d, FitsDict msgpackLimits d → packableDict d = .ok ()
  | [], _ => by rw [packableDict]
  | (k, v) :: d, h => by
    rw [FitsDict] at h
    obtain ⟨⟨s, rfl, hs⟩, h2, h3⟩ := h
    have : packable (.str s) = .ok () := by rw [packable, if_pos (by rw [utf8_length]; exact hs)]
    rw [packableDict, this, packable_fits v h2, packableDict_fits d h3]; rfl
end

theorem dumps_fits (v : Value) (h : Fits msgpackLimits v) : dumps v = .ok (pack v) := by
  rw [dumps, packable_fits v h]; rfl

theorem loads_pack (v : Value) (h : Fits msgpackLimits v) : loads (pack v) = .ok v := by
  have := unpack_pack ((pack v).length + 1) v h (by omega) []
  rw [List.append_nil] at this
  rw [loads, this]; rfl

end Wamp.MsgPack
