import Verif.Proofs.SpellingsCbor
import Verif.Proofs.MsgPack

/-! # `msgpack.loads` reads every way to write a value -/

namespace Wamp.MsgPack
open Wamp.Spec

theorem num_spelled (f : Nat) {h : UInt8} {k : Nat} {use : Nat → Bytes → Except Exc (Value × Bytes)}
    (hb : ∀ r, unpack (f + 1) (h :: r) = (takeNat incomplete k r >>= fun x => use x.1 x.2)) {b : Bytes} (hl : b.length = k) (r : Bytes) :
    unpack (f + 1) ((h :: b) ++ r) = use (bigEndian b) r := by
  rw [List.cons_append, hb, takeNat_spelled _ hl]; rfl

theorem str_head_spelled (f : Nat) {n : Nat} {h : Bytes} (hh : MsgPackHead 32 0xa0 [(0xd9, 1), (0xda, 2), (0xdb, 4)] n h) (r : Bytes) :
    unpack (f + 1) (h ++ r) = unpackStr n r := by
  cases hh with
  | short hn =>
    have : (byte (0xa0 + n)).toNat = 0xa0 + n := toNat_small (by omega)
    rw [List.singleton_append, unpack, this, unpackRest]
    simp only [if_neg (show ¬ 0xa0 + n < 0x80 by omega), if_neg (show ¬ 0xa0 + n < 0x90 by omega),
      if_neg (show ¬ 0xa0 + n < 0xa0 by omega), if_pos (show 0xa0 + n < 0xc0 by omega), Nat.add_sub_cancel_left]
  | long h k b hm hl hb =>
    simp only [List.mem_cons, Prod.mk.injEq, List.not_mem_nil, or_false] at hm
    subst hb
    rcases hm with ⟨rfl, rfl⟩ | ⟨rfl, rfl⟩ | ⟨rfl, rfl⟩ <;> exact num_spelled f (fun _ => rfl) hl r

theorem bin_head_spelled (f : Nat) {n : Nat} {h : Bytes} (hh : MsgPackHead 0 0 [(0xc4, 1), (0xc5, 2), (0xc6, 4)] n h) (r : Bytes) :
    unpack (f + 1) (h ++ r) = unpackBin n r := by
  cases hh with
  | short hn => omega
  | long h k b hm hl hb =>
    simp only [List.mem_cons, Prod.mk.injEq, List.not_mem_nil, or_false] at hm
    subst hb
    rcases hm with ⟨rfl, rfl⟩ | ⟨rfl, rfl⟩ | ⟨rfl, rfl⟩ <;> exact num_spelled f (fun _ => rfl) hl r

theorem array_head_spelled (f : Nat) {n : Nat} {h : Bytes} (hh : MsgPackHead 16 0x90 [(0xdc, 2), (0xdd, 4)] n h) (r : Bytes) :
    unpack (f + 1) (h ++ r) = unpackArray (unpack f) n r := by
  cases hh with
  | short hn =>
    have : (byte (0x90 + n)).toNat = 0x90 + n := toNat_small (by omega)
    rw [List.singleton_append, unpack, this, unpackRest]
    simp only [if_neg (show ¬ 0x90 + n < 0x80 by omega), if_neg (show ¬ 0x90 + n < 0x90 by omega),
      if_pos (show 0x90 + n < 0xa0 by omega), Nat.add_sub_cancel_left]
  | long h k b hm hl hb =>
    simp only [List.mem_cons, Prod.mk.injEq, List.not_mem_nil, or_false] at hm
    subst hb
    rcases hm with ⟨rfl, rfl⟩ | ⟨rfl, rfl⟩ <;> exact num_spelled f (fun _ => rfl) hl r

theorem map_head_spelled (f : Nat) {n : Nat} {h : Bytes} (hh : MsgPackHead 16 0x80 [(0xde, 2), (0xdf, 4)] n h) (r : Bytes) :
    unpack (f + 1) (h ++ r) = unpackMap (unpack f) n r := by
  cases hh with
  | short hn =>
    have : (byte (0x80 + n)).toNat = 0x80 + n := toNat_small (by omega)
    rw [List.singleton_append, unpack, this, unpackRest]
    simp only [if_neg (show ¬ 0x80 + n < 0x80 by omega), if_pos (show 0x80 + n < 0x90 by omega), Nat.add_sub_cancel_left]
  | long h k b hm hl hb =>
    simp only [List.mem_cons, Prod.mk.injEq, List.not_mem_nil, or_false] at hm
    subst hb
    rcases hm with ⟨rfl, rfl⟩ | ⟨rfl, rfl⟩ <;> exact num_spelled f (fun _ => rfl) hl r

theorem head_length {few base n : Nat} {wide : List (UInt8 × Nat)} {h : Bytes} (hh : MsgPackHead few base wide n h) : 0 < h.length := by
  cases hh <;> simp

theorem int_spelled (f : Nat) {n : Int} {w : Bytes} (h : MsgPackInt n w) (r : Bytes) : unpack (f + 1) (w ++ r) = .ok (.int n, r) := by
  cases h with
  | positive n hn =>
    have : (byte n).toNat = n := toNat_small (by omega)
    rw [List.singleton_append, unpack, this, unpackRest, if_pos (by omega)]
  | negative n h0 hn =>
    have : (byte (256 - n)).toNat = 256 - n := toNat_small (by omega)
    rw [List.singleton_append, unpack, this, unpackRest]
    repeat rw [if_neg (by omega)]
    rw [if_pos (by omega)]
    congr 3; omega
  | unsigned i b hi hl =>
    rcases (show i = 0 ∨ i = 1 ∨ i = 2 ∨ i = 3 by omega) with rfl | rfl | rfl | rfl
    · exact num_spelled f (use := fun n r => .ok (.int n, r)) (k := 1) (fun _ => rfl) hl r
    · exact num_spelled f (use := fun n r => .ok (.int n, r)) (k := 2) (fun _ => rfl) hl r
    · exact num_spelled f (use := fun n r => .ok (.int n, r)) (k := 4) (fun _ => rfl) hl r
    · exact num_spelled f (use := fun n r => .ok (.int n, r)) (k := 8) (fun _ => rfl) hl r
  | signed i b hi hl =>
    rcases (show i = 0 ∨ i = 1 ∨ i = 2 ∨ i = 3 by omega) with rfl | rfl | rfl | rfl
    · exact num_spelled f (use := fun n r => .ok (.int (signed 1 n), r)) (k := 1) (fun _ => rfl) hl r
    · exact num_spelled f (use := fun n r => .ok (.int (signed 2 n), r)) (k := 2) (fun _ => rfl) hl r
    · exact num_spelled f (use := fun n r => .ok (.int (signed 4 n), r)) (k := 4) (fun _ => rfl) hl r
    · exact num_spelled f (use := fun n r => .ok (.int (signed 8 n), r)) (k := 8) (fun _ => rfl) hl r

theorem str_spelled (f : Nat) {s : String} {w : Bytes} (h : MsgPackStr s w) (r : Bytes) : unpack (f + 1) (w ++ r) = .ok (.str s, r) := by
  obtain ⟨h, hh, rfl⟩ := h
  rw [List.append_assoc, str_head_spelled f hh, unpackStr, takeBytes_append _ rfl]
  simp only [bind, Except.bind, ofUtf8_utf8]

mutual
theorem item_spelled : ∀ {v : Value} {w : Bytes}, MsgPackItem v w → ∀ (f : Nat) (r : Bytes), w.length ≤ f → unpack (f + 1) (w ++ r) = .ok (v, r)
  | _, _, .none, f, r, _ => rfl
  | _, _, .false, f, r, _ => rfl
  | _, _, .true, f, r, _ => rfl
  | _, _, .int n w h, f, r, _ => int_spelled f h r
  | _, _, .double x b hl hb, f, r, _ => by
    rw [num_spelled f (h := 0xcb) (k := 8) (use := fun n r => .ok (.float ⟨BitVec.ofNat 64 n⟩, r)) (fun _ => rfl) hl, hb]
    simp
  | _, _, .single x b hl hb, f, r, _ => by
    rw [num_spelled f (h := 0xca) (k := 4) (use := unpackFloat) (fun _ => rfl) hl, unpackFloat,
      PyFloat.widen_same (.inr ⟨rfl, rfl⟩) (by have := bigEndian_lt b; rw [hl] at this; omega) hb]
  | _, _, .bytes b h hh, f, r, _ => by
    rw [List.append_assoc, bin_head_spelled f hh, unpackBin, takeBytes_append _ rfl]; rfl
  | _, _, .str s w hs, f, r, _ => str_spelled f hs r
  | _, _, .list l h w hh hl, f, r, hf => by
    have := head_length hh
    obtain ⟨g, rfl⟩ : ∃ g, f = g + 1 := ⟨f - 1, by rw [List.length_append] at hf; omega⟩
    rw [List.append_assoc, array_head_spelled _ hh, unpackArray, items_spelled hl g (by rw [List.length_append] at hf; omega)]; rfl
  | _, _, .dict l h w hd hh hl, f, r, hf => by
    have := head_length hh
    obtain ⟨g, rfl⟩ : ∃ g, f = g + 1 := ⟨f - 1, by rw [List.length_append] at hf; omega⟩
    rw [List.append_assoc, map_head_spelled _ hh, unpackMap, pairs_spelled hl g (by rw [List.length_append] at hf; omega)]
    simp only [bind, Except.bind, ofPairs_nodup l hd]
theorem items_spelled : ∀ {l : List Value} {w : Bytes}, MsgPackItems l w → ∀ (f : Nat), w.length ≤ f →
    ∀ r, readMany (unpack (f + 1)) l.length (w ++ r) = .ok (l, r)
  | _, _, .nil, f, _, r => rfl
  | _, _, .cons v l a w hv hl, f, hf, r => by
    rw [List.length_append] at hf
    rw [List.length_cons, readMany, List.append_assoc, item_spelled hv f _ (by omega)]
    simp only [bind, Except.bind, items_spelled hl f (show _ ≤ f by omega)]
theorem pairs_spelled : ∀ {d : List (Value × Value)} {w : Bytes}, MsgPackPairs d w → ∀ (f : Nat), w.length ≤ f →
    ∀ r, readPairs (unpackKey (unpack (f + 1))) (unpack (f + 1)) d.length (w ++ r) = .ok (d, r)
  | _, _, .nil, f, _, r => rfl
  | _, _, .cons k v d a b w hk hv hl, f, hf, r => by
    have h0 : ∀ r, unpackKey (unpack (f + 1)) (a ++ r) = .ok (.str k, r) := by
      intro r; rw [unpackKey, str_spelled f hk]; rfl
    rw [List.length_append, List.length_append] at hf
    rw [List.length_cons, readPairs, List.append_assoc, h0, List.append_assoc]
    simp only [bind, Except.bind]
    rw [item_spelled hv f _ (by omega)]
    simp only [pairs_spelled hl f (show _ ≤ f by omega)]
end

theorem loads_spelled {v : Value} {w : Bytes} (h : MsgPackItem v w) : loads w = .ok v := by
  have := item_spelled h w.length [] (by omega)
  rw [List.append_nil] at this
  rw [loads, this]; rfl

end Wamp.MsgPack
