import Verif.Proofs.Cbor

/-! # More data after what a reader read changes nothing: a reader reads no prefix of what it reads

`Ext p q`: if `p` reads a value from the front of some data, `q` reads it from the front of the data with more behind. -/

namespace Wamp

/-- `q` reads what `p` reads, with more behind. -/
def Ext {α : Type} (p q : Bytes → Except Exc (α × Bytes)) : Prop :=
  ∀ b v r x, p b = .ok (v, r) → q (b ++ x) = .ok (v, r ++ x)

namespace Ext
variable {α β : Type}

theorem ok {v : α} : Ext (fun r => .ok (v, r)) (fun r => .ok (v, r)) := by
  intro b v r x h; cases h; rfl

theorem error {e : Exc} {q : Bytes → Except Exc (α × Bytes)} : Ext (fun _ => .error e) q := by
  intro b v r x h; cases h

theorem ite {c : Prop} [Decidable c] {p q p' q' : Bytes → Except Exc (α × Bytes)} (h : Ext p q) (h' : Ext p' q') :
    Ext (fun r => if c then p r else p' r) (fun r => if c then q r else q' r) := by
  intro b v r x
  simp only
  split
  · exact h b v r x
  · exact h' b v r x

theorem bind {p q : Bytes → Except Exc (α × Bytes)} {f g : α → Bytes → Except Exc (β × Bytes)} (h : Ext p q) (h' : ∀ a, Ext (f a) (g a)) :
    Ext (fun r => p r >>= fun y => f y.1 y.2) (fun r => q r >>= fun y => g y.1 y.2) := by
  intro b v r x hr
  simp only at hr ⊢
  cases hp : p b with
  | error e => rw [hp] at hr; cases hr
  | ok y =>
    obtain ⟨a, r'⟩ := y
    rw [hp] at hr
    rw [h b a r' x hp]
    exact h' a r' v r x hr

theorem takeBytes (e : Exc) (n : Nat) : Ext (takeBytes e n) (takeBytes e n) := by
  intro b v r x h
  unfold Wamp.takeBytes at h ⊢
  split at h
  · cases h
  · cases h
    rename_i hn
    rw [if_neg (by simp; omega), List.take_append_of_le_length (by omega), List.drop_append_of_le_length (by omega)]

theorem takeNat (e : Exc) (n : Nat) : Ext (takeNat e n) (takeNat e n) := bind (takeBytes e n) fun _ => ok

theorem readMany {p q : Bytes → Except Exc (Value × Bytes)} (h : Ext p q) : ∀ n, Ext (readMany p n) (readMany q n)
  | 0 => ok
  | n + 1 => bind h fun _ => bind (readMany h n) fun _ => ok

theorem readPairs {p q p' q' : Bytes → Except Exc (Value × Bytes)} (h : Ext p q) (h' : Ext p' q') :
    ∀ n, Ext (readPairs p p' n) (readPairs q q' n)
  | 0 => ok
  | n + 1 => by
    have h2 : ∀ k, Ext (fun r => p' r >>= fun y => Wamp.readPairs p p' n y.2 >>= fun z => .ok ((k, y.1) :: z.1, z.2))
        (fun r => q' r >>= fun y => Wamp.readPairs q q' n y.2 >>= fun z => .ok ((k, y.1) :: z.1, z.2)) := fun k =>
      bind (f := fun v r => Wamp.readPairs p p' n r >>= fun z => .ok ((k, v) :: z.1, z.2))
        (g := fun v r => Wamp.readPairs q q' n r >>= fun z => .ok ((k, v) :: z.1, z.2)) h' fun v => bind (readPairs h h' n) fun _ => ok
    exact bind (f := fun k r => p' r >>= fun y => Wamp.readPairs p p' n y.2 >>= fun z => .ok ((k, y.1) :: z.1, z.2))
      (g := fun k r => q' r >>= fun y => Wamp.readPairs q q' n y.2 >>= fun z => .ok ((k, y.1) :: z.1, z.2)) h h2

end Ext

namespace MsgPack

theorem ext_str (n : Nat) : Ext (unpackStr n) (unpackStr n) :=
  Ext.bind (β := Value) (f := fun b r => match ofUtf8 b with
    | some s => .ok (.str s, r)
    | none => .error (.valueError "utf-8"))
    (g := fun b r => match ofUtf8 b with
    | some s => .ok (.str s, r)
    | none => .error (.valueError "utf-8")) (Ext.takeBytes _ _) fun b => by
    cases ofUtf8 b
    · exact Ext.error
    · exact Ext.ok

theorem ext_bin (n : Nat) : Ext (unpackBin n) (unpackBin n) := Ext.bind (Ext.takeBytes _ _) fun _ => Ext.ok

theorem ext_key {p q : Bytes → Except Exc (Value × Bytes)} (h : Ext p q) : Ext (unpackKey p) (unpackKey q) :=
  Ext.bind (α := Value) (β := Value) (f := fun k r => match k with
    | .str _ | .bytes _ => .ok (k, r)
    | _ => .error (.valueError s!"{k.typeName} is not allowed for map key when strict_map_key=True"))
    (g := fun k r => match k with
    | .str _ | .bytes _ => .ok (k, r)
    | _ => .error (.valueError s!"{k.typeName} is not allowed for map key when strict_map_key=True")) h fun k => by
    cases k
    case str => exact Ext.ok
    case bytes => exact Ext.ok
    all_goals exact Ext.error

theorem ext_array {p q : Bytes → Except Exc (Value × Bytes)} (h : Ext p q) (n : Nat) : Ext (unpackArray p n) (unpackArray q n) :=
  Ext.bind (Ext.readMany h n) fun _ => Ext.ok

theorem ext_map {p q : Bytes → Except Exc (Value × Bytes)} (h : Ext p q) (n : Nat) : Ext (unpackMap p n) (unpackMap q n) :=
  Ext.bind (f := fun l r => .ok (Value.dict (PyDict.ofPairs l), r)) (g := fun l r => .ok (Value.dict (PyDict.ofPairs l), r))
    (Ext.readPairs (ext_key h) h n) fun _ => Ext.ok

theorem ext_num (k : Nat) {f g : Nat → Bytes → Except Exc (Value × Bytes)} (h : ∀ n, Ext (f n) (g n)) :
    Ext (withNum k f) (withNum k g) := Ext.bind (Ext.takeNat _ _) h

theorem ext_float (n : Nat) : Ext (unpackFloat n) (unpackFloat n) := by
  unfold unpackFloat
  cases PyFloat.widen 8 23 n with
  | none => exact Ext.error
  | some f => exact Ext.ok

set_option maxRecDepth 4000 in
theorem ext_rest {p q : Bytes → Except Exc (Value × Bytes)} (h : Ext p q) (b : Nat) : Ext (unpackRest p b) (unpackRest q b) := by
  unfold unpackRest
  repeat' with_reducible apply Ext.ite
  all_goals first
    | exact Ext.ok
    | exact Ext.error
    | exact ext_map h _
    | exact ext_array h _
    | exact ext_str _
    | exact ext_num _ ext_bin
    | exact ext_num _ ext_float
    | exact ext_num _ ext_str
    | exact ext_num _ fun _ => Ext.ok
    | exact ext_num _ (ext_array h)
    | exact ext_num _ (ext_map h)

theorem ext_unpack : ∀ f g, f ≤ g → Ext (unpack f) (unpack g)
  | 0, _, _ => Ext.error
  | f + 1, g + 1, h => by
    intro b v r x hb
    cases b with
    | nil => cases hb
    | cons c b => exact ext_rest (ext_unpack f g (by omega)) c.toNat b v r x hb

/-- Nothing but the whole of what is read is read. -/
theorem loads_prefix {b x : Bytes} {v : Value} (h : loads (b ++ x) = .ok v) (hx : x ≠ []) : ∃ e, loads b = .error e := by
  cases hb : loads b with
  | error e => exact ⟨e, rfl⟩
  | ok w =>
    exfalso
    unfold loads at h hb
    cases hu : unpack (b.length + 1) b with
    | error e => rw [hu] at hb; cases hb
    | ok y =>
      obtain ⟨u, r⟩ := y
      rw [ext_unpack (b.length + 1) ((b ++ x).length + 1) (by simp) b u r x hu] at h
      have : r ++ x ≠ [] := by simp [hx]
      cases hr : r ++ x with
      | nil => exact this hr
      | cons c t => simp only [bind, Except.bind, hr] at h; cases h

end MsgPack

namespace Cbor
open Wamp.Spec

theorem ext_str (n : Nat) : Ext (decodeStr n) (decodeStr n) :=
  Ext.bind (β := Value) (f := fun b r => match ofUtf8 b with
    | some s => .ok (.str s, r)
    | none => .error (.external "CBORDecodeValueError"))
    (g := fun b r => match ofUtf8 b with
    | some s => .ok (.str s, r)
    | none => .error (.external "CBORDecodeValueError")) (Ext.takeBytes _ _) fun b => by
    cases ofUtf8 b
    · exact Ext.error
    · exact Ext.ok

theorem ext_bin (n : Nat) : Ext (decodeBin n) (decodeBin n) := Ext.bind (Ext.takeBytes _ _) fun _ => Ext.ok

theorem ext_key {p q : Bytes → Except Exc (Value × Bytes)} (h : Ext p q) : Ext (decodeKey p) (decodeKey q) :=
  Ext.bind (α := Value) (β := Value) (f := fun k r => match k with
    | .str _ | .bytes _ | .int _ => .ok (k, r)
    | _ => .error (.external "cbor2"))
    (g := fun k r => match k with
    | .str _ | .bytes _ | .int _ => .ok (k, r)
    | _ => .error (.external "cbor2")) h fun k => by
    cases k
    case str => exact Ext.ok
    case bytes => exact Ext.ok
    case int => exact Ext.ok
    all_goals exact Ext.error

theorem ext_array {p q : Bytes → Except Exc (Value × Bytes)} (h : Ext p q) (n : Nat) : Ext (decodeArray p n) (decodeArray q n) :=
  Ext.bind (Ext.readMany h n) fun _ => Ext.ok

theorem ext_map {p q : Bytes → Except Exc (Value × Bytes)} (h : Ext p q) (n : Nat) : Ext (decodeMap p n) (decodeMap q n) :=
  Ext.bind (f := fun l r => .ok (Value.dict (PyDict.ofPairs l), r)) (g := fun l r => .ok (Value.dict (PyDict.ofPairs l), r))
    (Ext.readPairs (ext_key h) h n) fun _ => Ext.ok

theorem ext_bytes {p q : Bytes → Except Exc (Value × Bytes)} (h : Ext p q) (g : Bytes → Value) :
    Ext (fun r => p r >>= fun y => match y with
      | (.bytes b, r) => .ok (g b, r)
      | _ => .error (.external "CBORDecodeValueError"))
    (fun r => q r >>= fun y => match y with
      | (.bytes b, r) => .ok (g b, r)
      | _ => .error (.external "CBORDecodeValueError")) :=
  by
    intro b v r x hb
    simp only at hb ⊢
    cases hp : p b with
    | error e => rw [hp] at hb; cases hb
    | ok y =>
      obtain ⟨k, r'⟩ := y
      rw [hp] at hb
      rw [h b k r' x hp]
      cases k <;> cases hb
      rfl

theorem ext_tag {p q : Bytes → Except Exc (Value × Bytes)} (h : Ext p q) (n : Nat) : Ext (decodeTag p n) (decodeTag q n) := by
  unfold decodeTag
  repeat' with_reducible apply Ext.ite
  · exact ext_bytes h fun b => .int (ofBe b)
  · exact ext_bytes h fun b => .int (-(ofBe b : Int) - 1)
  · exact Ext.error

theorem ext_short (eb fb n : Nat) : Ext (decodeShort eb fb n) (decodeShort eb fb n) := by
  unfold decodeShort
  cases PyFloat.widen eb fb n with
  | none => exact Ext.error
  | some f => exact Ext.ok

theorem ext_special (n : Nat) : Ext (decodeSpecial n) (decodeSpecial n) := by
  unfold decodeSpecial
  repeat' with_reducible apply Ext.ite
  · exact Ext.ok
  · exact Ext.ok
  · exact Ext.ok
  · exact Ext.ok
  · exact Ext.ok
  · exact Ext.bind (Ext.takeNat _ _) fun n => ext_short 5 10 n
  · exact Ext.bind (Ext.takeNat _ _) fun n => ext_short 8 23 n
  · exact Ext.bind (f := fun n r => .ok (Value.float ⟨BitVec.ofNat 64 n⟩, r)) (g := fun n r => .ok (Value.float ⟨BitVec.ofNat 64 n⟩, r))
      (Ext.takeNat _ _) fun _ => Ext.ok
  · exact Ext.ok
  · exact Ext.error

theorem ext_argument (n : Nat) : Ext (argument n) (argument n) := by
  unfold argument
  repeat' with_reducible apply Ext.ite
  all_goals first | exact Ext.ok | exact Ext.error | exact Ext.takeNat _ _

theorem ext_body {p q : Bytes → Except Exc (Value × Bytes)} (h : Ext p q) (m n : Nat) : Ext (decodeBody p m n) (decodeBody q m n) := by
  unfold decodeBody
  repeat' with_reducible apply Ext.ite
  all_goals first
    | exact Ext.ok
    | exact ext_bin _
    | exact ext_str _
    | exact ext_array h _
    | exact ext_map h _
    | exact ext_tag h _

theorem ext_pieces (major : Nat) : ∀ n m, n ≤ m → Ext (decodePieces major n) (decodePieces major m)
  | 0, _, _ => Ext.error
  | n + 1, m + 1, h => by
    intro b v r x hb
    cases b with
    | nil => cases hb
    | cons c b =>
      rw [List.cons_append]
      unfold decodePieces at hb ⊢
      have key := Ext.bind (f := fun k r => takeBytes eof k r >>= fun y => decodePieces major n y.2 >>= fun z => .ok (y.1 :: z.1, z.2))
        (g := fun k r => takeBytes eof k r >>= fun y => decodePieces major m y.2 >>= fun z => .ok (y.1 :: z.1, z.2))
        (ext_argument (c.toNat % 32)) fun k => Ext.bind
          (f := fun y r => decodePieces major n r >>= fun z => .ok (y :: z.1, z.2))
          (g := fun y r => decodePieces major m r >>= fun z => .ok (y :: z.1, z.2)) (Ext.takeBytes eof k) fun _ =>
            Ext.bind (ext_pieces major n m (by omega)) fun _ => Ext.ok
      split
      · rename_i hc; rw [if_pos hc] at hb; cases hb; rfl
      · rename_i hc; rw [if_neg hc] at hb
        split
        · rename_i hm; rw [if_pos hm] at hb
          exact key b v r x hb
        · rename_i hm; rw [if_neg hm] at hb; cases hb

theorem ext_items {p q : Bytes → Except Exc (Value × Bytes)} (hp : Ext p q) : ∀ n m, n ≤ m → Ext (decodeItems p n) (decodeItems q m)
  | 0, _, _ => Ext.error
  | n + 1, m + 1, h => by
    intro b v r x hb
    cases b with
    | nil => cases hb
    | cons c b =>
      rw [List.cons_append]
      unfold decodeItems at hb ⊢
      split
      · rename_i hc; rw [if_pos hc] at hb; cases hb; rfl
      · rename_i hc; rw [if_neg hc] at hb
        exact Ext.bind (f := fun y r => decodeItems p n r >>= fun z => .ok (y :: z.1, z.2))
          (g := fun y r => decodeItems q m r >>= fun z => .ok (y :: z.1, z.2)) hp
          (fun _ => Ext.bind (ext_items hp n m (by omega)) fun _ => Ext.ok) (c :: b) v r x hb

theorem ext_pairs {p q : Bytes → Except Exc (Value × Bytes)} (hp : Ext p q) : ∀ n m, n ≤ m → Ext (decodePairs p n) (decodePairs q m)
  | 0, _, _ => Ext.error
  | n + 1, m + 1, h => by
    intro b v r x hb
    cases b with
    | nil => cases hb
    | cons c b =>
      rw [List.cons_append]
      unfold decodePairs at hb ⊢
      split
      · rename_i hc; rw [if_pos hc] at hb; cases hb; rfl
      · rename_i hc; rw [if_neg hc] at hb
        exact Ext.bind (f := fun k r => p r >>= fun y => decodePairs p n y.2 >>= fun z => .ok ((k, y.1) :: z.1, z.2))
          (g := fun k r => q r >>= fun y => decodePairs q m y.2 >>= fun z => .ok ((k, y.1) :: z.1, z.2)) (ext_key hp)
          (fun k => Ext.bind (f := fun y r => decodePairs p n r >>= fun z => .ok ((k, y) :: z.1, z.2))
            (g := fun y r => decodePairs q m r >>= fun z => .ok ((k, y) :: z.1, z.2)) hp
              fun _ => Ext.bind (ext_pairs hp n m (by omega)) fun _ => Ext.ok) (c :: b) v r x hb

/-- A loop that has more fuel when there is more data -/
theorem ext_fuel {α : Type} {p q : Nat → Bytes → Except Exc (α × Bytes)} (h : ∀ n m, n ≤ m → Ext (p n) (q m)) :
    Ext (fun r => p (r.length + 1) r) (fun r => q (r.length + 1) r) := by
  intro b v r x hb
  exact h (b.length + 1) ((b ++ x).length + 1) (by simp) b v r x hb

theorem ext_open {p q : Bytes → Except Exc (Value × Bytes)} (h : Ext p q) (m : Nat) : Ext (decodeOpen p m) (decodeOpen q m) := by
  unfold decodeOpen
  repeat' with_reducible apply Ext.ite
  · exact Ext.bind (f := fun l r => .ok (Value.bytes l.flatten, r)) (g := fun l r => .ok (Value.bytes l.flatten, r))
      (ext_fuel (ext_pieces 2)) fun _ => Ext.ok
  · exact Ext.bind (β := Value) (f := fun l r => match l.mapM ofUtf8 with
        | some ss => .ok (.str (String.join ss), r)
        | none => .error (.external "CBORDecodeValueError"))
      (g := fun l r => match l.mapM ofUtf8 with
        | some ss => .ok (.str (String.join ss), r)
        | none => .error (.external "CBORDecodeValueError")) (ext_fuel (ext_pieces 3)) fun l => by
      cases l.mapM ofUtf8
      · exact Ext.error
      · exact Ext.ok
  · exact Ext.bind (f := fun l r => .ok (Value.list l, r)) (g := fun l r => .ok (Value.list l, r))
      (ext_fuel (ext_items h)) fun _ => Ext.ok
  · exact Ext.bind (f := fun l r => .ok (Value.dict (PyDict.ofPairs l), r)) (g := fun l r => .ok (Value.dict (PyDict.ofPairs l), r))
      (ext_fuel (ext_pairs h)) fun _ => Ext.ok
  · exact Ext.error

theorem ext_rest {p q : Bytes → Except Exc (Value × Bytes)} (h : Ext p q) (b : Nat) : Ext (decodeRest p b) (decodeRest q b) := by
  unfold decodeRest
  repeat' with_reducible apply Ext.ite
  · exact ext_special _
  · exact ext_open h _
  · exact Ext.bind (ext_argument _) fun n => ext_body h _ n

theorem ext_decode : ∀ f g, f ≤ g → Ext (decode f) (decode g)
  | 0, _, _ => Ext.error
  | f + 1, g + 1, h => by
    intro b v r x hb
    cases b with
    | nil => cases hb
    | cons c b => exact ext_rest (ext_decode f g (by omega)) c.toNat b v r x hb

/-- A part of an item is not an item. -/
theorem loads_prefix {b x : Bytes} {v : Value} (h : Fits cborLimits v) (he : encode v = b ++ x) (hx : x ≠ []) :
    ∃ e, loads b = .error e := by
  cases hb : loads b with
  | error e => exact ⟨e, rfl⟩
  | ok w =>
    exfalso
    unfold loads at hb
    cases hu : decode (b.length + 1) b with
    | error e => rw [hu] at hb; cases hb
    | ok y =>
      obtain ⟨u, r⟩ := y
      have h1 := ext_decode (b.length + 1) ((b ++ x).length + 1) (by simp) b u r x hu
      have h2 := decode_encode (b ++ x).length v h (by rw [he]; omega) []
      rw [List.append_nil, he, h1] at h2
      simp only [Except.ok.injEq, Prod.mk.injEq, List.append_eq_nil_iff] at h2
      exact hx h2.2.2

end Cbor
end Wamp
