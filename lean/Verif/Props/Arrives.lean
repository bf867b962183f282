import Verif.Props.Formats
import Verif.Proofs.Arrives

/-!
# What the receiver reads (C90)

`Props/Formats.lean` has that dicts with string keys arrive unchanged.  Here is what arrives of any value that is sent.
-/

namespace Wamp.Spec

theorem usual_eq (x : PyFloat) : usual x = x ↔ PlainFloat x := by
  unfold usual PlainFloat
  split
  · rename_i h; simp [h, eq_comm]
  · rename_i h; simp [h]

theorem merge_nodup (l : List (Value × Value)) (h : (l.map (·.1)).Nodup) : merge l = l := by
  rw [← ofPairs_eq_merge]; exact ofPairs_nodup l h

theorem merge_keys (l : List (Value × Value)) : ∀ kv ∈ merge l, ∃ v, (kv.1, v) ∈ l := by
  induction h : l.length using Nat.strongRecOn generalizing l with
  | ind n ih =>
    cases l with
    | nil => simp [merge]
    | cons x l =>
      obtain ⟨k, v⟩ := x
      rw [merge]
      intro kv hm
      rcases List.mem_cons.1 hm with rfl | hm
      · exact ⟨v, by simp⟩
      · obtain ⟨w, hw⟩ := ih _ (by rw [← h, List.length_cons]; exact Nat.lt_succ_of_le (List.length_filter_le _ _)) _ rfl kv hm
        exact ⟨w, List.mem_cons_of_mem _ (List.mem_filter.1 hw).1⟩

theorem strKeys_map : ∀ d : List (Value × Value), (∀ kv ∈ d, Str kv.1) → (jsonArrivesDict d).map (·.1) = d.map (·.1)
  | [], _ => by simp [jsonArrivesDict]
  | (k, v) :: d, h => by
    obtain ⟨s, hs⟩ := h (k, v) (by simp)
    simp only at hs
    subst hs
    rw [jsonArrivesDict, List.map_cons, List.map_cons, strKeys_map d fun w hw => h w (by simp [hw])]
    rfl

mutual
/-- A value arrives unchanged with JSON exactly if the keys are strings and there are no unusual NaNs. -/
theorem jsonArrives_eq : ∀ v, Distinct v → (jsonArrives v = v ↔ KeysAre Str v ∧ PlainFloats v)
  | .none, _ => by simp [jsonArrives, KeysAre, PlainFloats]
  | .bool _, _ => by simp [jsonArrives, KeysAre, PlainFloats]
  | .int _, _ => by simp [jsonArrives, KeysAre, PlainFloats]
  | .float x, _ => by simp [jsonArrives, KeysAre, PlainFloats, usual_eq]
  | .str _, _ => by simp [jsonArrives, KeysAre, PlainFloats]
  | .bytes _, _ => by simp [jsonArrives, KeysAre, PlainFloats]
  | .list l, h => by
    rw [Distinct] at h
    rw [jsonArrives, KeysAre, PlainFloats, ← jsonArrivesList_self l h]
    simp
  | .dict d, h => by
    rw [Distinct] at h
    rw [jsonArrives, KeysAre, PlainFloats, ← jsonArrivesDict_self d h.2]
    simp only [Value.dict.injEq]
    constructor
    · intro e
      have hk : ∀ kv ∈ d, Str kv.1 := by
        intro kv hm
        rw [← e] at hm
        obtain ⟨v, hv⟩ := merge_keys _ kv hm
        rw [jsonArrivesDict_eq] at hv
        obtain ⟨x, _, hx⟩ := List.mem_map.1 hv
        exact ⟨nameOf x.1, (Prod.mk.inj hx).1.symm⟩
      rwa [merge_nodup _ (by rw [strKeys_map d hk]; exact h.1)] at e
    · intro e
      rw [e]; exact merge_nodup d h.1
  | .obj .., _ => by simp [jsonArrives, KeysAre, PlainFloats]
theorem jsonArrivesList_self : ∀ l, DistinctList l → (jsonArrivesList l = l ↔ KeysAreList Str l ∧ PlainFloatsList l)
  | [], _ => by simp [jsonArrivesList, KeysAreList, PlainFloatsList]
  | v :: l, h => by
    rw [DistinctList] at h
    rw [jsonArrivesList, KeysAreList, PlainFloatsList, List.cons.injEq, jsonArrives_eq v h.1, jsonArrivesList_self l h.2]
    simp only [and_assoc, and_left_comm]
theorem jsonArrivesDict_self : ∀ d, DistinctDict d → (jsonArrivesDict d = d ↔ KeysAreDict Str d ∧ PlainFloatsDict d)
  | [], _ => by simp [jsonArrivesDict, KeysAreDict, PlainFloatsDict]
  | (k, v) :: d, h => by
    rw [DistinctDict] at h
    have hk : Value.str (nameOf k) = k ↔ Str k := by
      constructor
      · intro e; exact ⟨_, e.symm⟩
      · rintro ⟨s, rfl⟩; rfl
    rw [jsonArrivesDict, KeysAreDict, PlainFloatsDict, List.cons.injEq, Prod.mk.injEq, hk, jsonArrives_eq v h.2.1, jsonArrivesDict_self d h.2.2]
    simp only [and_assoc, and_left_comm]
end

/-! ## C90 -/

/-- JSON: what is refused, and what arrives of all the rest.  Keys become strings, entries collapse, there is one NaN. -/
theorem C90_json (v : Value) :
    ((∃ w, Format.json.codec.dumps v = .ok w) ↔ Jsonable v) ∧
    ∀ w, Format.json.codec.dumps v = .ok w → Format.json.codec.loads w = .ok (jsonArrives v) := by
  have hd : ∀ w, Format.json.codec.dumps v = .ok w ↔ ∃ s, Json.dumps v = .ok s ∧ w = .inl s := by
    intro w
    show (Json.dumps v).map Sum.inl = .ok w ↔ _
    cases Json.dumps v <;> simp [Except.map, eq_comm]
  refine ⟨?_, ?_⟩
  · constructor
    · rintro ⟨w, hw⟩
      obtain ⟨s, hs, _⟩ := (hd w).1 hw
      exact ((Json.dumps_iff v s).1 hs).1
    · intro h
      exact ⟨_, (hd _).2 ⟨_, (Json.dumps_iff v _).2 ⟨h, rfl⟩, rfl⟩⟩
  · intro w hw
    obtain ⟨s, hs, rfl⟩ := (hd w).1 hw
    obtain ⟨hj, rfl⟩ := (Json.dumps_iff v s).1 hs
    exact Json.loads_arrives v hj

/-- MessagePack: what arrives is what was sent, or the receiver fails: it does exactly if a key is neither string nor bytes. -/
theorem C90_msgpack (v : Value) (w : String ⊕ Bytes) (hd : Distinct v) (h : Format.msgpack.codec.dumps v = .ok w) :
    (KeysAre StrOrBytes v → Format.msgpack.codec.loads w = .ok v) ∧
    (¬ KeysAre StrOrBytes v → ∃ e, Format.msgpack.codec.loads w = .error e) := by
  have : ∃ b, MsgPack.dumps v = .ok b ∧ w = .inr b := by
    change (MsgPack.dumps v).map Sum.inr = .ok w at h
    cases hm : MsgPack.dumps v with
    | ok b => rw [hm] at h; exact ⟨b, rfl, by cases h; rfl⟩
    | error e => rw [hm] at h; cases h
  obtain ⟨b, hb, rfl⟩ := this
  rcases MsgPack.loads_or v b hb hd with ⟨h1, h2⟩ | ⟨h1, h2⟩
  · exact ⟨fun _ => h2, fun h => absurd h1 h⟩
  · exact ⟨fun h => absurd h h1, fun _ => h2⟩

/-- CBOR: integers and bytes are good keys as well; there is one NaN. -/
theorem C90_cbor (v : Value) (w : String ⊕ Bytes) (hd : Distinct v) (hs : Sized v) (hk : KeysAre StrBytesInt v)
    (h : Format.cbor.codec.dumps v = .ok w) : Format.cbor.codec.loads w = .ok (cborArrives v) := by
  have : ∃ b, Cbor.dumps v = .ok b ∧ w = .inr b := by
    change (Cbor.dumps v).map Sum.inr = .ok w at h
    cases hm : Cbor.dumps v with
    | ok b => rw [hm] at h; exact ⟨b, rfl, by cases h; rfl⟩
    | error e => rw [hm] at h; cases h
  obtain ⟨b, hb, rfl⟩ := this
  exact Cbor.loads_arrives v b hb hd hs hk

/-- What arrives unchanged: with JSON, exactly the values whose keys are strings and that hold no unusual NaN; with MessagePack,
exactly those whose keys are strings or bytes. -/
theorem C90_exact (v : Value) (hd : Distinct v) :
    (∀ w, Format.json.codec.dumps v = .ok w → (Format.json.codec.loads w = .ok v ↔ KeysAre Str v ∧ PlainFloats v)) ∧
    (∀ w, Format.msgpack.codec.dumps v = .ok w → (Format.msgpack.codec.loads w = .ok v ↔ KeysAre StrOrBytes v)) := by
  refine ⟨fun w hw => ?_, fun w hw => ?_⟩
  · rw [(C90_json v).2 w hw, Except.ok.injEq, jsonArrives_eq v hd]
  · have := C90_msgpack v w hd hw
    refine ⟨fun h => ?_, this.1⟩
    apply Classical.byContradiction
    intro hk
    obtain ⟨e, he⟩ := this.2 hk
    rw [he] at h; cases h

/-- An integer and a string with the same name: JSON keeps the place of the first and the value of the last. -/
example : Jsonable (.dict [(.int 1, .str "a"), (.bool true, .none), (.str "1", .str "b")]) ∧
    jsonArrives (.dict [(.int 1, .str "a"), (.bool true, .none), (.str "1", .str "b")]) =
      .dict [(.str "1", .str "b"), (.str "true", .none)] := by
  constructor
  · simp [Jsonable, JsonableDict, Nameable]
  · have : nameOf (.int 1) = "1" := by decide +kernel
    simp [jsonArrives, jsonArrivesDict, merge, lastOf, this]
    simp [nameOf, merge, lastOf]

example : Distinct (.dict [(.bytes [1], .int 1), (.str "a", .list [.dict [(.bytes [], .none)]])]) ∧
    KeysAre StrOrBytes (.dict [(.bytes [1], .int 1), (.str "a", .list [.dict [(.bytes [], .none)]])]) := by
  simp [Distinct, DistinctDict, DistinctList, KeysAre, KeysAreDict, KeysAreList, StrOrBytes]

example : Distinct (.list [.dict [(.int 1, .none)]]) ∧ ¬ KeysAre StrOrBytes (.list [.dict [(.int 1, .none)]]) := by
  simp [Distinct, DistinctDict, DistinctList, KeysAre, KeysAreDict, KeysAreList, StrOrBytes]

example : KeysAre StrBytesInt (.dict [(.int 1, .str "a"), (.str "1", .str "b"), (.bytes [49], .none)]) ∧
    Sized (.dict [(.int 1, .str "a"), (.str "1", .str "b"), (.bytes [49], .none)]) ∧
    Distinct (.dict [(.int 1, .str "a"), (.str "1", .str "b"), (.bytes [49], .none)]) := by
  refine ⟨?_, ?_, ?_⟩
  · simp [KeysAre, KeysAreDict, StrBytesInt]
  · simp [Sized, SizedDict]; decide
  · simp [Distinct, DistinctDict]

end Wamp.Spec
