import Verif.Spec.Arrives
import Verif.Proofs.Json
import Verif.Proofs.MsgPack
import Verif.Proofs.Cbor

/-! # What the receiver reads, for any value a serializer accepts -/

namespace Wamp.Spec

theorem lastOf_append (k : Value) (x : Value × Value) : ∀ l, lastOf k (l ++ [x]) = if x.1 = k then some x.2 else lastOf k l
  | [] => by simp [lastOf]
  | (k', v) :: l => by
    rw [List.cons_append, lastOf, lastOf_append k x l, lastOf]
    split <;> simp

theorem put_filter_ne (k : Value) {k' : Value} (h : k' ≠ k) (v w : Value) (d : PyDict) :
    PyDict.put ((k, w) :: d) k' v = (k, w) :: d.put k' v := by
  rw [PyDict.put, if_neg (Ne.symm h)]

/-- Building a dict whose first entry is known -/
theorem foldl_put_cons : ∀ (l : List (Value × Value)) (k w : Value) (d : PyDict),
    l.foldl (fun (d : PyDict) kv => d.put kv.1 kv.2) ((k, w) :: d) =
      (k, (lastOf k l).getD w) :: (l.filter fun kv => kv.1 ≠ k).foldl (fun (d : PyDict) kv => d.put kv.1 kv.2) d
  | [], k, w, d => rfl
  | (k', v) :: l, k, w, d => by
    rw [List.foldl_cons]
    by_cases hk : k' = k
    · subst hk
      simp only [PyDict.put, if_true]
      rw [foldl_put_cons l, lastOf]
      simp only [List.filter_cons, ne_eq, not_true_eq_false, decide_false, if_true]
      cases lastOf k' l <;> simp
    · rw [put_filter_ne k hk, foldl_put_cons l, lastOf]
      simp only [List.filter_cons, ne_eq, hk, not_false_eq_true, decide_true, if_true, List.foldl_cons, if_false]
      cases lastOf k l <;> simp

theorem ofPairs_eq_merge (l : List (Value × Value)) : PyDict.ofPairs l = merge l := by
  induction h : l.length using Nat.strongRecOn generalizing l with
  | ind n ih =>
    cases l with
    | nil => simp [PyDict.ofPairs, merge]
    | cons x l =>
      obtain ⟨k, v⟩ := x
      rw [merge, PyDict.ofPairs, List.foldl_cons]
      rw [← ih _ (by rw [← h, List.length_cons]; exact Nat.lt_succ_of_le (List.length_filter_le _ _)) _ rfl]
      exact foldl_put_cons l k v []

theorem usual_plain (x : PyFloat) : PlainFloat (usual x) := by
  intro h
  unfold usual at *
  split at h
  · rename_i hn; rw [if_pos hn]
  · rename_i hn; exact absurd h hn

theorem jsonableList_iff : ∀ l, JsonableList l ↔ ∀ v ∈ l, Jsonable v
  | [] => by simp [JsonableList]
  | v :: l => by simp [JsonableList, jsonableList_iff l]

theorem jsonArrivesList_eq : ∀ l, jsonArrivesList l = l.map jsonArrives
  | [] => by simp [jsonArrivesList]
  | v :: l => by simp [jsonArrivesList, jsonArrivesList_eq l]

theorem jsonableDict_iff : ∀ d : List (Value × Value), JsonableDict d ↔ ∀ kv ∈ d, Nameable kv.1 ∧ Jsonable kv.2
  | [] => by simp [JsonableDict]
  | (k, v) :: d => by simp [JsonableDict, jsonableDict_iff d, and_assoc]

theorem jsonArrivesDict_eq : ∀ d : List (Value × Value), jsonArrivesDict d = d.map fun kv => (.str (nameOf kv.1), jsonArrives kv.2)
  | [] => by simp [jsonArrivesDict]
  | (k, v) :: d => by simp [jsonArrivesDict, jsonArrivesDict_eq d]

end Wamp.Spec

namespace Wamp.Json
open Wamp.Spec

theorem digitChar_plain : ∀ n, n < 10 → Nat.digitChar n = Char.ofNat (48 + n) := by decide

theorem toDigits_eq_decimal (n : Nat) : Nat.toDigits 10 n = decimal n := by
  induction n using Nat.strongRecOn with
  | ind n ih =>
    rw [decimal_eq, Nat.toDigits_eq_if (by decide)]
    split
    · rw [digitChar_plain n (by assumption)]
    · rw [ih (n / 10) (by omega), digitChar_plain _ (Nat.mod_lt _ (by decide))]

theorem integer_toString (n : Int) : integer n = (toString n).toList := by
  cases n with
  | ofNat n =>
    show decimal n = (Nat.repr n).toList
    rw [Nat.toList_repr, toDigits_eq_decimal]
  | negSucc n =>
    show '-' :: decimal (n + 1) = ("-" ++ Nat.repr (n + 1)).toList
    rw [String.toList_append, Nat.toList_repr, toDigits_eq_decimal]; rfl

theorem keyText_name : ∀ k, Nameable k → keyText k = (nameOf k).toList
  | .str s, _ => rfl
  | .none, _ => rfl
  | .bool true, _ => rfl
  | .bool false, _ => rfl
  | .int n, _ => integer_toString n
  | .float x, _ => by simp [keyText, nameOf]
  | .bytes _, h => by simp [Nameable] at h
  | .list _, h => by simp [Nameable] at h
  | .dict _, h => by simp [Nameable] at h
  | .obj .., h => by simp [Nameable] at h

theorem floatText_usual (x : PyFloat) : floatText x = floatText (usual x) := by
  unfold usual
  split
  · rename_i h; rw [floatText, if_pos h]; rfl
  · rfl

theorem jsonable_cons : ∀ v, Jsonable v → ∃ c t, text v = c :: t ∧ isSpace c = false ∧ c ≠ ']' ∧ c ≠ '}'
  | .none, _ => ⟨'n', _, by rw [text]; rfl, by decide, by decide, by decide⟩
  | .bool true, _ => ⟨'t', _, by rw [text]; rfl, by decide, by decide, by decide⟩
  | .bool false, _ => ⟨'f', _, by rw [text]; rfl, by decide, by decide, by decide⟩
  | .int n, _ => by
    obtain ⟨c, t, e, h, _⟩ := integer_cons n
    exact ⟨c, t, by rw [text, e], h.space, h.ne (by decide) (by decide), h.ne (by decide) (by decide)⟩
  | .float f, h => by
    rw [text, floatText_usual]; exact floatText_cons _ (usual_plain f)
  | .bytes _, h => by simp [Jsonable] at h
  | .str s, _ => ⟨'"', _, by rw [text]; rfl, by decide, by decide, by decide⟩
  | .list [], _ => ⟨'[', _, by rw [text], by decide, by decide, by decide⟩
  | .list (_ :: _), _ => ⟨'[', _, by rw [text], by decide, by decide, by decide⟩
  | .dict [], _ => ⟨'{', _, by rw [text], by decide, by decide, by decide⟩
  | .dict ((_, _) :: _), _ => ⟨'{', _, by rw [text], by decide, by decide, by decide⟩
  | .obj .., h => by simp [Jsonable] at h

theorem skip_jsonable {v : Value} (h : Jsonable v) (r : List Char) : skip (text v ++ r) = text v ++ r := by
  obtain ⟨c, t, e, hs, _⟩ := jsonable_cons v h
  rw [e, List.cons_append, skip_cons hs]

theorem elements_arrive (g : List Char → Except Exc (Value × List Char)) : ∀ (l : List Value) (v : Value) (n : Nat) (r : List Char),
    (∀ w ∈ v :: l, ∀ r, Stop r → g (text w ++ r) = .ok (jsonArrives w, r)) → (∀ w ∈ l, Jsonable w) → l.length < n →
    elements g n (text v ++ (textTail l ++ r)) = .ok ((v :: l).map jsonArrives, r)
  | [], v, n + 1, r, hg, _, _ => by
    rw [elements, textTail, List.singleton_append, hg v (by simp) _ (stop_cons (by decide) _)]
    simp only [bind, Except.bind, skip_cons (show isSpace ']' = false by decide)]
    simp
  | w :: l, v, n + 1, r, hg, hf, hn => by
    have ih := elements_arrive g l w n r (fun x hx => hg x (by simp [List.mem_cons.1 hx])) (fun x hx => hf x (by simp [hx])) (by simpa using hn)
    rw [elements, textTail, List.cons_append, List.cons_append, hg v (by simp) _ (stop_cons (by decide) _)]
    simp only [bind, Except.bind, skip_cons (show isSpace ',' = false by decide), if_true, skip_space, List.append_assoc]
    rw [skip_jsonable (hf w (by simp)), ih]; rfl

theorem members_arrive (g : List Char → Except Exc (Value × List Char)) : ∀ (d : List (Value × Value)) (k v : Value) (n : Nat) (r : List Char),
    (∀ w ∈ (k, v) :: d, ∀ r, Stop r → g (text w.2 ++ r) = .ok (jsonArrives w.2, r)) →
    (∀ w ∈ (k, v) :: d, Nameable w.1 ∧ Jsonable w.2) → d.length < n →
    members g n (quote (keyText k) ++ (':' :: ' ' :: (text v ++ (textMembers d ++ r)))) =
      .ok (((k, v) :: d).map fun kv => (nameOf kv.1, jsonArrives kv.2), r)
  | [], k, v, n + 1, r, hg, hf, _ => by
    rw [keyText_name k (hf (k, v) (by simp)).1, quote_append, members]
    simp only [if_true, string_quoted, bind, Except.bind, skip_cons (show isSpace ':' = false by decide), skip_space,
      skip_jsonable (hf (k, v) (by simp)).2, textMembers, List.cons_append, List.nil_append]
    rw [hg (k, v) (by simp) _ (stop_cons (by decide) _)]
    simp [skip_cons (show isSpace '}' = false by decide)]
  | (k', w) :: d, k, v, n + 1, r, hg, hf, hn => by
    have ih := members_arrive g d k' w n r (fun x hx => hg x (List.mem_cons_of_mem _ hx)) (fun x hx => hf x (List.mem_cons_of_mem _ hx)) (by simpa using hn)
    rw [keyText_name k (hf (k, v) (by simp)).1, quote_append, members]
    simp only [textMembers, List.cons_append]
    simp only [if_true, string_quoted, bind, Except.bind, skip_cons (show isSpace ':' = false by decide), skip_space,
      skip_jsonable (hf (k, v) (by simp)).2]
    rw [hg (k, v) (by simp) _ (stop_cons (by decide) _)]
    simp only [skip_cons (show isSpace ',' = false by decide), if_true, skip_space, List.append_assoc, List.cons_append]
    have hq : ∀ s t, skip (quote s ++ t) = quote s ++ t := fun s t => by
      rw [quote_append, skip_cons (by decide)]
    rw [hq, ih]; rfl

theorem value_arrives : ∀ (f : Nat) (v : Value), Jsonable v → (text v).length ≤ f → ∀ r, ((∃ n, v = .int n) ∨ (∃ f, v = .float f) → Stop r) →
    value f (text v ++ r) = .ok (jsonArrives v, r) := by
  intro f
  induction f with
  | zero =>
    intro v hv hl
    obtain ⟨c, t, e, _⟩ := jsonable_cons v hv
    rw [e] at hl
    simp at hl
  | succ f ih =>
    intro v hv hl r hr
    match v, hv, hl with
    | .none, _, _ => rw [text, jsonArrives]; rfl
    | .bool true, _, _ => rw [text, jsonArrives]; rfl
    | .bool false, _, _ => rw [text, jsonArrives]; rfl
    | .int n, _, _ =>
      have hn := number_integer n r (hr (.inl ⟨n, rfl⟩))
      obtain ⟨c, t, e, h, hm⟩ := integer_cons n
      rw [text, jsonArrives]
      rw [e, List.cons_append] at hn ⊢
      rw [value_number h (fun hc => by obtain ⟨d, u, rfl, hd⟩ := hm hc; exact ⟨d, u ++ r, rfl, hd⟩), hn]
    | .float x, hv, _ =>
      rw [text, jsonArrives, floatText_usual, value_float _ (usual_plain x) f r (hr (.inr ⟨x, rfl⟩))]
    | .str s, _, _ =>
      rw [text, jsonArrives, quote_append, value.eq_def]
      simp only [if_true, string_quoted, bind, Except.bind]
    | .list [], _, _ => rw [text, jsonArrives, jsonArrivesList]; rfl
    | .list (v :: l), hv, hl =>
      rw [Jsonable, JsonableList, jsonableList_iff] at hv
      rw [jsonArrives, jsonArrivesList_eq]
      rw [text] at hl ⊢
      simp only [List.length_cons, List.length_append] at hl
      have hlen := textTail_length l
      have he := elements_arrive (value f) l v ((text v ++ (textTail l ++ r)).length + 1) r
        (by
          intro w hw r hr'
          rcases List.mem_cons.1 hw with rfl | hw
          · exact ih w hv.1 (by omega) r fun _ => hr'
          · exact ih w (hv.2 w hw) (by have := hlen.2 w hw; omega) r fun _ => hr')
        hv.2 (by simp only [List.length_append]; omega)
      obtain ⟨c, t, e, hs, hb, _⟩ := jsonable_cons v hv.1
      rw [List.cons_append, List.append_assoc, value.eq_def]
      simp only [if_neg (show ('[' : Char) ≠ '"' by decide), if_neg (show ('[' : Char) ≠ '{' by decide), if_true, skip_jsonable hv.1]
      rw [e, List.cons_append] at he ⊢
      simp only [if_neg hb, he, bind, Except.bind]
    | .dict [], _, _ => rw [text, jsonArrives, jsonArrivesDict, merge]; rfl
    | .dict ((k, v) :: d), hv, hl =>
      rw [Jsonable, jsonableDict_iff] at hv
      rw [text] at hl ⊢
      simp only [List.length_cons, List.length_append] at hl
      have hlen := textMembers_length d
      have he := members_arrive (value f) d k v ((quote (keyText k) ++ (':' :: ' ' :: (text v ++ (textMembers d ++ r)))).length + 1) r
        (by
          intro w hw r hr'
          have hj := (hv w hw).2
          rcases List.mem_cons.1 hw with rfl | hw
          · exact ih _ hj (by simp only; omega) r fun _ => hr'
          · exact ih w.2 hj (by have := hlen.2 w hw; omega) r fun _ => hr')
        hv
        (by simp only [List.length_append, List.length_cons]; omega)
      have hf := foldl_set (((k, v) :: d).map fun kv => (nameOf kv.1, jsonArrives kv.2)) []
      have hp : strPairs (((k, v) :: d).map fun kv => (nameOf kv.1, jsonArrives kv.2)) = jsonArrivesDict ((k, v) :: d) := by
        rw [jsonArrivesDict_eq, strPairs, List.map_map]; rfl
      rw [hp] at hf
      have hm := ofPairs_eq_merge (jsonArrivesDict ((k, v) :: d))
      rw [PyDict.ofPairs] at hm
      rw [hm] at hf
      rw [jsonArrives]
      simp only [List.cons_append, List.append_assoc]
      rw [value.eq_def]
      simp only [if_neg (show ('{' : Char) ≠ '"' by decide), if_true]
      rw [quote_append] at he ⊢
      rw [skip_cons (by decide)]
      simp only [if_neg (show ('"' : Char) ≠ '}' by decide), he, bind, Except.bind, hf]
    | .bytes _, hv, _ => simp [Jsonable] at hv
    | .obj .., hv, _ => simp [Jsonable] at hv

theorem keyWritable_iff : ∀ k, keyWritable k = .ok () ↔ Nameable k
  | .str _ => by simp [keyWritable, Nameable]
  | .none => by simp [keyWritable, Nameable]
  | .bool _ => by simp [keyWritable, Nameable]
  | .int _ => by simp [keyWritable, Nameable]
  | .float _ => by simp [keyWritable, Nameable]
  | .bytes _ => by simp [keyWritable, Nameable]
  | .list _ => by simp [keyWritable, Nameable]
  | .dict _ => by simp [keyWritable, Nameable]
  | .obj .. => by simp [keyWritable, Nameable]

theorem seq_ok {a b : Except Exc Unit} : (a >>= fun _ => b) = .ok () ↔ a = .ok () ∧ b = .ok () := by
  cases a <;> simp [bind, Except.bind]

mutual
theorem writable_iff : ∀ v, writable v = .ok () ↔ Jsonable v
  | .none => by simp [writable, Jsonable]
  | .bool _ => by simp [writable, Jsonable]
  | .int _ => by simp [writable, Jsonable]
  | .float _ => by simp [writable, Jsonable]
  | .str _ => by simp [writable, Jsonable]
  | .bytes _ => by simp [writable, Jsonable]
  | .list l => by rw [writable, Jsonable, writableList_iff l]
  | .dict d => by rw [writable, Jsonable, writableDict_iff d]
  | .obj .. => by simp [writable, Jsonable]
theorem writableList_iff : ∀ l, writableList l = .ok () ↔ JsonableList l
  | [] => by simp [writableList, JsonableList]
  | v :: l => by rw [writableList, JsonableList, seq_ok, writable_iff v, writableList_iff l]
theorem writableDict_iff : ∀ d, writableDict d = .ok () ↔ JsonableDict d
  | [] => by simp [writableDict, JsonableDict]
  | (k, v) :: d => by rw [writableDict, JsonableDict, seq_ok, seq_ok, keyWritable_iff, writable_iff v, writableDict_iff d]
end

theorem dumps_iff (v : Value) (w : String) : dumps v = .ok w ↔ Jsonable v ∧ w = String.ofList (text v) := by
  rw [← writable_iff, dumps]
  cases writable v with
  | ok u => simp [bind, Except.bind, eq_comm]
  | error e => simp [bind, Except.bind]

theorem loads_arrives (v : Value) (h : Jsonable v) : loads (String.ofList (text v)) = .ok (jsonArrives v) := by
  have hv := value_arrives ((text v).length + 1) v h (by omega) [] (by intro _ c hc; cases hc)
  have hs := skip_jsonable h []
  rw [List.append_nil] at hv hs
  rw [loads, String.toList_ofList, hs, hv]; rfl

end Wamp.Json

namespace Wamp.Spec

theorem distinctList_iff : ∀ l, DistinctList l ↔ ∀ v ∈ l, Distinct v
  | [] => by simp [DistinctList]
  | v :: l => by simp [DistinctList, distinctList_iff l]

theorem distinctDict_iff : ∀ d : List (Value × Value), DistinctDict d ↔ ∀ kv ∈ d, Distinct kv.1 ∧ Distinct kv.2
  | [] => by simp [DistinctDict]
  | (k, v) :: d => by simp [DistinctDict, distinctDict_iff d, and_assoc]

theorem keysAreList_iff {ok : Value → Prop} : ∀ l, KeysAreList ok l ↔ ∀ v ∈ l, KeysAre ok v
  | [] => by simp [KeysAreList]
  | v :: l => by simp [KeysAreList, keysAreList_iff l]

theorem keysAreDict_iff {ok : Value → Prop} : ∀ d : List (Value × Value), KeysAreDict ok d ↔ ∀ kv ∈ d, ok kv.1 ∧ KeysAre ok kv.2
  | [] => by simp [KeysAreDict]
  | (k, v) :: d => by simp [KeysAreDict, keysAreDict_iff d, and_assoc]

/-- Either the item is as it should be and is read, or reading fails. -/
def ReadsOr (ok : Prop) (got : Except Exc (Value × Bytes)) (v : Value) (r : Bytes) : Prop :=
  (ok ∧ got = .ok (v, r)) ∨ (¬ ok ∧ ∃ e, got = .error e)

theorem readMany_or (item : Bytes → Except Exc (Value × Bytes)) (enc : Value → Bytes) (ok : Value → Prop) : ∀ l : List Value,
    (∀ v ∈ l, ∀ r, ReadsOr (ok v) (item (enc v ++ r)) v r) → ∀ r,
    ((∀ v ∈ l, ok v) ∧ readMany item l.length (l.flatMap enc ++ r) = .ok (l, r)) ∨
      ((¬ ∀ v ∈ l, ok v) ∧ ∃ e, readMany item l.length (l.flatMap enc ++ r) = .error e)
  | [], _, r => .inl ⟨by simp, rfl⟩
  | v :: l, h, r => by
    simp only [List.flatMap_cons, List.append_assoc, List.length_cons, readMany, List.forall_mem_cons]
    rcases h v (by simp) (l.flatMap enc ++ r) with ⟨h1, h2⟩ | ⟨h1, e, h2⟩
    · rcases readMany_or item enc ok l (fun w hw => h w (by simp [hw])) r with ⟨h3, h4⟩ | ⟨h3, e, h4⟩
      · exact .inl ⟨⟨h1, h3⟩, by simp only [h2, h4, bind, Except.bind]⟩
      · exact .inr ⟨fun x => h3 x.2, e, by simp only [h2, h4, bind, Except.bind]⟩
    · exact .inr ⟨fun x => h1 x.1, e, by simp only [h2, bind, Except.bind]⟩

theorem readPairs_or (key item : Bytes → Except Exc (Value × Bytes)) (enc : Value → Bytes) (okKey ok : Value → Prop) :
    ∀ d : List (Value × Value),
    (∀ kv ∈ d, ∀ r, ReadsOr (okKey kv.1) (key (enc kv.1 ++ r)) kv.1 r) →
    (∀ kv ∈ d, ∀ r, ReadsOr (ok kv.2) (item (enc kv.2 ++ r)) kv.2 r) → ∀ r,
    ((∀ kv ∈ d, okKey kv.1 ∧ ok kv.2) ∧ readPairs key item d.length (d.flatMap (fun kv => enc kv.1 ++ enc kv.2) ++ r) = .ok (d, r)) ∨
      ((¬ ∀ kv ∈ d, okKey kv.1 ∧ ok kv.2) ∧ ∃ e, readPairs key item d.length (d.flatMap (fun kv => enc kv.1 ++ enc kv.2) ++ r) = .error e)
  | [], _, _, r => .inl ⟨by simp, rfl⟩
  | (k, v) :: d, hk, hv, r => by
    simp only [List.flatMap_cons, List.append_assoc, List.length_cons, readPairs, List.forall_mem_cons]
    rcases hk (k, v) (by simp) (enc v ++ (d.flatMap (fun kv => enc kv.1 ++ enc kv.2) ++ r)) with ⟨h1, h2⟩ | ⟨h1, e, h2⟩
    · simp only at h1 h2
      rcases hv (k, v) (by simp) (d.flatMap (fun kv => enc kv.1 ++ enc kv.2) ++ r) with ⟨h3, h4⟩ | ⟨h3, e, h4⟩
      · simp only at h3 h4
        rcases readPairs_or key item enc okKey ok d (fun w hw => hk w (by simp [hw])) (fun w hw => hv w (by simp [hw])) r with ⟨h5, h6⟩ | ⟨h5, e, h6⟩
        · exact .inl ⟨⟨⟨h1, h3⟩, h5⟩, by simp only [h2, h4, h6, bind, Except.bind]⟩
        · exact .inr ⟨fun x => h5 x.2, e, by simp only [h2, h4, h6, bind, Except.bind]⟩
      · simp only at h3 h4
        exact .inr ⟨fun x => h3 x.1.2, e, by simp only [h2, h4, bind, Except.bind]⟩
    · simp only at h1 h2
      exact .inr ⟨fun x => h1 x.1.1, e, by simp only [h2, bind, Except.bind]⟩

end Wamp.Spec

namespace Wamp.MsgPack
open Wamp.Spec

theorem packableList_iff : ∀ l, packableList l = .ok () ↔ ∀ v ∈ l, packable v = .ok ()
  | [] => by simp [packableList]
  | v :: l => by rw [packableList, Json.seq_ok, packableList_iff l]; simp

theorem packableDict_iff : ∀ d : List (Value × Value), packableDict d = .ok () ↔ ∀ kv ∈ d, packable kv.1 = .ok () ∧ packable kv.2 = .ok ()
  | [] => by simp [packableDict]
  | (k, v) :: d => by rw [packableDict, Json.seq_ok, Json.seq_ok, packableDict_iff d]; simp [and_assoc]

theorem packable_pos : ∀ v, packable v = .ok () → 0 < (pack v).length
  | .none, _ => by simp [pack]
  | .bool false, _ => by simp [pack]
  | .bool true, _ => by simp [pack]
  | .int n, _ => by rw [pack]; exact packInt_pos n
  | .float _, _ => by simp [pack]
  | .str s, _ => by rw [pack, List.length_append]; have := (head_pos (utf8 s).length).1; omega
  | .bytes b, _ => by rw [pack, List.length_append]; have := (head_pos b.length).2.1; omega
  | .list b, _ => by rw [pack, List.length_append]; have := (head_pos b.length).2.2.1; omega
  | .dict b, _ => by rw [pack, List.length_append]; have := (head_pos b.length).2.2.2; omega
  | .obj .., h => by simp [packable] at h

theorem if_ok {p : Prop} [Decidable p] {a : Except Exc Unit} {e : Exc} : (if p then a else .error e) = .ok () ↔ p ∧ a = .ok () := by
  split <;> simp [*]

theorem unpack_or : ∀ (f : Nat) (v : Value), packable v = .ok () → Distinct v → (pack v).length ≤ f → ∀ r,
    ReadsOr (KeysAre StrOrBytes v) (unpack f (pack v ++ r)) v r := by
  intro f
  induction f with
  | zero =>
    intro v hv _ hl
    have := packable_pos v hv
    omega
  | succ f ih =>
    intro v hv hd hl r
    cases v with
    | none => exact .inl ⟨by simp [KeysAre], rfl⟩
    | bool b => exact .inl ⟨by simp [KeysAre], by cases b <;> rfl⟩
    | int n =>
      rw [packable, if_ok] at hv
      exact .inl ⟨by simp [KeysAre], by rw [pack]; exact unpack_int f n hv.1 r⟩
    | float x =>
      refine .inl ⟨by simp [KeysAre], ?_⟩
      rw [pack, unpack_num f (b := 0xcb) (k := 8) (use := fun n r => .ok (.float ⟨BitVec.ofNat 64 n⟩, r)) (fun _ => rfl) (by have := x.bits.isLt; omega)]
      simp
    | str s =>
      rw [packable, if_ok] at hv
      exact .inl ⟨by simp [KeysAre], unpack_str f s (by rw [← utf8_length]; exact hv.1) r⟩
    | bytes b =>
      rw [packable, if_ok] at hv
      refine .inl ⟨by simp [KeysAre], ?_⟩
      rw [pack, List.append_assoc, unpack_bin_head f _ hv.1, unpackBin, takeBytes_append _ rfl]; rfl
    | list l =>
      rw [packable, if_ok, packableList_iff] at hv
      rw [Distinct, distinctList_iff] at hd
      rw [pack, packList_flatMap, List.length_append] at hl
      rw [ReadsOr, KeysAre, keysAreList_iff, pack, List.append_assoc, unpack_array_head f _ hv.1, unpackArray, packList_flatMap]
      rcases readMany_or (unpack f) pack (KeysAre StrOrBytes) l (fun v hm r => by
        have h1 := length_flatMap_le pack l v hm
        have h2 := (head_pos l.length).2.2.1
        exact ih v (hv.2 v hm) (hd v hm) (by omega) r) r with ⟨h1, h2⟩ | ⟨h1, e, h2⟩
      · exact .inl ⟨h1, by rw [h2]; rfl⟩
      · exact .inr ⟨h1, e, by rw [h2]; rfl⟩
    | dict d =>
      rw [packable, if_ok, packableDict_iff] at hv
      rw [Distinct, distinctDict_iff] at hd
      rw [pack, packDict_flatMap, List.length_append] at hl
      rw [ReadsOr, KeysAre, keysAreDict_iff, pack, List.append_assoc, unpack_map_head f _ hv.1, unpackMap, packDict_flatMap]
      have hlen : ∀ kv ∈ d, (pack kv.1).length ≤ f ∧ (pack kv.2).length ≤ f := by
        intro kv hm
        have h1 := length_flatMap_le (fun kv => pack kv.1 ++ pack kv.2) d kv hm
        have h2 := (head_pos d.length).2.2.2
        simp only [List.length_append] at h1
        omega
      rcases readPairs_or (unpackKey (unpack f)) (unpack f) pack StrOrBytes (KeysAre StrOrBytes) d (fun kv hm r => by
          rw [unpackKey]
          rcases ih kv.1 (hv.2 kv hm).1 (hd.2 kv hm).1 (hlen kv hm).1 r with ⟨_, h2⟩ | ⟨h1, e, h2⟩
          · rw [h2]
            cases kv.1 with
            | str s => exact .inl ⟨.inl ⟨s, rfl⟩, rfl⟩
            | bytes b => exact .inl ⟨.inr ⟨b, rfl⟩, rfl⟩
            | _ => exact .inr ⟨by simp [StrOrBytes], _, rfl⟩
          · refine .inr ⟨?_, e, by rw [h2]; rfl⟩
            rintro (⟨s, hs⟩ | ⟨s, hs⟩) <;> exact h1 (by rw [hs]; simp [KeysAre]))
        (fun kv hm r => ih kv.2 (hv.2 kv hm).2 (hd.2 kv hm).2 (hlen kv hm).2 r) r with ⟨h1, h2⟩ | ⟨h1, e, h2⟩
      · exact .inl ⟨h1, by rw [h2]; simp only [bind, Except.bind, ofPairs_nodup d hd.1]⟩
      · exact .inr ⟨h1, e, by rw [h2]; rfl⟩
    | obj => simp [packable] at hv

theorem loads_or (v : Value) (w : Bytes) (h : dumps v = .ok w) (hd : Distinct v) :
    (KeysAre StrOrBytes v ∧ loads w = .ok v) ∨ (¬ KeysAre StrOrBytes v ∧ ∃ e, loads w = .error e) := by
  rw [dumps] at h
  cases hp : packable v with
  | error e => rw [hp] at h; simp [bind, Except.bind] at h
  | ok u =>
    rw [hp] at h
    simp only [bind, Except.bind, Except.ok.injEq] at h
    subst h
    have := unpack_or ((pack v).length + 1) v hp hd (by omega) []
    rw [List.append_nil] at this
    rcases this with ⟨h1, h2⟩ | ⟨h1, e, h2⟩
    · exact .inl ⟨h1, by rw [loads, h2]; rfl⟩
    · exact .inr ⟨h1, e, by rw [loads, h2]; rfl⟩

end Wamp.MsgPack

namespace Wamp.Spec

theorem sizedList_iff : ∀ l, SizedList l ↔ ∀ v ∈ l, Sized v
  | [] => by simp [SizedList]
  | v :: l => by simp [SizedList, sizedList_iff l]

theorem sizedDict_iff : ∀ d : List (Value × Value), SizedDict d ↔ ∀ kv ∈ d, Sized kv.1 ∧ Sized kv.2
  | [] => by simp [SizedDict]
  | (k, v) :: d => by simp [SizedDict, sizedDict_iff d, and_assoc]

theorem cborArrivesList_eq : ∀ l, cborArrivesList l = l.map cborArrives
  | [] => by simp [cborArrivesList]
  | v :: l => by simp [cborArrivesList, cborArrivesList_eq l]

theorem cborArrivesDict_eq : ∀ d : List (Value × Value), cborArrivesDict d = d.map fun kv => (kv.1, cborArrives kv.2)
  | [] => by simp [cborArrivesDict]
  | (k, v) :: d => by simp [cborArrivesDict, cborArrivesDict_eq d]

theorem readMany_map (item : Bytes → Except Exc (Value × Bytes)) (enc : Value → Bytes) (g : Value → Value) : ∀ l : List Value,
    (∀ v ∈ l, ∀ r, item (enc v ++ r) = .ok (g v, r)) → ∀ r, readMany item l.length (l.flatMap enc ++ r) = .ok (l.map g, r)
  | [], _, r => rfl
  | v :: l, h, r => by
    have hv := h v (by simp)
    have hl := readMany_map item enc g l fun w hw => h w (by simp [hw])
    simp only [List.flatMap_cons, List.append_assoc, List.length_cons, readMany, hv, hl, bind, Except.bind, List.map_cons]

theorem readPairs_map (key item : Bytes → Except Exc (Value × Bytes)) (enc : Value → Bytes) (g : Value → Value) : ∀ d : List (Value × Value),
    (∀ kv ∈ d, ∀ r, key (enc kv.1 ++ r) = .ok (kv.1, r)) → (∀ kv ∈ d, ∀ r, item (enc kv.2 ++ r) = .ok (g kv.2, r)) →
    ∀ r, readPairs key item d.length (d.flatMap (fun kv => enc kv.1 ++ enc kv.2) ++ r) = .ok (d.map fun kv => (kv.1, g kv.2), r)
  | [], _, _, r => rfl
  | (k, v) :: d, hk, hv, r => by
    have h1 := hk (k, v) (by simp)
    have h2 := hv (k, v) (by simp)
    have hl := readPairs_map key item enc g d (fun w hw => hk w (by simp [hw])) fun w hw => hv w (by simp [hw])
    simp only at h1 h2
    simp only [List.flatMap_cons, List.append_assoc, List.length_cons, readPairs, h1, h2, hl, bind, Except.bind, List.map_cons]

end Wamp.Spec

namespace Wamp.Cbor
open Wamp.Spec
open Wamp.MsgPack (length_flatMap_le)

theorem encodableList_iff : ∀ l, encodableList l = .ok () ↔ ∀ v ∈ l, encodable v = .ok ()
  | [] => by simp [encodableList]
  | v :: l => by rw [encodableList, Json.seq_ok, encodableList_iff l]; simp

theorem encodableDict_iff : ∀ d : List (Value × Value), encodableDict d = .ok () ↔ ∀ kv ∈ d, encodable kv.1 = .ok () ∧ encodable kv.2 = .ok ()
  | [] => by simp [encodableDict]
  | (k, v) :: d => by rw [encodableDict, Json.seq_ok, Json.seq_ok, encodableDict_iff d]; simp [and_assoc]

theorem float_usual (x : PyFloat) : float x = float (usual x) := by
  unfold usual
  split
  · rename_i h
    rw [float, if_pos (by simpa [PyFloat.isNaN] using h)]; rfl
  · rfl

/-- A value without parts is written and read as before. -/
theorem fits_scalar : ∀ v, encodable v = .ok () → Sized v → (∀ l, v ≠ .list l) → (∀ d, v ≠ .dict d) →
    encode v = encode (cborArrives v) ∧ Fits cborLimits (cborArrives v)
  | .none, _, _, _, _ => by simp [cborArrives, Fits]
  | .bool _, _, _, _, _ => by simp [cborArrives, Fits]
  | .int n, _, h, _, _ => by rw [Sized] at h; simpa [cborArrives, Fits, cborLimits] using h
  | .float x, _, _, _, _ => by
    rw [cborArrives, Fits, encode, encode]
    exact ⟨float_usual x, usual_plain x⟩
  | .str s, _, h, _, _ => by rw [Sized] at h; simpa [cborArrives, Fits, cborLimits] using h
  | .bytes b, _, h, _, _ => by rw [Sized] at h; simpa [cborArrives, Fits, cborLimits] using h
  | .list l, _, _, h, _ => absurd rfl (h l)
  | .dict d, _, _, _, h => absurd rfl (h d)
  | .obj .., h, _, _, _ => by simp [encodable] at h

theorem encodable_pos (v : Value) (h : encodable v = .ok ()) (hs : Sized v) : 0 < (encode v).length := by
  by_cases hl : ∃ l, v = .list l
  · obtain ⟨l, rfl⟩ := hl
    rw [encode, List.length_append]; have := head_pos 4 l.length; omega
  · by_cases hd : ∃ d, v = .dict d
    · obtain ⟨d, rfl⟩ := hd
      rw [encode, List.length_append]; have := head_pos 5 d.length; omega
    · obtain ⟨h1, h2⟩ := fits_scalar v h hs (fun l e => hl ⟨l, e⟩) (fun d e => hd ⟨d, e⟩)
      rw [h1]; exact encode_pos _ h2

theorem decode_arrives : ∀ (f : Nat) (v : Value), encodable v = .ok () → Distinct v → Sized v → KeysAre StrBytesInt v →
    (encode v).length ≤ f → ∀ r, decode (f + 1) (encode v ++ r) = .ok (cborArrives v, r) := by
  intro f
  induction f with
  | zero =>
    intro v hv _ hs _ hl
    have := encodable_pos v hv hs
    omega
  | succ f ih =>
    intro v hv hd hs hk hl r
    by_cases hll : ∃ l, v = .list l
    · obtain ⟨l, rfl⟩ := hll
      rw [encodable, encodableList_iff] at hv
      rw [Distinct, distinctList_iff] at hd
      rw [Sized, sizedList_iff] at hs
      rw [KeysAre, keysAreList_iff] at hk
      rw [encode, encodeList_flatMap, List.length_append] at hl
      rw [cborArrives, cborArrivesList_eq, encode, List.append_assoc, decode_head _ (by omega) hs.1]
      show decodeArray _ _ _ = _
      rw [decodeArray, encodeList_flatMap, readMany_map _ _ cborArrives]
      · rfl
      · intro v hm r
        have h1 := length_flatMap_le encode l v hm
        have h2 := head_pos 4 l.length
        exact ih v (hv v hm) (hd v hm) (hs.2 v hm) (hk v hm) (by omega) r
    · by_cases hdd : ∃ d, v = .dict d
      · obtain ⟨d, rfl⟩ := hdd
        rw [encodable, encodableDict_iff] at hv
        rw [Distinct, distinctDict_iff] at hd
        rw [Sized, sizedDict_iff] at hs
        rw [KeysAre, keysAreDict_iff] at hk
        rw [encode, encodeDict_flatMap, List.length_append] at hl
        rw [cborArrives, cborArrivesDict_eq, encode, List.append_assoc, decode_head _ (by omega) hs.1]
        show decodeMap _ _ _ = _
        have hlen : ∀ kv ∈ d, (encode kv.1).length ≤ f ∧ (encode kv.2).length ≤ f := by
          intro kv hm
          have h1 := length_flatMap_le (fun kv => encode kv.1 ++ encode kv.2) d kv hm
          have h2 := head_pos 5 d.length
          simp only [List.length_append] at h1
          omega
        rw [decodeMap, encodeDict_flatMap, readPairs_map _ _ _ cborArrives]
        · have : ((d.map fun kv => (kv.1, cborArrives kv.2)).map (·.1)).Nodup := by
            rw [List.map_map]; exact hd.1
          simp only [bind, Except.bind, ofPairs_nodup _ this]
        · intro kv hm r
          have := ih kv.1 (hv kv hm).1 (hd.2 kv hm).1 (hs.2 kv hm).1
            (by rcases (hk kv hm).1 with ⟨s, e⟩ | ⟨s, e⟩ | ⟨s, e⟩ <;> rw [e] <;> simp [KeysAre]) (hlen kv hm).1 r
          rw [decodeKey, this]
          rcases (hk kv hm).1 with ⟨s, e⟩ | ⟨s, e⟩ | ⟨s, e⟩ <;> rw [e, cborArrives] <;> rfl
        · intro kv hm r
          exact ih kv.2 (hv kv hm).2 (hd.2 kv hm).2 (hs.2 kv hm).2 (hk kv hm).2 (hlen kv hm).2 r
      · obtain ⟨h1, h2⟩ := fits_scalar v hv hs (fun l e => hll ⟨l, e⟩) (fun d e => hdd ⟨d, e⟩)
        rw [h1] at hl ⊢
        exact decode_encode (f + 1) _ h2 hl r

theorem loads_arrives (v : Value) (w : Bytes) (h : dumps v = .ok w) (hd : Distinct v) (hs : Sized v) (hk : KeysAre StrBytesInt v) :
    loads w = .ok (cborArrives v) := by
  rw [dumps] at h
  cases hp : encodable v with
  | error e => rw [hp] at h; simp [bind, Except.bind] at h
  | ok u =>
    rw [hp] at h
    simp only [bind, Except.bind, Except.ok.injEq] at h
    subst h
    have := decode_arrives (encode v).length v hp hd hs hk (Nat.le_refl _) []
    rw [List.append_nil] at this
    rw [loads, this]; rfl

end Wamp.Cbor
