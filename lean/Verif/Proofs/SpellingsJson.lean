import Verif.Proofs.OneReading
import Verif.Proofs.Json

/-! # `json.loads` reads every way to write a value -/

namespace Wamp.Json
open Wamp.Spec

/-! ## Strings -/

theorem hexVal_spelled {n : Nat} {c : Char} (h : HexDigit n c) : hexVal c = some n := by
  obtain ⟨hn, h⟩ := h
  have key : ∀ k, k < 16 → ∀ d, ("0123456789abcdef".toList[k]? = some d ∨ "0123456789ABCDEF".toList[k]? = some d) → hexVal d = some k := by
    intro k hk d hd
    have : ∀ k, k < 16 → ("0123456789abcdef".toList[k]?.bind hexVal = some k) ∧ ("0123456789ABCDEF".toList[k]?.bind hexVal = some k) := by decide
    rcases hd with hd | hd
    · have := (this k hk).1; rw [hd] at this; exact this
    · have := (this k hk).2; rw [hd] at this; exact this
  exact key n hn c h

theorem unit_spelled {n : Nat} {u : List Char} (h : JsonUnit n u) (r : List Char) :
    units (u ++ r) = (units r).map fun x => (n :: x.1, x.2) := by
  obtain ⟨a, b, c, d, w, x, y, z, ha, hb, hc, hd, rfl⟩ := h
  have : hexVal4 w x y z = some (a * 16 ^ 3 + b * 16 ^ 2 + c * 16 + d) := by
    unfold hexVal4
    rw [hexVal_spelled ha, hexVal_spelled hb, hexVal_spelled hc, hexVal_spelled hd]
    show some _ = _
    congr 1; omega
  show units ('\\' :: 'u' :: _ :: _ :: _ :: _ :: r) = _
  rw [units]
  simp only [show ('\\' : Char) ≠ '"' by decide, if_false, if_true, this]
  cases units r <;> rfl

theorem unit_lt {n : Nat} {u : List Char} (h : JsonUnit n u) : n < 0x10000 := by
  obtain ⟨a, b, c, d, w, x, y, z, ha, hb, hc, hd, rfl⟩ := h
  have := ha.1; have := hb.1; have := hc.1; have := hd.1
  omega

theorem join_single (c : Char) (us : List Nat) : join (c.toNat :: us) = (join us).map (c :: ·) := by
  have hc := char_lt c
  rw [join.eq_def]
  simp only
  rw [if_neg (by omega), if_neg (by omega), Char.ofNat_toNat]

theorem char_spelled {c : Char} {u : List Char} (h : JsonChar c u) :
    ∃ us, (∀ r, units (u ++ r) = (units r).map fun x => (us ++ x.1, x.2)) ∧ ∀ t, join (us ++ t) = (join t).map (c :: ·) := by
  cases h with
  | plain h1 h2 h3 =>
    refine ⟨[c.toNat], fun r => ?_, fun t => join_single c t⟩
    show units (c :: r) = _
    rw [units.eq_def]
    simp only
    rw [if_neg h1, if_neg h2, if_neg (by omega)]
    cases units r <;> rfl
  | short e he =>
    refine ⟨[c.toNat], fun r => ?_, fun t => join_single c t⟩
    simp only [List.mem_cons, Prod.mk.injEq, List.not_mem_nil, or_false] at he
    rcases he with ⟨rfl, rfl⟩ | ⟨rfl, rfl⟩ | ⟨rfl, rfl⟩ | ⟨rfl, rfl⟩ | ⟨rfl, rfl⟩ | ⟨rfl, rfl⟩ | ⟨rfl, rfl⟩ | ⟨rfl, rfl⟩ <;>
      exact units_simple (by decide) rfl r
  | code u hu => exact ⟨[c.toNat], fun r => unit_spelled hu r, fun t => join_single c t⟩
  | pair u w hc hu hw =>
    refine ⟨codeUnits c, fun r => ?_, fun t => join_units c t⟩
    rw [List.append_assoc, unit_spelled hu, unit_spelled hw, codeUnits, if_neg (by omega)]
    cases units r <;> rfl

theorem chars_spelled : ∀ {s u : List Char}, JsonChars s u →
    ∃ us, (∀ r, units (u ++ '"' :: r) = some (us, r)) ∧ join us = some s
  | _, _, .nil => ⟨[], fun r => by rw [List.nil_append, units.eq_def]; simp, rfl⟩
  | _, _, .cons c s u w hc hs => by
    obtain ⟨us, h1, h2⟩ := char_spelled hc
    obtain ⟨vs, h3, h4⟩ := chars_spelled hs
    refine ⟨us ++ vs, fun r => ?_, by rw [h2, h4]; rfl⟩
    rw [List.append_assoc, h1, h3]; rfl

theorem string_spelled {s : String} {w : List Char} (h : JsonStr s w) : ∃ u, (∀ r, w ++ r = '"' :: (u ++ r)) ∧ ∀ r, string (u ++ r) = .ok (s, r) := by
  obtain ⟨u, hu, rfl⟩ := h
  refine ⟨u ++ ['"'], fun r => by simp, fun r => ?_⟩
  obtain ⟨us, h1, h2⟩ := chars_spelled hu
  rw [List.append_assoc, List.singleton_append, string, h1]
  simp only [h2, String.ofList_toList]

/-! ## White space -/

theorem skip_blank {b : List Char} (h : Blank b) (r : List Char) : skip (b ++ r) = skip r := by
  induction b with
  | nil => rfl
  | cons c b ih =>
    have hc : isSpace c = true := by
      rcases h c (by simp) with rfl | rfl | rfl | rfl <;> rfl
    rw [List.cons_append, skip, List.dropWhile_cons, if_pos hc]
    exact ih fun d hd => h d (by simp [hd])

theorem stop_blank {b : List Char} (h : Blank b) {r : List Char} (hr : Stop r) : Stop (b ++ r) := by
  cases b with
  | nil => exact hr
  | cons c b =>
    refine stop_cons ?_ _
    rcases h c (by simp) with rfl | rfl | rfl | rfl <;> decide

/-! ## Numbers -/

theorem int_spelled (neg : Bool) (n : Nat) {r : List Char} (hr : Stop r) :
    number (Numeral.text ⟨neg, n, [], none⟩ ++ r) = .ok (.int (if neg then -n else n), r) ∧
      ∃ c t, Numeral.text ⟨neg, n, [], none⟩ = c :: t ∧ startsNumber c ∧ (c = '-' → ∃ d u, t = d :: u ∧ isDigit d = true) := by
  have hn := natural_decimal n r hr.noDigit
  obtain ⟨c, t, e, _⟩ := decimal_cons n
  have hc := decimal_digits n c (by rw [e]; simp)
  have hm : c ≠ '-' := by rintro rfl; exact absurd hc (by decide)
  have ht : Numeral.text ⟨neg, n, [], none⟩ = (if neg then ['-'] else []) ++ decimal n := by
    rw [Numeral.text, decimal_repr]; simp [expoText]
  rw [ht]
  cases neg with
  | false =>
    simp only [Bool.false_eq_true, if_false, List.nil_append]
    rw [e] at hn ⊢
    refine ⟨?_, c, t, rfl, .inr hc, fun h => absurd h hm⟩
    rw [List.cons_append] at hn ⊢
    rw [number_pos hm, hn]
    simp only [numberRest_int _ _ hr]
    rfl
  | true =>
    simp only [if_true, List.singleton_append]
    refine ⟨?_, '-', decimal n, rfl, .inl rfl, fun _ => ⟨c, t, e, hc⟩⟩
    rw [List.cons_append, number_neg, hn]
    simp only [numberRest_int _ _ hr, if_true]

/-! ## Values -/

theorem item_first : ∀ {v : Value} {w : List Char}, JsonItem v w → ∃ c t, w = c :: t ∧ isSpace c = false ∧ c ≠ ']' ∧ c ≠ '}'
  | _, _, .none => ⟨'n', _, rfl, by decide, by decide, by decide⟩
  | _, _, .true => ⟨'t', _, rfl, by decide, by decide, by decide⟩
  | _, _, .false => ⟨'f', _, rfl, by decide, by decide, by decide⟩
  | _, _, .nan => ⟨'N', _, rfl, by decide, by decide, by decide⟩
  | _, _, .infinity => ⟨'I', _, rfl, by decide, by decide, by decide⟩
  | _, _, .minusInfinity => ⟨'-', _, rfl, by decide, by decide, by decide⟩
  | _, _, .int neg n => by
    obtain ⟨_, c, t, e, h, _⟩ := int_spelled neg n (r := []) (by intro c hc; cases hc)
    exact ⟨c, t, e, h.space, h.ne (by decide) (by decide), h.ne (by decide) (by decide)⟩
  | _, _, .float n x h _ => by
    obtain ⟨_, c, t, e, h, _⟩ := number_numeral n h (r := []) (by intro c hc; cases hc)
    exact ⟨c, t, e, h.space, h.ne (by decide) (by decide), h.ne (by decide) (by decide)⟩
  | _, _, .str s w ⟨u, _, e⟩ => ⟨'"', _, e, by decide, by decide, by decide⟩
  | _, _, .emptyList .. => ⟨'[', _, rfl, by decide, by decide, by decide⟩
  | _, _, .list .. => ⟨'[', _, rfl, by decide, by decide, by decide⟩
  | _, _, .emptyDict .. => ⟨'{', _, rfl, by decide, by decide, by decide⟩
  | _, _, .dict .. => ⟨'{', _, rfl, by decide, by decide, by decide⟩

theorem skip_item {v : Value} {w : List Char} (h : JsonItem v w) (r : List Char) : skip (w ++ r) = w ++ r := by
  obtain ⟨c, t, e, hs, _⟩ := item_first h
  rw [e, List.cons_append, skip_cons hs]

theorem skip_items : ∀ {l : List Value} {w : List Char}, JsonItems l w → ∃ c t, (∀ r, skip (w ++ r) = c :: (t ++ r)) ∧ c ≠ ']'
  | _, _, .last v a w b ha hv _ => by
    obtain ⟨c, t, e, hs, hc, _⟩ := item_first hv
    exact ⟨c, t ++ b, fun r => by rw [List.append_assoc, skip_blank ha, e]; simp [skip_cons hs], hc⟩
  | _, _, .more v l a w b t ha hv _ _ => by
    obtain ⟨c, u, e, hs, hc, _⟩ := item_first hv
    exact ⟨c, u ++ (b ++ ',' :: t), fun r => by rw [List.append_assoc, skip_blank ha, e]; simp [skip_cons hs], hc⟩

theorem skip_str {s : String} {w : List Char} (h : JsonStr s w) (r : List Char) : skip (w ++ r) = w ++ r := by
  obtain ⟨u, _, rfl⟩ := h
  exact skip_cons (by decide) _

theorem skip_members : ∀ {l : List (Value × Value)} {w : List Char}, JsonMembers l w → ∃ t, ∀ r, skip (w ++ r) = '"' :: (t ++ r)
  | _, _, .last k v a q b c w e ha hk _ _ _ _ => by
    obtain ⟨u, h1, _⟩ := string_spelled hk
    refine ⟨u ++ (b ++ ':' :: (c ++ (w ++ e))), fun r => ?_⟩
    rw [List.append_assoc, skip_blank ha, List.append_assoc, skip_str hk, h1]; simp
  | _, _, .more k v d a q b c w e t ha hk _ _ _ _ _ => by
    obtain ⟨u, h1, _⟩ := string_spelled hk
    refine ⟨u ++ (b ++ ':' :: (c ++ (w ++ (e ++ ',' :: t)))), fun r => ?_⟩
    rw [List.append_assoc, skip_blank ha, List.append_assoc, skip_str hk, h1]; simp

mutual
theorem item_spelled : ∀ {v : Value} {w : List Char}, JsonItem v w → ∀ (f : Nat) (r : List Char), w.length ≤ f → Stop r →
    value (f + 1) (w ++ r) = .ok (v, r)
  | _, _, .none, f, r, _, _ => rfl
  | _, _, .false, f, r, _, _ => rfl
  | _, _, .true, f, r, _, _ => rfl
  | _, _, .nan, f, r, _, _ => rfl
  | _, _, .infinity, f, r, _, _ => rfl
  | _, _, .minusInfinity, f, r, _, _ => rfl
  | _, _, .int neg n, f, r, _, hr => by
    obtain ⟨hn, c, t, e, h, hm⟩ := int_spelled neg n hr
    rw [e, List.cons_append] at hn ⊢
    rw [value_number h (fun hc => by obtain ⟨d, u, rfl, hd⟩ := hm hc; exact ⟨d, u ++ r, rfl, hd⟩), hn]
  | _, _, .float n x h hx, f, r, _, hr => by
    rw [value_numeral n h hr, PyFloat.readAs_unique (readAs_nearest n) hx]
  | _, _, .str s w hs, f, r, _, _ => by
    obtain ⟨u, h1, h2⟩ := string_spelled hs
    rw [h1, value.eq_def]
    simp only [if_true, h2, bind, Except.bind]
  | _, _, .emptyList a ha, f, r, _, _ => by
    rw [List.cons_append, List.append_assoc, value.eq_def]
    simp only [if_neg (show ('[' : Char) ≠ '"' by decide), if_neg (show ('[' : Char) ≠ '{' by decide), if_true, skip_blank ha]
    rw [List.singleton_append, skip_cons (by decide)]
    simp
  | _, _, .list l w hl, f, r, hf, _ => by
    obtain ⟨g, rfl⟩ : ∃ g, f = g + 1 := ⟨f - 1, by rw [List.length_cons] at hf; omega⟩
    obtain ⟨c, t, h1, h2⟩ := skip_items hl
    have he := items_spelled hl g (by simp at hf; omega) ((w ++ ']' :: r).length + 1) r (by rw [List.length_append]; omega)
    rw [List.cons_append, List.append_assoc, List.singleton_append, value.eq_def]
    simp only [if_neg (show ('[' : Char) ≠ '"' by decide), if_neg (show ('[' : Char) ≠ '{' by decide), if_true]
    rw [h1] at he ⊢
    simp only [if_neg h2, he, bind, Except.bind]
  | _, _, .emptyDict a ha, f, r, _, _ => by
    rw [List.cons_append, List.append_assoc, value.eq_def]
    simp only [if_neg (show ('{' : Char) ≠ '"' by decide), if_true, skip_blank ha]
    rw [List.singleton_append, skip_cons (by decide)]
    simp
  | _, _, .dict d w hd hl, f, r, hf, _ => by
    obtain ⟨g, rfl⟩ : ∃ g, f = g + 1 := ⟨f - 1, by rw [List.length_cons] at hf; omega⟩
    obtain ⟨t, h1⟩ := skip_members hl
    obtain ⟨l, hp, he⟩ := members_spelled hl g (by simp at hf; omega)
    have he := he ((w ++ '}' :: r).length + 1) r (by rw [List.length_append]; omega)
    have hfold := foldl_set l []
    have hnd := ofPairs_nodup d hd
    rw [PyDict.ofPairs] at hnd
    rw [← hp, hnd] at hfold
    rw [List.cons_append, List.append_assoc, List.singleton_append, value.eq_def]
    simp only [if_neg (show ('{' : Char) ≠ '"' by decide), if_true]
    rw [h1] at he ⊢
    simp only [if_neg (show ('"' : Char) ≠ '}' by decide), he, bind, Except.bind, hfold]
theorem items_spelled : ∀ {l : List Value} {w : List Char}, JsonItems l w → ∀ (f : Nat), w.length ≤ f →
    ∀ n r, w.length < n → elements (value (f + 1)) n (skip (w ++ ']' :: r)) = .ok (l, r)
  | _, _, .last v a w b ha hv hb, f, hf, n, r, hn => by
    obtain ⟨n, rfl⟩ : ∃ m, n = m + 1 := ⟨n - 1, by omega⟩
    simp only [List.length_append] at hf
    rw [List.append_assoc, skip_blank ha, List.append_assoc, skip_item hv, elements,
      item_spelled hv f _ (by omega) (stop_blank hb (stop_cons (by decide) _))]
    simp only [bind, Except.bind, skip_blank hb, skip_cons (show isSpace ']' = false by decide)]
    simp
  | _, _, .more v l a w b t ha hv hb hl, f, hf, n, r, hn => by
    obtain ⟨n, rfl⟩ : ∃ m, n = m + 1 := ⟨n - 1, by omega⟩
    simp only [List.length_append, List.length_cons] at hf hn
    rw [List.append_assoc, skip_blank ha, List.append_assoc, skip_item hv, List.append_assoc, List.cons_append, elements,
      item_spelled hv f _ (by omega) (stop_blank hb (stop_cons (by decide) _))]
    simp only [bind, Except.bind, skip_blank hb, skip_cons (show isSpace ',' = false by decide), if_true]
    rw [items_spelled hl f (by omega) n r (by omega)]
theorem members_spelled : ∀ {d : List (Value × Value)} {w : List Char}, JsonMembers d w → ∀ (f : Nat), w.length ≤ f →
    ∃ l, d = strPairs l ∧ ∀ n r, w.length < n → members (value (f + 1)) n (skip (w ++ '}' :: r)) = .ok (l, r)
  | _, _, .last k v a q b c w e ha hk hb hc hv he, f, hf => by
    obtain ⟨u, h1, h2⟩ := string_spelled hk
    simp only [List.length_append, List.length_cons] at hf
    refine ⟨[(k, v)], rfl, fun n r hn => ?_⟩
    obtain ⟨n, rfl⟩ : ∃ m, n = m + 1 := ⟨n - 1, by omega⟩
    rw [List.append_assoc, skip_blank ha, List.append_assoc, skip_str hk, h1, members]
    simp only [if_true, h2, bind, Except.bind, List.append_assoc, List.cons_append, skip_blank hb, skip_blank hc, skip_item hv,
      skip_cons (show isSpace ':' = false by decide)]
    rw [item_spelled hv f _ (by omega) (stop_blank he (stop_cons (by decide) _))]
    simp only [skip_blank he, skip_cons (show isSpace '}' = false by decide)]
    simp
  | _, _, .more k v d a q b c w e t ha hk hb hc hv he hd, f, hf => by
    obtain ⟨u, h1, h2⟩ := string_spelled hk
    simp only [List.length_append, List.length_cons] at hf
    obtain ⟨l, rfl, h3⟩ := members_spelled hd f (by omega)
    refine ⟨(k, v) :: l, rfl, fun n r hn => ?_⟩
    obtain ⟨n, rfl⟩ : ∃ m, n = m + 1 := ⟨n - 1, by omega⟩
    simp only [List.length_append, List.length_cons] at hn
    rw [List.append_assoc, skip_blank ha, List.append_assoc, skip_str hk, h1, members]
    simp only [if_true, h2, bind, Except.bind, List.append_assoc, List.cons_append, skip_blank hb, skip_blank hc, skip_item hv,
      skip_cons (show isSpace ':' = false by decide)]
    rw [item_spelled hv f _ (by omega) (stop_blank he (stop_cons (by decide) _))]
    simp only [skip_blank he, skip_cons (show isSpace ',' = false by decide), if_true]
    rw [h3 n r (by omega)]
end

theorem loads_spelled {v : Value} {s : String} (h : JsonText v s) : loads s = .ok v := by
  obtain ⟨a, w, b, ha, hw, hb, e⟩ := h
  have hs : Stop b := by simpa using stop_blank hb (r := []) (by intro c hc; cases hc)
  rw [loads, e, skip_blank ha, skip_item hw, item_spelled hw _ b (by simp; omega) hs]
  have := skip_blank hb []
  rw [List.append_nil] at this
  simp only [bind, Except.bind, this]
  rfl

end Wamp.Json
