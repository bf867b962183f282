import Verif.Model.Dict

/-! # Lemmas about insertion-ordered dicts -/

set_option linter.unusedSectionVars false

namespace Wamp.Dict
variable {K V : Type} [DecidableEq K]

theorem lookupL_setL (l : List (K × V)) (k k' : K) (v : V) :
    lookupL (setL l k v) k' = if k = k' then some v else lookupL l k' := by
  induction l with
  | nil => simp [setL, lookupL]
  | cons p rest ih =>
    obtain ⟨a, w⟩ := p
    simp only [setL]
    by_cases h : a = k
    · subst h; by_cases h' : a = k' <;> simp [lookupL, h']
    · by_cases h' : a = k'
      · subst h'; have : ¬ k = a := fun e => h e.symm
        simp [lookupL, h, this]
      · simp [lookupL, h, h', ih]

theorem lookupL_filter (l : List (K × V)) (k k' : K) :
    lookupL (l.filter (fun kv => kv.1 ≠ k)) k' = if k = k' then none else lookupL l k' := by
  induction l with
  | nil => simp [lookupL]
  | cons p rest ih =>
    obtain ⟨a, w⟩ := p
    by_cases h : a = k
    · subst h
      rw [List.filter_cons_of_neg (by simp), ih]
      by_cases h' : a = k' <;> simp [lookupL, h']
    · rw [List.filter_cons_of_pos (by simpa using h)]
      by_cases h' : a = k'
      · subst h'; have : ¬ k = a := fun e => h e.symm
        simp [lookupL, this]
      · simp only [lookupL, h', if_false, ih]

@[simp] theorem get_set (d : Dict K V) (k k' : K) (v : V) :
    (d.set k v).get k' = if k = k' then some v else d.get k' := lookupL_setL _ _ _ _

@[simp] theorem get_del (d : Dict K V) (k k' : K) :
    (d.del k).get k' = if k = k' then none else d.get k' := lookupL_filter _ _ _

@[simp] theorem get_empty (k : K) : (empty : Dict K V).get k = none := rfl

theorem keys_setL (l : List (K × V)) (k : K) (v : V) :
    (setL l k v).map (·.1) = if k ∈ l.map (·.1) then l.map (·.1) else l.map (·.1) ++ [k] := by
  induction l with
  | nil => simp [setL]
  | cons p rest ih =>
    obtain ⟨a, w⟩ := p
    simp only [setL]
    by_cases h : a = k
    · subst h; simp
    · have : ¬ k = a := fun e => h e.symm
      simp only [h, if_false, List.map_cons, ih, List.mem_cons, this, false_or]
      split <;> rfl

theorem keys_set (d : Dict K V) (k : K) (v : V) :
    (d.set k v).keys = if k ∈ d.keys then d.keys else d.keys ++ [k] := keys_setL _ _ _

theorem keys_del (d : Dict K V) (k : K) : (d.del k).keys = d.keys.filter (· ≠ k) := by
  simp only [keys, del, List.filter_map]; rfl

theorem mem_keys_iff_lookupL (l : List (K × V)) (k : K) : k ∈ l.map (·.1) ↔ (lookupL l k).isSome := by
  induction l with
  | nil => simp [lookupL]
  | cons p rest ih =>
    obtain ⟨a, w⟩ := p
    by_cases h : a = k
    · subst h; simp [lookupL]
    · have : ¬ k = a := fun e => h e.symm
      simp only [List.map_cons, List.mem_cons, this, false_or, lookupL, h, if_false, ih]

theorem mem_keys {d : Dict K V} {k : K} : k ∈ d.keys ↔ ∃ v, d.get k = some v := by
  rw [← Option.isSome_iff_exists]; exact mem_keys_iff_lookupL _ _

theorem contains_iff {d : Dict K V} {k : K} : d.contains k = true ↔ k ∈ d.keys := by
  rw [mem_keys, contains, Option.isSome_iff_exists]

theorem contains_iff_get {d : Dict K V} {k : K} : d.contains k = true ↔ ∃ v, d.get k = some v := by
  rw [contains, Option.isSome_iff_exists]

theorem not_contains_iff_get {d : Dict K V} {k : K} : d.contains k = false ↔ d.get k = none := by
  rw [contains, Option.isSome_eq_false_iff, Option.isNone_iff_eq_none]

theorem not_mem_keys {d : Dict K V} {k : K} : k ∉ d.keys ↔ d.get k = none := by
  rw [mem_keys]; cases d.get k <;> simp

theorem size_eq (d : Dict K V) : d.size = d.keys.length := by simp [size, keys]

theorem size_eq_zero {d : Dict K V} : d.size = 0 ↔ d.keys = [] := by rw [size_eq, List.length_eq_zero_iff]

theorem keys_eq_nil_iff {d : Dict K V} : d.keys = [] ↔ ∀ k, d.get k = none := by
  constructor
  · intro h k; rw [← not_mem_keys, h]; simp
  · intro h
    cases hk : d.keys with
    | nil => rfl
    | cons k _ => have : k ∉ d.keys := not_mem_keys.2 (h k); rw [hk] at this; simp at this

theorem keys_single (k : K) (v : V) : (empty.set k v : Dict K V).keys = [k] := rfl

/-- All keys are different. -/
def Wf (d : Dict K V) : Prop := d.keys.Nodup

theorem wf_empty : (empty : Dict K V).Wf := List.nodup_nil

theorem Wf.set {d : Dict K V} (h : d.Wf) (k : K) (v : V) : (d.set k v).Wf := by
  unfold Wf at *
  rw [keys_set]
  split
  · exact h
  · rename_i hk
    rw [List.nodup_append]
    exact ⟨h, by simp, by intro a ha b hb; simp at hb; subst hb; intro e; subst e; exact hk ha⟩

theorem Wf.del {d : Dict K V} (h : d.Wf) (k : K) : (d.del k).Wf := by
  unfold Wf at *
  rw [keys_del]; exact h.sublist List.filter_sublist

theorem lookupL_of_mem {l : List (K × V)} (h : (l.map (·.1)).Nodup) {k : K} {v : V} (hm : (k, v) ∈ l) :
    lookupL l k = some v := by
  induction l with
  | nil => cases hm
  | cons p rest ih =>
    obtain ⟨a, w⟩ := p
    simp only [List.map_cons, List.nodup_cons] at h
    rcases List.mem_cons.1 hm with e | hm
    · cases e; simp [lookupL]
    · have : a ≠ k := by rintro rfl; exact h.1 (List.mem_map.2 ⟨_, hm, rfl⟩)
      simp only [lookupL, this, if_false, ih h.2 hm]

theorem mem_of_lookupL {l : List (K × V)} {k : K} {v : V} (h : lookupL l k = some v) : (k, v) ∈ l := by
  induction l with
  | nil => cases h
  | cons p rest ih =>
    obtain ⟨a, w⟩ := p
    simp only [lookupL] at h
    split at h
    · rename_i e; subst e; cases h; simp
    · exact List.mem_cons_of_mem _ (ih h)

theorem Wf.mem_items {d : Dict K V} (h : d.Wf) {k : K} {v : V} : (k, v) ∈ d.items ↔ d.get k = some v :=
  ⟨lookupL_of_mem h, mem_of_lookupL⟩

end Wamp.Dict
