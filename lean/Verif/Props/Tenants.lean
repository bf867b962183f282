import Verif.Spec.Tenants
import Verif.Props.BrokerTable
import Verif.Props.DealerTable

/-! # Two applications at one router (C117) -/

namespace Wamp.Spec.Tenants
open Wamp.Spec.Naming (OneToOne mail pubMail pubInbox rpcMail rpcInbox)

/-! ## The ids one side would get alone -/

/-- How many of the first `n` ids went to one side -/
def rank (fl : List Bool) (n : Nat) : Nat := (fl.take n).countP id

theorem rank_zero (fl : List Bool) : rank fl 0 = 0 := by simp [rank]

theorem rank_succ (fl : List Bool) (n : Nat) : rank fl (n + 1) = rank fl n + if fl[n]? = some true then 1 else 0 := by
  rw [rank, rank, List.take_add_one, List.countP_append]
  cases h : fl[n]? with
  | none => simp
  | some b => cases b <;> simp

theorem rank_mono (fl : List Bool) {a b : Nat} (h : a ≤ b) : rank fl a ≤ rank fl b := by
  induction h with
  | refl => exact Nat.le_refl _
  | step _ ih => exact Nat.le_trans ih (by rw [rank_succ]; omega)

theorem rank_le (fl : List Bool) (n : Nat) : rank fl n ≤ fl.length :=
  Nat.le_trans (List.countP_le_length) (by rw [List.length_take]; omega)

/-- The id `n` that went to one side becomes the number of ids that side had by then; other ids get out of the way. -/
def rho (fl : List Bool) (n : Int) : Int :=
  if n ≤ 0 then n else if fl[n.toNat - 1]? = some true then rank fl n.toNat else n + fl.length

theorem rho_one (fl : List Bool) : OneToOne (rho fl) := by
  have key : ∀ a b : Nat, fl[b]? = some true → a < b → rank fl (a + 1) < rank fl (b + 1) := by
    intro a b hb h
    rw [rank_succ fl b, if_pos hb]
    exact Nat.lt_succ_of_le (rank_mono fl h)
  intro x y h
  unfold rho at h
  by_cases hx : x ≤ 0
  · rw [if_pos hx] at h
    by_cases hy : y ≤ 0
    · rwa [if_pos hy] at h
    · rw [if_neg hy] at h
      split at h
      · rename_i hf
        have := rank_succ fl (y.toNat - 1)
        rw [if_pos hf, Nat.sub_add_cancel (by omega)] at this
        omega
      · omega
  · rw [if_neg hx] at h
    by_cases hy : y ≤ 0
    · rw [if_pos hy] at h
      split at h
      · rename_i hf
        have := rank_succ fl (x.toNat - 1)
        rw [if_pos hf, Nat.sub_add_cancel (by omega)] at this
        omega
      · omega
    · rw [if_neg hy] at h
      split at h
      · rename_i hfx
        split at h
        · rename_i hfy
          have h' : rank fl x.toNat = rank fl y.toNat := by omega
          have e1 : x.toNat - 1 + 1 = x.toNat := by omega
          have e2 : y.toNat - 1 + 1 = y.toNat := by omega
          rcases Nat.lt_trichotomy (x.toNat - 1) (y.toNat - 1) with hlt | heq | hlt
          · have := key _ _ hfy hlt; rw [e1, e2] at this; omega
          · omega
          · have := key _ _ hfx hlt; rw [e1, e2] at this; omega
        · have := rank_le fl x.toNat; omega
      · split at h
        · have := rank_le fl y.toNat; omega
        · omega

/-- The next id of a side -/
theorem rho_next (fl : List Bool) (n : Nat) (h : fl[n]? = some true) : rho fl ((n : Int) + 1) = (rank fl (n + 1) : Nat) := by
  unfold rho
  rw [if_neg (by omega)]
  have : ((n : Int) + 1).toNat = n + 1 := by omega
  rw [this, Nat.add_sub_cancel, if_pos h]

/-! ## The broker -/

section
open Wamp.Spec.Pub (Table Holding subscribersOf)
open Wamp.Broker (Op Out)

/-- One side of the subscriptions, with the ids it would have alone -/
def side (mine : Int → Bool) (ρ : Int → Int) (h : List Holding) : List Holding :=
  (h.filter fun x => mine x.session).map fun x => { x with id := ρ x.id }

/-- The table of one side alone, beside the table of all -/
structure PubSim (mine : Int → Bool) (ours : String → Bool) (fl : List Bool) (t t' : Table) (n : Nat) : Prop where
  known : t'.known = t.known.filter mine
  held : t'.held = side mine (rho fl) t.held
  apart : ∀ x ∈ t.held, mine x.session = ours x.topic
  next : t.next = (n : Int) + 1
  next' : t'.next = (rank fl n : Int) + 1

theorem side_append (mine : Int → Bool) (ρ : Int → Int) (a b : List Holding) : side mine ρ (a ++ b) = side mine ρ a ++ side mine ρ b := by
  simp [side]

theorem side_one (mine : Int → Bool) (ρ : Int → Int) (s : Int) (t : String) (i : Int) :
    side mine ρ [⟨s, t, i⟩] = if mine s then [⟨s, t, ρ i⟩] else [] := by
  simp only [side, List.filter_cons, List.filter_nil]; split <;> rfl

theorem side_find {mine : Int → Bool} {ours : String → Bool} {ρ : Int → Int} {t : String} (ht : ours t = true) :
    ∀ h : List Holding, (∀ x ∈ h, mine x.session = ours x.topic) →
      (side mine ρ h).find? (·.topic = t) = (h.find? (·.topic = t)).map fun x => { x with id := ρ x.id }
  | [], _ => rfl
  | x :: h, ha => by
    have ih := side_find (ρ := ρ) ht h fun y hy => ha y (by simp [hy])
    have hx := ha x (by simp)
    by_cases hxt : x.topic = t
    · have : mine x.session = true := by rw [hx, hxt, ht]
      simp [side, this, hxt]
    · rw [List.find?_cons_of_neg (by simpa using hxt), ← ih]
      simp only [side, List.filter_cons]
      split
      · rw [List.map_cons, List.find?_cons_of_neg (by simpa using hxt)]
      · rfl

theorem side_subscribers {mine : Int → Bool} {ours : String → Bool} {ρ : Int → Int} {t : String} (ht : ours t = true) :
    ∀ h : List Holding, (∀ x ∈ h, mine x.session = ours x.topic) → subscribersOf (side mine ρ h) t = subscribersOf h t
  | [], _ => rfl
  | x :: h, ha => by
    have ih := side_subscribers (ρ := ρ) ht h fun y hy => ha y (by simp [hy])
    have hx := ha x (by simp)
    by_cases hxt : x.topic = t
    · have : mine x.session = true := by rw [hx, hxt, ht]
      simp only [subscribersOf, side] at ih ⊢
      simp [this, hxt, ih]
    · simp only [subscribersOf, side] at ih ⊢
      cases hm : mine x.session <;> simp [hm, hxt, ih]

theorem side_any {mine : Int → Bool} {ours : String → Bool} {ρ : Int → Int} {t : String} (ht : ours t = true)
    (h : List Holding) (ha : ∀ x ∈ h, mine x.session = ours x.topic) :
    (side mine ρ h).any (·.topic = t) = h.any (·.topic = t) := by
  induction h with
  | nil => rfl
  | cons x h ih =>
    have ih := ih fun y hy => ha y (by simp [hy])
    have hx := ha x (by simp)
    by_cases hxt : x.topic = t
    · have : mine x.session = true := by rw [hx, hxt, ht]
      simp [side, this, hxt]
    · simp only [side] at ih ⊢
      cases hm : mine x.session <;> simp [hm, hxt, ih]

/-- Dropping subscriptions of one side, by a test that survives renaming -/
theorem side_filter {mine : Int → Bool} {ρ : Int → Int} (p q : Holding → Bool) (h : List Holding)
    (hpq : ∀ x ∈ h, mine x.session = true → q { x with id := ρ x.id } = p x) :
    (side mine ρ h).filter q = side mine ρ (h.filter p) := by
  induction h with
  | nil => rfl
  | cons x h ih =>
    have ih := ih fun y hy => hpq y (by simp [hy])
    simp only [side] at ih ⊢
    cases hm : mine x.session
    · cases hp : p x <;> simp [hm, hp, ih]
    · have := hpq x (by simp) hm
      cases hp : p x <;> rw [hp] at this <;> simp [hm, hp, this, ih]

/-- Dropping subscriptions of the other side -/
theorem side_drop {mine : Int → Bool} {ρ : Int → Int} (p : Holding → Bool) (h : List Holding)
    (hp : ∀ x ∈ h, mine x.session = true → p x = true) : side mine ρ (h.filter p) = side mine ρ h := by
  induction h with
  | nil => rfl
  | cons x h ih =>
    have ih := ih fun y hy => hp y (by simp [hy])
    simp only [side] at ih ⊢
    cases hm : mine x.session
    · cases hpx : p x <;> simpa [hm, hpx] using ih
    · simpa [hm, hp x (by simp) hm] using ih

theorem filter_comm_ne (mine : Int → Bool) (s : Int) (l : List Int) :
    (l.filter mine).filter (· ≠ s) = (l.filter (· ≠ s)).filter mine := by
  rw [List.filter_filter, List.filter_filter]; congr 1; funext x; exact Bool.and_comm _ _

/-- How many ids a call draws -/
def pubDraws (t : Table) (op : Op) : Bool := (t.step op).1.next ≠ t.next

theorem pubSim_mine {mine : Int → Bool} {ours : String → Bool} {fl : List Bool} {t t' : Table} {n : Nat}
    (h : PubSim mine ours fl t t' n) (op : Op) (hm : pubMine mine ours op = true) (ha : pubApart mine ours op)
    (hf : pubDraws t op = true → fl[n]? = some true) :
    (t'.step (pubIds (rho fl) op)).2 = (t.step op).2.map (pubOutIds (rho fl)) ∧
    PubSim mine ours fl (t.step op).1 (t'.step (pubIds (rho fl) op)).1 (n + if pubDraws t op then 1 else 0) := by
  obtain ⟨k, hd, nx⟩ := t
  obtain ⟨k', hd', nx'⟩ := t'
  obtain ⟨h1, h2, h3, h4, h5⟩ := h
  simp only at h1 h2 h3 h4 h5
  subst h1 h2 h4 h5
  have hinj := rho_one fl
  have hknown : ∀ s, mine s = true → (s ∈ k.filter mine ↔ s ∈ k) := fun s hs => by simp [hs]
  have hnew : fl[n]? = some true → (rank fl n : Int) + 1 = rho fl ((n : Int) + 1) := by
    intro hf
    rw [rho_next fl n hf, rank_succ, if_pos hf]; omega
  cases op with
  | addSession d =>
    simp only [pubMine] at hm
    simp only [pubIds, Table.step, pubDraws, hknown _ hm]
    by_cases hk : d.sessionId.val ∈ k
    · simp only [if_pos hk, Option.map_none, true_and]
      exact ⟨rfl, rfl, h3, by simp, by simp⟩
    · simp only [if_neg hk, Option.map_some, pubOutIds, true_and]
      exact ⟨by simp [hm], rfl, h3, by simp, by simp⟩
  | removeSession s =>
    simp only [pubMine] at hm
    simp only [pubIds, Table.step, pubDraws, hknown _ hm]
    by_cases hk : s ∈ k
    · simp only [if_pos hk, Option.map_some, pubOutIds, true_and]
      refine ⟨filter_comm_ne mine s k, side_filter _ _ hd (fun x _ _ => rfl), fun x hx => h3 x (List.mem_filter.1 hx).1, by simp, by simp⟩
    · simp only [if_neg hk, Option.map_none, true_and]
      exact ⟨rfl, rfl, h3, by simp, by simp⟩
  | hasSubscription x =>
    simp only [pubMine] at hm
    simp only [pubIds, Table.step, pubDraws, Option.map_some, pubOutIds, side_any hm hd h3, true_and]
    exact ⟨rfl, rfl, h3, by simp, by simp⟩
  | receivePublish s m =>
    simp only [pubMine] at hm
    simp only [pubApart] at ha
    have ho : ours m.topic = true := by rw [← ha, hm]
    simp only [pubIds, Table.step, hknown _ hm, pubDraws] at hf ⊢
    by_cases hk : s ∈ k
    · simp only [if_pos hk] at hf ⊢
      have hf' := hf (by simp; omega)
      have hr := hnew hf'
      simp only [side_find ho hd h3, side_subscribers ho hd h3, Option.map_some, pubOutIds, hr]
      refine ⟨?_, ?_⟩
      · cases hd.find? (fun x => decide (x.topic = m.topic)) <;> cases PyDict.flag m.options "acknowledge" <;> rfl
      · rw [if_pos (by simp; omega)]
        refine ⟨rfl, rfl, h3, by simp, ?_⟩
        simp only [rank_succ fl n, if_pos hf', ← hr]; omega
    · simp only [if_neg hk, Option.map_none, true_and]
      exact ⟨rfl, rfl, h3, by simp, by simp⟩
  | receiveMessage s m =>
    simp only [pubMine] at hm
    cases m with
    | subscribe m =>
      simp only [pubApart] at ha
      have ho : ours m.topic = true := by rw [← ha, hm]
      simp only [pubIds, ids, Table.step, hknown _ hm, pubDraws] at hf ⊢
      by_cases hk : s ∈ k
      · simp only [if_pos hk, side_find ho hd h3, side_subscribers ho hd h3] at hf ⊢
        cases hfd : hd.find? (fun x => decide (x.topic = m.topic)) with
        | none =>
          rw [hfd] at hf
          have hf' := hf (by simp; omega)
          have hr := hnew hf'
          simp only [Option.map_none, Option.map_some, pubOutIds, sent, ids, hr]
          refine ⟨rfl, ?_⟩
          rw [if_pos (by simp; omega)]
          refine ⟨rfl, ?_, ?_, by simp, ?_⟩
          · simp only [side_append, side_one, hm, if_true]
          · intro x hx
            rcases List.mem_append.1 hx with hx | hx
            · exact h3 x hx
            · rw [List.mem_singleton.1 hx]; exact ha
          · simp only [rank_succ fl n, if_pos hf', ← hr]; omega
        | some y =>
          simp only [Option.map_some, pubOutIds, sent, ids]
          refine ⟨rfl, rfl, ?_, ?_, by simp, by simp⟩
          · split
            · rfl
            · rw [side_append, side_one, if_pos hm]
          · intro x hx
            simp only at hx
            split at hx
            · exact h3 x hx
            · rcases List.mem_append.1 hx with hx | hx
              · exact h3 x hx
              · rw [List.mem_singleton.1 hx]; exact ha
      · simp only [if_neg hk, Option.map_none, true_and]
        exact ⟨rfl, rfl, h3, by simp, by simp⟩
    | unsubscribe m =>
      have hex : (∃ x ∈ side mine (rho fl) hd, x.session = s ∧ x.id = rho fl m.subscriptionId.val) ↔
          ∃ x ∈ hd, x.session = s ∧ x.id = m.subscriptionId.val := by
        constructor
        · rintro ⟨x, hx, e1, e2⟩
          obtain ⟨y, hy, rfl⟩ := List.mem_map.1 hx
          exact ⟨y, (List.mem_filter.1 hy).1, e1, hinj _ _ e2⟩
        · rintro ⟨x, hx, e1, e2⟩
          exact ⟨_, List.mem_map.2 ⟨x, List.mem_filter.2 ⟨hx, by rw [e1]; exact hm⟩, rfl⟩, e1, by simp only [e2]⟩
      by_cases hx : ∃ x ∈ hd, x.session = s ∧ x.id = m.subscriptionId.val
      · have e1 : (Table.mk k hd ((n : Int) + 1)).step (.receiveMessage s (.unsubscribe m)) = (_, _) := if_pos hx
        have e2 : (Table.mk (k.filter mine) (side mine (rho fl) hd) ((rank fl n : Int) + 1)).step
          (pubIds (rho fl) (.receiveMessage s (.unsubscribe m))) = (_, _) := if_pos (hex.2 hx)
        rw [pubDraws, e1, e2]
        refine ⟨rfl, rfl, ?_, fun x hx => h3 x (List.mem_filter.1 hx).1, by simp, by simp⟩
        apply side_filter
        intro x _ _
        simp only [decide_eq_decide]
        constructor
        · intro h3 h4; exact h3 ⟨h4.1, congrArg _ h4.2⟩
        · intro h3 h4; exact h3 ⟨h4.1, hinj _ _ h4.2⟩
      · have e1 : (Table.mk k hd ((n : Int) + 1)).step (.receiveMessage s (.unsubscribe m)) = (_, _) := if_neg hx
        have e2 : (Table.mk (k.filter mine) (side mine (rho fl) hd) ((rank fl n : Int) + 1)).step
          (pubIds (rho fl) (.receiveMessage s (.unsubscribe m))) = (_, _) := if_neg (fun h => hx (hex.1 h))
        rw [pubDraws, e1, e2]
        exact ⟨rfl, rfl, rfl, h3, by simp, by simp⟩
    | _ => exact ⟨rfl, rfl, rfl, h3, by simp [pubDraws, Table.step], by simp [pubDraws, Table.step, pubIds, ids]⟩

theorem pubSim_other {mine : Int → Bool} {ours : String → Bool} {fl : List Bool} {t t' : Table} {n : Nat}
    (h : PubSim mine ours fl t t' n) (op : Op) (hm : pubMine mine ours op = false) (ha : pubApart mine ours op)
    (hf : pubDraws t op = true → fl[n]? = some false) :
    PubSim mine ours fl (t.step op).1 t' (n + if pubDraws t op then 1 else 0) := by
  obtain ⟨k, hd, nx⟩ := t
  obtain ⟨k', hd', nx'⟩ := t'
  obtain ⟨h1, h2, h3, h4, h5⟩ := h
  simp only at h1 h2 h3 h4 h5
  subst h1 h2 h4 h5
  have hrank : fl[n]? = some false → rank fl (n + 1) = rank fl n := by
    intro hf
    rw [rank_succ, hf]; simp
  cases op with
  | addSession d =>
    simp only [pubMine] at hm
    simp only [Table.step, pubDraws]
    by_cases hk : d.sessionId.val ∈ k
    · simp only [if_pos hk]
      exact ⟨rfl, rfl, h3, by simp, by simp⟩
    · simp only [if_neg hk]
      exact ⟨by simp [hm], rfl, h3, by simp, by simp⟩
  | removeSession s =>
    simp only [pubMine] at hm
    simp only [Table.step, pubDraws]
    by_cases hk : s ∈ k
    · simp only [if_pos hk]
      refine ⟨?_, (side_drop _ hd ?_).symm, fun x hx => h3 x (List.mem_filter.1 hx).1, by simp, by simp⟩
      · simp only
        rw [← filter_comm_ne, List.filter_filter]
        congr 1; funext x
        by_cases hx : x = s
        · subst hx; simp [hm]
        · simp [hx]
      · intro x _ hx
        simp only [decide_eq_true_eq]
        intro e; rw [e, hm] at hx; cases hx
    · simp only [if_neg hk]
      exact ⟨rfl, rfl, h3, by simp, by simp⟩
  | hasSubscription x => exact ⟨rfl, rfl, h3, by simp [pubDraws, Table.step], by simp [pubDraws, Table.step]⟩
  | receivePublish s m =>
    simp only [Table.step, pubDraws] at hf ⊢
    by_cases hk : s ∈ k
    · simp only [if_pos hk] at hf ⊢
      have hf' := hf (by simp; omega)
      rw [if_pos (by simp; omega)]
      exact ⟨rfl, rfl, h3, by simp, by simp only [hrank hf']⟩
    · simp only [if_neg hk]
      exact ⟨rfl, rfl, h3, by simp, by simp⟩
  | receiveMessage s m =>
    simp only [pubMine] at hm
    cases m with
    | subscribe m =>
      simp only [pubApart] at ha
      simp only [Table.step, pubDraws] at hf ⊢
      have hap : ∀ i, ∀ x ∈ hd ++ [(⟨s, m.topic, i⟩ : Holding)], mine x.session = ours x.topic := by
        intro i x hx
        rcases List.mem_append.1 hx with hx | hx
        · exact h3 x hx
        · rw [List.mem_singleton.1 hx]; exact ha
      by_cases hk : s ∈ k
      · simp only [if_pos hk] at hf ⊢
        cases hfd : hd.find? (fun x => decide (x.topic = m.topic)) with
        | none =>
          rw [hfd] at hf
          have hf' := hf (by simp; omega)
          simp only
          rw [if_pos (by simp; omega)]
          exact ⟨rfl, by simp [side_append, side_one, hm], hap _, by simp, by simp only [hrank hf']⟩
        | some y =>
          simp only
          refine ⟨rfl, ?_, ?_, by simp, by simp⟩
          · simp only
            split
            · rfl
            · rw [side_append, side_one, hm]; simp
          · simp only
            split
            · exact h3
            · exact hap _
      · simp only [if_neg hk]
        exact ⟨rfl, rfl, h3, by simp, by simp⟩
    | unsubscribe m =>
      simp only [Table.step, pubDraws]
      by_cases hx : ∃ x ∈ hd, x.session = s ∧ x.id = m.subscriptionId.val
      · simp only [if_pos hx]
        refine ⟨rfl, (side_drop _ hd ?_).symm, fun x hx => h3 x (List.mem_filter.1 hx).1, by simp, by simp⟩
        intro x _ hx
        simp only [decide_eq_true_eq]
        intro e; rw [e.1, hm] at hx; cases hx
      · simp only [if_neg hx]
        exact ⟨rfl, rfl, h3, by simp, by simp⟩
    | _ => exact ⟨rfl, rfl, h3, by simp [pubDraws, Table.step], by simp [pubDraws, Table.step]⟩

/-- Which side drew the ids, one after another -/
def pubFlags (mine : Int → Bool) (ours : String → Bool) : Table → List Op → List Bool
  | _, [] => []
  | t, op :: ops => (if pubDraws t op then [pubMine mine ours op] else []) ++ pubFlags mine ours (t.step op).1 ops

theorem pubSim_run {mine : Int → Bool} {ours : String → Bool} {fl : List Bool} : ∀ (ops : List Op) (t t' : Table) (n : Nat),
    PubSim mine ours fl t t' n → (∀ op ∈ ops, pubApart mine ours op) → fl.drop n = pubFlags mine ours t ops →
    t'.answers ((ops.filter (pubMine mine ours)).map (pubIds (rho fl))) =
      ((ops.zip (t.answers ops)).filter fun e => pubMine mine ours e.1).map fun e => e.2.map (pubOutIds (rho fl))
  | [], _, _, _, _, _, _ => rfl
  | op :: ops, t, t', n, h, ha, hfl => by
    have hd : ∀ b, pubMine mine ours op = b → pubDraws t op = true → fl[n]? = some b := by
      intro b hb hdr
      rw [pubFlags, if_pos hdr, hb] at hfl
      have := congrArg (fun l => l[0]?) hfl
      simpa using this
    have hrest : fl.drop (n + if pubDraws t op then 1 else 0) = pubFlags mine ours (t.step op).1 ops := by
      rw [← List.drop_drop, hfl, pubFlags]
      cases pubDraws t op <;> simp
    rw [Table.answers, List.zip_cons_cons]
    cases hm : pubMine mine ours op
    · have hs := pubSim_other h op hm (ha op (by simp)) (hd false hm)
      rw [List.filter_cons_of_neg (by simp [hm]), List.filter_cons_of_neg (by simp [hm])]
      exact pubSim_run ops _ _ _ hs (fun o ho => ha o (by simp [ho])) hrest
    · obtain ⟨h1, h2⟩ := pubSim_mine h op hm (ha op (by simp)) (hd true hm)
      rw [List.filter_cons_of_pos (by simp [hm]), List.filter_cons_of_pos (by simp [hm]), List.map_cons, List.map_cons, Table.answers, h1]
      rw [pubSim_run ops _ _ _ h2 (fun o ho => ha o (by simp [ho])) hrest]

theorem pubOther_quiet {mine : Int → Bool} {ours : String → Bool} {fl : List Bool} {t t' : Table} {n : Nat}
    (h : PubSim mine ours fl t t' n) (op : Op) (hm : pubMine mine ours op = false) (ha : pubApart mine ours op) (o : Out)
    (ho : (t.step op).2 = some o) (c : Int) (hc : mine c = true) : pubMail c (.ok o) = [] := by
  cases op with
  | addSession d =>
    simp only [Table.step] at ho
    split at ho <;> cases ho
    rfl
  | removeSession s =>
    simp only [Table.step] at ho
    split at ho <;> cases ho
    rfl
  | hasSubscription x => cases ho; rfl
  | receivePublish s m =>
    simp only [pubMine] at hm
    simp only [pubApart] at ha
    simp only [Table.step] at ho
    split at ho <;> cases ho
    have hne : s ≠ c := by intro e; rw [e, hc] at hm; cases hm
    have hns : c ∉ subscribersOf t.held m.topic := by
      intro hx
      rw [subscribersOf] at hx
      obtain ⟨x, hx, e⟩ := List.mem_map.1 hx
      obtain ⟨h1, h2⟩ := List.mem_filter.1 hx
      have := h.apart x h1
      rw [e, hc, of_decide_eq_true h2, ← ha, hm] at this
      cases this
    simp only [pubMail, if_neg hns, List.nil_append]
    split <;> simp [mail, hne]
  | receiveMessage s m =>
    simp only [pubMine] at hm
    have hne : s ≠ c := by intro e; rw [e, hc] at hm; cases hm
    cases m with
    | subscribe m =>
      simp only [Table.step] at ho
      split at ho
      · split at ho <;> cases ho <;> simp [pubMail, mail, hne]
      · cases ho
    | unsubscribe m =>
      simp only [Table.step] at ho
      split at ho <;> cases ho
      simp [pubMail, mail, hne]
    | _ => cases ho

/-- What an answer of the table puts into a mailbox -/
def tableMail (c : Int) (o : Option Out) : List Message := (o.map fun o => pubMail c (.ok o)).getD []

theorem pubQuiet_run {mine : Int → Bool} {ours : String → Bool} {fl : List Bool} {c : Int} (hc : mine c = true) :
    ∀ (ops : List Op) (t t' : Table) (n : Nat), PubSim mine ours fl t t' n → (∀ op ∈ ops, pubApart mine ours op) →
    fl.drop n = pubFlags mine ours t ops →
    (ops.zip (t.answers ops)).flatMap (fun e => tableMail c e.2) =
      ((ops.zip (t.answers ops)).filter fun e => pubMine mine ours e.1).flatMap fun e => tableMail c e.2
  | [], _, _, _, _, _, _ => rfl
  | op :: ops, t, t', n, h, ha, hfl => by
    have hd : ∀ b, pubMine mine ours op = b → pubDraws t op = true → fl[n]? = some b := by
      intro b hb hdr
      rw [pubFlags, if_pos hdr, hb] at hfl
      have := congrArg (fun l => l[0]?) hfl
      simpa using this
    have hrest : fl.drop (n + if pubDraws t op then 1 else 0) = pubFlags mine ours (t.step op).1 ops := by
      rw [← List.drop_drop, hfl, pubFlags]
      cases pubDraws t op <;> simp
    rw [Table.answers, List.zip_cons_cons]
    cases hm : pubMine mine ours op
    · have hs := pubSim_other h op hm (ha op (by simp)) (hd false hm)
      rw [List.filter_cons_of_neg (by simp [hm]), List.flatMap_cons,
        pubQuiet_run hc ops _ _ _ hs (fun o ho => ha o (by simp [ho])) hrest]
      have : tableMail c (t.step op).2 = [] := by
        cases ho : (t.step op).2 with
        | none => rfl
        | some o => exact pubOther_quiet h op hm (ha op (by simp)) o ho c hc
      rw [this]; rfl
    · have hs := (pubSim_mine h op hm (ha op (by simp)) (hd true hm)).2
      rw [List.filter_cons_of_pos (by simp [hm]), List.flatMap_cons, List.flatMap_cons,
        pubQuiet_run hc ops _ _ _ hs (fun o ho => ha o (by simp [ho])) hrest]

theorem mail_ids (ρ : Int → Int) (c : Int) (m : MessageWithRecipient) : mail c (sent ρ m) = (mail c m).map (ids ρ) := by
  unfold mail sent; split <;> rfl

theorem pubMail_ids (ρ : Int → Int) (c : Int) (o : Out) : pubMail c (.ok (pubOutIds ρ o)) = (pubMail c (.ok o)).map (ids ρ) := by
  cases o with
  | unit => rfl
  | bool b => rfl
  | reply m => exact mail_ids ρ c m
  | publication p =>
    obtain ⟨e, r, a⟩ := p
    simp only [pubOutIds, pubMail, List.map_append]
    congr 1
    · cases e <;> split <;> rfl
    · cases a with
      | none => rfl
      | some a => simp [mail_ids]

theorem pubStart (mine : Int → Bool) (ours : String → Bool) (ops : List Op) :
    PubSim mine ours (pubFlags mine ours {} ops) {} {} 0 :=
  ⟨rfl, rfl, (by intro x hx; cases hx), rfl, rfl⟩

theorem trace_zip (ops : List Op) (hl : ops.length ≤ 2 ^ 53) :
    (Broker.trace ops).map (fun e => (e.1, e.2.toOption)) = ops.zip (({} : Table).answers ops) := by
  obtain ⟨h1, h2, _⟩ := Broker.C79_broker_is_table ops hl
  rw [← List.zip_map', h1, h2]

/-- Give an application the router for itself: what becomes of its calls is the same, up to the ids it is given. -/
theorem C117_broker (mine : Int → Bool) (ours : String → Bool) (ops : List Op) (hl : ops.length ≤ 2 ^ 53)
    (ha : ∀ op ∈ ops, pubApart mine ours op) :
    ∃ ρ, OneToOne ρ ∧
      (Broker.trace ((ops.filter (pubMine mine ours)).map (pubIds ρ))).map (·.2.toOption) =
        ((Broker.trace ops).filter fun e => pubMine mine ours e.1).map (fun e => e.2.toOption.map (pubOutIds ρ)) ∧
      ∀ c, mine c = true →
        pubInbox c (Broker.trace ((ops.filter (pubMine mine ours)).map (pubIds ρ))) = (pubInbox c (Broker.trace ops)).map (ids ρ) := by
  have hs := pubStart mine ours ops
  have hr := pubSim_run ops _ _ 0 hs ha rfl
  generalize hρ : rho (pubFlags mine ours {} ops) = ρ at hr
  have hl' : ((ops.filter (pubMine mine ours)).map (pubIds ρ)).length ≤ 2 ^ 53 := by
    rw [List.length_map]; exact Nat.le_trans (List.length_filter_le _ _) hl
  have hz := trace_zip ops hl
  have he : (Broker.trace ((ops.filter (pubMine mine ours)).map (pubIds ρ))).map (·.2.toOption) =
        ((Broker.trace ops).filter fun e => pubMine mine ours e.1).map (fun e => e.2.toOption.map (pubOutIds ρ)) := by
    rw [(Broker.C79_broker_is_table _ hl').2.1, hr, ← hz, List.filter_map, List.map_map]; rfl
  refine ⟨ρ, hρ ▸ rho_one _, he, fun c hc => ?_⟩
  have hmail : ∀ tr : List Broker.Obs, pubInbox c tr = (tr.map (·.2.toOption)).flatMap (tableMail c) := by
    intro tr
    induction tr with
    | nil => rfl
    | cons e tr ih =>
      rw [List.map_cons, List.flatMap_cons, ← ih, pubInbox, List.flatMap_cons]
      congr 1
      cases e.2 <;> rfl
  rw [hmail, he]
  have hq := pubQuiet_run hc ops _ _ 0 hs ha rfl
  rw [← hz, List.filter_map, List.flatMap_map, List.flatMap_map] at hq
  rw [hmail, List.flatMap_map, List.flatMap_map, hq, List.map_flatMap]
  congr 1
  funext e
  cases e.2 with
  | error x => rfl
  | ok o => exact pubMail_ids ρ c o

/-! Sessions 1 and 2 use the topic `a`, session 3 uses `b`. -/

private def sharedTopics : List Op :=
  [.addSession { sessionId := .int 1, realm := "r" }, .addSession { sessionId := .int 2, realm := "r" },
   .addSession { sessionId := .int 3, realm := "r" }, .receiveMessage 3 (.subscribe { requestId := .int 1, topic := "b" }),
   .receiveMessage 1 (.subscribe { requestId := .int 1, topic := "a" }),
   .receivePublish 3 { requestId := .int 2, topic := "b" }, .receivePublish 2 { requestId := .int 1, topic := "a" },
   .receiveMessage 1 (.unsubscribe { requestId := .int 2, subscriptionId := .int 2 })]

private def ρ₁ (n : Int) : Int := if n = 2 then 1 else if n = 4 then 2 else n + 9

example : (∀ op ∈ sharedTopics, pubApart (· ≠ 3) (· = "a") op) := by
  intro op hop
  simp only [sharedTopics, List.mem_cons, List.not_mem_nil, or_false] at hop
  rcases hop with rfl | rfl | rfl | rfl | rfl | rfl | rfl | rfl <;> first | rfl | trivial

example : pubInbox 1 (Broker.trace sharedTopics) =
      [.subscribed ⟨.int 1, .int 2⟩, .event { subscriptionId := .int 2, publicationId := .int 4 }, .unsubscribed ⟨.int 2⟩] ∧
    pubInbox 1 (Broker.trace ((sharedTopics.filter (pubMine (· ≠ 3) (· = "a"))).map (pubIds ρ₁))) =
      [.subscribed ⟨.int 1, .int 1⟩, .event { subscriptionId := .int 1, publicationId := .int 2 }, .unsubscribed ⟨.int 2⟩] := by
  decide +kernel

end

/-! ## The dealer -/

section
open Wamp.Spec.Rpc (Table Reg Pending Mark Failure)
open Wamp.Dealer (Op Out graded tableAfter)

/-- One side of a list, rewritten -/
def part {α : Type} (p : α → Bool) (f : α → α) (l : List α) : List α := (l.filter p).map f

theorem part_append {α : Type} (p : α → Bool) (f : α → α) (a b : List α) : part p f (a ++ b) = part p f a ++ part p f b := by
  simp [part]

theorem part_pos {α : Type} {p : α → Bool} (f : α → α) {x : α} (h : p x = true) : part p f [x] = [f x] := by simp [part, h]

theorem part_neg {α : Type} {p : α → Bool} (f : α → α) {x : α} (h : p x = false) : part p f [x] = [] := by simp [part, h]

theorem part_find {α : Type} {p : α → Bool} {f : α → α} {q q' : α → Bool} :
    ∀ l : List α, (∀ x ∈ l, q x = true → p x = true) → (∀ x ∈ l, q' (f x) = q x) → (part p f l).find? q' = (l.find? q).map f
  | [], _, _ => rfl
  | x :: l, h1, h2 => by
    have ih := part_find (p := p) l (fun y hy => h1 y (by simp [hy])) (fun y hy => h2 y (by simp [hy]))
    have hx := h2 x (by simp)
    simp only [part] at ih ⊢
    cases hq : q x
    · cases hp : p x <;> simp [hp, hq, hx, ih]
    · simp [h1 x (by simp) hq, hx, hq]

theorem part_any {α : Type} {p : α → Bool} {f : α → α} {q q' : α → Bool} :
    ∀ l : List α, (∀ x ∈ l, q x = true → p x = true) → (∀ x ∈ l, q' (f x) = q x) → (part p f l).any q' = l.any q
  | [], _, _ => rfl
  | x :: l, h1, h2 => by
    have ih := part_any (p := p) l (fun y hy => h1 y (by simp [hy])) (fun y hy => h2 y (by simp [hy]))
    have hx := h2 x (by simp)
    simp only [part] at ih ⊢
    cases hq : q x
    · cases hp : p x <;> simp [hp, hq, hx, ih]
    · simp [h1 x (by simp) hq, hx, hq]

theorem part_filter {α : Type} {p : α → Bool} {f : α → α} (q q' : α → Bool) :
    ∀ l : List α, (∀ x ∈ l, p x = true → q' (f x) = q x) → (part p f l).filter q' = part p f (l.filter q)
  | [], _ => rfl
  | x :: l, h => by
    have ih := part_filter q q' l (fun y hy => h y (by simp [hy]))
    simp only [part] at ih ⊢
    cases hp : p x
    · cases hq : q x <;> simp [hp, hq, ih]
    · have := h x (by simp) hp
      cases hq : q x <;> rw [hq] at this <;> simp [hp, hq, this, ih]

theorem part_drop {α : Type} {p : α → Bool} {f : α → α} (q : α → Bool) :
    ∀ l : List α, (∀ x ∈ l, p x = true → q x = true) → part p f (l.filter q) = part p f l
  | [], _ => rfl
  | x :: l, h => by
    have ih := part_drop (f := f) q l (fun y hy => h y (by simp [hy]))
    simp only [part] at ih ⊢
    cases hp : p x
    · cases hq : q x <;> simpa [hp, hq] using ih
    · simpa [hp, h x (by simp) hp] using ih

def reId (ρ : Int → Int) (x : Reg) : Reg := { x with id := ρ x.id }
def reInv (ρ : Int → Int) (x : Pending) : Pending := { x with inv := ρ x.inv }
def reMark (ρ : Int → Int) (x : Mark) : Mark := { x with inv := ρ x.inv }

/-- The table of one side alone, beside the table of all -/
structure RpcSim (mine : Int → Bool) (ours : String → Bool) (fl : List Bool) (t t' : Table) (n : Nat) : Prop where
  known : t'.known = t.known.filter mine
  held : t'.held = part (fun x => mine x.session) (reId (rho fl)) t.held
  pending : t'.pending = part (fun x => mine x.caller) (reInv (rho fl)) t.pending
  marks : t'.marks = part (fun x => mine x.caller) (reMark (rho fl)) t.marks
  apart : ∀ x ∈ t.held, mine x.session = ours x.procedure
  pairs : ∀ x ∈ t.pending, mine x.caller = mine x.callee
  uniq : ∀ x ∈ t.pending, ∀ y ∈ t.pending, x.inv = y.inv → x = y
  old : ∀ x ∈ t.pending, x.inv < t.next
  next : t.next = (n : Int) + 1
  next' : t'.next = (rank fl n : Int) + 1

/-- No ERROR for a call in progress on the other side -/
def rpcFair (mine : Int → Bool) (t : Table) : Op → Prop
  | .receiveMessage s (.error m) => m.messageType.val = 68 → ∀ x ∈ t.pending, x.inv = m.requestId.val → mine s = mine x.callee
  | _ => True

/-- Whether a call draws an id -/
def rpcDraws (t : Table) (op : Op) : Bool := (t.step op).1.next ≠ t.next

theorem find_inv {mine : Int → Bool} {ρ : Int → Int} (hinj : OneToOne ρ) {l : List Pending}
    (hu : ∀ x ∈ l, ∀ y ∈ l, x.inv = y.inv → x = y) (i : Int) :
    (part (fun x => mine x.caller) (reInv ρ) l).find? (·.inv = ρ i) =
      ((l.find? (·.inv = i)).filter fun x => mine x.caller).map (reInv ρ) := by
  cases hf : l.find? (·.inv = i) with
  | none =>
    rw [Option.filter_none, Option.map_none, List.find?_eq_none]
    rw [List.find?_eq_none] at hf
    intro y hy
    obtain ⟨x, hx, rfl⟩ := List.mem_map.1 hy
    have := hf x (List.mem_filter.1 hx).1
    exact fun e => this (decide_eq_true (hinj _ _ (of_decide_eq_true e)))
  | some x =>
    have hx := List.mem_of_find?_eq_some hf
    have hi : x.inv = i := by simpa using List.find?_some hf
    cases hm : mine x.caller
    · rw [Option.filter_some, if_neg (by simp [hm]), Option.map_none, List.find?_eq_none]
      intro y hy
      obtain ⟨z, hz, rfl⟩ := List.mem_map.1 hy
      obtain ⟨hz, hzm⟩ := List.mem_filter.1 hz
      intro e
      have : z = x := hu z hz x hx (by rw [hinj _ _ (of_decide_eq_true e), hi])
      simp only [this, hm] at hzm
      cases hzm
    · rw [Option.filter_some, if_pos hm, Option.map_some]
      have hmem : reInv ρ x ∈ part (fun x => mine x.caller) (reInv ρ) l := List.mem_map.2 ⟨x, List.mem_filter.2 ⟨hx, hm⟩, rfl⟩
      cases hg : (part (fun x => mine x.caller) (reInv ρ) l).find? (·.inv = ρ i) with
      | none =>
        rw [List.find?_eq_none] at hg
        exact absurd (by simp [reInv, hi]) (hg _ hmem)
      | some y =>
        obtain ⟨z, hz, rfl⟩ := List.mem_map.1 (List.mem_of_find?_eq_some hg)
        have e : ρ z.inv = ρ i := by have h := List.find?_some hg; exact of_decide_eq_true h
        rw [hu z (List.mem_filter.1 hz).1 x hx (by rw [hinj _ _ e, hi])]

theorem invocation_ids (ρ : Int → Int) (m : Call) (i r : Int) :
    ids ρ (Rpc.invocation m i r) = Rpc.invocation m (ρ i) (ρ r) := rfl

theorem rpcSim_mine {mine : Int → Bool} {ours : String → Bool} {fl : List Bool} {t t' : Table} {n : Nat}
    (h : RpcSim mine ours fl t t' n) (op : Op) (hm : rpcMine mine ours op = true) (ha : rpcApart mine ours op)
    (hfair : rpcFair mine t op) (hf : rpcDraws t op = true → fl[n]? = some true) :
    (t'.step (rpcIds (rho fl) op)).2 = (t.step op).2.map (rpcOutIds (rho fl)) ∧
    RpcSim mine ours fl (t.step op).1 (t'.step (rpcIds (rho fl) op)).1 (n + if rpcDraws t op then 1 else 0) := by
  obtain ⟨k, hd, pe, mk, nx⟩ := t
  obtain ⟨k', hd', pe', mk', nx'⟩ := t'
  obtain ⟨h1, h2, h3, h4, h5, h6, h7, h8, h9, h10⟩ := h
  simp only at h1 h2 h3 h4 h5 h6 h7 h8 h9 h10
  subst h1 h2 h3 h4 h9 h10
  have hinj := rho_one fl
  have hknown : ∀ s, mine s = true → (s ∈ k.filter mine ↔ s ∈ k) := fun s hs => by simp [hs]
  have hnew : fl[n]? = some true → (rank fl n : Int) + 1 = rho fl ((n : Int) + 1) := by
    intro hf
    rw [rho_next fl n hf, rank_succ, if_pos hf]; omega
  have hany : ∀ p, ours p = true → (part (fun x => mine x.session) (reId (rho fl)) hd).any (·.procedure = p) = hd.any (·.procedure = p) := by
    intro p hp
    apply part_any
    · intro x hx hq
      simp only [h5 x hx, of_decide_eq_true hq, hp]
    · intro x _; rfl
  cases op with
  | addSession d =>
    simp only [rpcMine] at hm
    simp only [rpcIds, Table.step, rpcDraws, hknown _ hm]
    by_cases hk : d.sessionId.val ∈ k
    · simp only [if_pos hk]
      exact ⟨rfl, rfl, rfl, rfl, rfl, h5, h6, h7, h8, by simp, by simp⟩
    · simp only [if_neg hk]
      exact ⟨rfl, by simp [hm], rfl, rfl, rfl, h5, h6, h7, h8, by simp, by simp⟩
  | removeSession s =>
    simp only [rpcMine] at hm
    simp only [rpcIds, Table.step, rpcDraws, hknown _ hm]
    by_cases hk : s ∈ k
    · simp only [if_pos hk]
      exact ⟨rfl, filter_comm_ne mine s k, part_filter _ _ hd (fun x _ _ => rfl), rfl, rfl,
        fun x hx => h5 x (List.mem_filter.1 hx).1, h6, h7, h8, by simp, by simp⟩
    · simp only [if_neg hk]
      exact ⟨rfl, rfl, rfl, rfl, rfl, h5, h6, h7, h8, by simp, by simp⟩
  | hasRegistration p =>
    simp only [rpcMine] at hm
    simp only [rpcIds, Table.step, rpcDraws, hany p hm]
    exact ⟨rfl, rfl, rfl, rfl, rfl, h5, h6, h7, h8, by simp, by simp⟩
  | receiveMessage s m =>
    simp only [rpcMine] at hm
    cases m with
    | register m =>
      simp only [rpcApart] at ha
      have ho : ours m.procedure = true := by rw [← ha, hm]
      simp only [rpcIds, ids, Table.step, hknown _ hm, rpcDraws, hany _ ho] at hf ⊢
      by_cases hk : s ∈ k
      · simp only [if_pos hk] at hf ⊢
        cases hp : hd.any (·.procedure = m.procedure)
        · simp only [hp, Bool.false_eq_true, if_false] at hf ⊢
          have hf' := hf (by simp; omega)
          have hr := hnew hf'
          rw [if_pos (by simp; omega)]
          refine ⟨by rw [hr]; rfl, rfl, ?_, rfl, rfl, ?_, h6, h7, ?_, by simp, ?_⟩
          · simp only [part_append, hr]
            rw [part_pos _ (by exact hm)]; rfl
          · intro x hx
            rcases List.mem_append.1 hx with hx | hx
            · exact h5 x hx
            · rw [List.mem_singleton.1 hx]; exact ha
          · intro x hx; have := h8 x hx; simp only; omega
          · simp only [rank_succ fl n, if_pos hf']; omega
        · simp only [if_true]
          exact ⟨rfl, rfl, rfl, rfl, rfl, h5, h6, h7, h8, by simp, by simp⟩
      · simp only [if_neg hk]
        exact ⟨rfl, rfl, rfl, rfl, rfl, h5, h6, h7, h8, by simp, by simp⟩
    | unregister m =>
      have hex : (∃ x ∈ part (fun x => mine x.session) (reId (rho fl)) hd, x.session = s ∧ x.id = rho fl m.registrationId.val) ↔
          ∃ x ∈ hd, x.session = s ∧ x.id = m.registrationId.val := by
        constructor
        · rintro ⟨x, hx, e1, e2⟩
          obtain ⟨y, hy, rfl⟩ := List.mem_map.1 hx
          exact ⟨y, (List.mem_filter.1 hy).1, e1, hinj _ _ e2⟩
        · rintro ⟨x, hx, e1, e2⟩
          exact ⟨_, List.mem_map.2 ⟨x, List.mem_filter.2 ⟨hx, by simp only [e1]; exact hm⟩, rfl⟩, e1, by simp only [reId, e2]⟩
      by_cases hx : ∃ x ∈ hd, x.session = s ∧ x.id = m.registrationId.val
      · have e1 : (Table.mk k hd pe mk ((n : Int) + 1)).step (.receiveMessage s (.unregister m)) = (_, _) := if_pos hx
        have e2 : (Table.mk (k.filter mine) (part (fun x => mine x.session) (reId (rho fl)) hd)
          (part (fun x => mine x.caller) (reInv (rho fl)) pe) (part (fun x => mine x.caller) (reMark (rho fl)) mk) ((rank fl n : Int) + 1)).step
          (rpcIds (rho fl) (.receiveMessage s (.unregister m))) = (_, _) := if_pos (hex.2 hx)
        rw [rpcDraws, e1, e2]
        refine ⟨rfl, rfl, ?_, rfl, rfl, fun x hx => h5 x (List.mem_filter.1 hx).1, h6, h7, h8, by simp, by simp⟩
        apply part_filter
        intro x _ _
        simp only [decide_eq_decide]
        constructor
        · intro h3 h4; exact h3 ⟨h4.1, congrArg (rho fl) h4.2⟩
        · intro h3 h4; exact h3 ⟨h4.1, hinj _ _ h4.2⟩
      · have e1 : (Table.mk k hd pe mk ((n : Int) + 1)).step (.receiveMessage s (.unregister m)) = (_, _) := if_neg hx
        have e2 : (Table.mk (k.filter mine) (part (fun x => mine x.session) (reId (rho fl)) hd)
          (part (fun x => mine x.caller) (reInv (rho fl)) pe) (part (fun x => mine x.caller) (reMark (rho fl)) mk) ((rank fl n : Int) + 1)).step
          (rpcIds (rho fl) (.receiveMessage s (.unregister m))) = (_, _) := if_neg (fun h => hx (hex.1 h))
        rw [rpcDraws, e1, e2]
        exact ⟨rfl, rfl, rfl, rfl, rfl, h5, h6, h7, h8, by simp, by simp⟩
    | call m =>
      simp only [rpcApart] at ha
      have ho : ours m.procedure = true := by rw [← ha, hm]
      have hfind : (part (fun x => mine x.session) (reId (rho fl)) hd).find? (·.procedure = m.procedure) =
          (hd.find? (·.procedure = m.procedure)).map (reId (rho fl)) := by
        apply part_find
        · intro x hx hq
          simp only [h5 x hx, of_decide_eq_true hq, ho]
        · intro x _; rfl
      have hmark : (part (fun x => mine x.caller) (reMark (rho fl)) mk).find? (fun x => x.caller = s ∧ x.request = m.requestId.val) =
          (mk.find? (fun x => x.caller = s ∧ x.request = m.requestId.val)).map (reMark (rho fl)) := by
        apply part_find
        · intro x hx hq
          simp only [(of_decide_eq_true hq).1, hm]
        · intro x _; rfl
      cases hx : hd.find? (·.procedure = m.procedure) with
      | none =>
        rw [hx] at hfind
        simp only [rpcIds, ids, Table.step, rpcDraws, hfind, hx, Option.map_none]
        exact ⟨rfl, rfl, rfl, rfl, rfl, h5, h6, h7, h8, by simp, by simp⟩
      | some x =>
        have hxm := List.mem_of_find?_eq_some hx
        have hxp : x.procedure = m.procedure := by simpa using List.find?_some hx
        have hxs : mine x.session = true := by rw [h5 x hxm, hxp, ho]
        rw [hx] at hfind
        have hif : (if PyDict.flag m.options "progress" = true then
            (part (fun x => mine x.caller) (reMark (rho fl)) mk).find? (fun x => x.caller = s ∧ x.request = m.requestId.val) else none) =
            (if PyDict.flag m.options "progress" = true then
            mk.find? (fun x => x.caller = s ∧ x.request = m.requestId.val) else none).map (reMark (rho fl)) := by rw [hmark]; split <;> rfl
        cases ho : (if PyDict.flag m.options "progress" = true then
            mk.find? (fun x => x.caller = s ∧ x.request = m.requestId.val) else none) with
        | some y =>
          rw [ho] at hif
          simp only [rpcIds, ids, Table.step, rpcDraws, hfind, Table.mark, hx, hif, ho, Option.map_some]
          exact ⟨rfl, rfl, rfl, rfl, rfl, h5, h6, h7, h8, by simp, by simp⟩
        | none =>
          rw [ho] at hif
          simp only [rpcIds, ids, Table.step, rpcDraws, hfind, Table.mark, Table.unmark, hx, hif, ho, Option.map_some, Option.map_none] at hf ⊢
          have hf' := hf (by simp; omega)
          have hr := hnew hf'
          rw [if_pos (by simp; omega)]
          refine ⟨by rw [hr]; rfl, rfl, rfl, ?_, ?_, h5, ?_, ?_, ?_, by simp, ?_⟩
          · simp only [part_append, hr]
            rw [part_pos _ (by exact hm)]; rfl
          · simp only [part_append, hr]
            rw [part_pos _ (by exact hm)]
            congr 1
            exact part_filter _ _ mk (fun x _ _ => rfl)
          · intro y hy
            rcases List.mem_append.1 hy with hy | hy
            · exact h6 y hy
            · rw [List.mem_singleton.1 hy]; simp only [hm, hxs]
          · intro y hy z hz e
            rcases List.mem_append.1 hy with hy | hy <;> rcases List.mem_append.1 hz with hz | hz
            · exact h7 y hy z hz e
            · rw [List.mem_singleton.1 hz] at e
              have := h8 y hy; simp only at e; omega
            · rw [List.mem_singleton.1 hy] at e
              have := h8 z hz; simp only at e; omega
            · rw [List.mem_singleton.1 hy, List.mem_singleton.1 hz]
          · intro y hy
            rcases List.mem_append.1 hy with hy | hy
            · have := h8 y hy; simp only; omega
            · rw [List.mem_singleton.1 hy]; simp only; omega
          · simp only [rank_succ fl n, if_pos hf']; omega
    | yield_ m =>
      have hfi := find_inv (mine := mine) hinj h7 m.requestId.val
      have hrest : (part (fun x => mine x.caller) (reInv (rho fl)) pe).filter (·.inv ≠ rho fl m.requestId.val) =
          part (fun x => mine x.caller) (reInv (rho fl)) (pe.filter (·.inv ≠ m.requestId.val)) := by
        apply part_filter
        intro x _ _
        simp only [decide_eq_decide]
        exact ⟨fun h e => h (congrArg (rho fl) e), fun h e => h (hinj _ _ e)⟩
      have hval : (PyInt.int (rho fl m.requestId.val)).val = rho fl m.requestId.val := rfl
      cases hx : pe.find? (·.inv = m.requestId.val) with
      | none =>
        rw [hx] at hfi
        simp only [rpcIds, ids, Table.step, rpcDraws, hval, hfi, hx, Option.filter_none, Option.map_none]
        exact ⟨rfl, rfl, rfl, rfl, rfl, h5, h6, h7, h8, by simp, by simp⟩
      | some x =>
        have hxm := List.mem_of_find?_eq_some hx
        have hpair := h6 x hxm
        rw [hx] at hfi
        cases hc : mine x.caller
        · have hne : s ≠ x.callee := by
            intro e; rw [← e, hm, hc] at hpair; cases hpair
          simp only [rpcIds, ids, Table.step, rpcDraws, hval, hfi, hx, Option.filter_some, hc, Bool.false_eq_true, if_false, Option.map_none,
            if_pos hne]
          exact ⟨rfl, rfl, rfl, rfl, rfl, h5, h6, h7, h8, by simp, by simp⟩
        · have hmark : (part (fun x => mine x.caller) (reMark (rho fl)) mk).find? (fun y => y.caller = x.caller ∧ y.request = x.request.val) =
              (mk.find? (fun y => y.caller = x.caller ∧ y.request = x.request.val)).map (reMark (rho fl)) := by
            apply part_find
            · intro y hy hq
              simp only [(of_decide_eq_true hq).1, hc]
            · intro y _; rfl
          simp only [Option.filter_some, hc, if_true, Option.map_some] at hfi
          by_cases hs : s ≠ x.callee
          · have hs' : s ≠ (reInv (rho fl) x).callee := hs
            simp only [rpcIds, ids, Table.step, rpcDraws, hval, hfi, hx, if_pos hs, if_pos hs']
            exact ⟨rfl, rfl, rfl, rfl, rfl, h5, h6, h7, h8, by simp, by simp⟩
          · have hs' : ¬ s ≠ (reInv (rho fl) x).callee := hs
            have hsub : ∀ y ∈ pe.filter (·.inv ≠ m.requestId.val), y ∈ pe := fun y hy => (List.mem_filter.1 hy).1
            by_cases hpr : (PyDict.flag m.options "progress" && x.wantsProgress) = true
            · have hpr' : (PyDict.flag ({ m with requestId := .int (rho fl m.requestId.val) } : Yield).options "progress" &&
                  (reInv (rho fl) x).wantsProgress) = true := hpr
              simp only [rpcIds, ids, Table.step, rpcDraws, hval, hfi, hx, if_neg hs, if_neg hs', if_pos hpr, if_pos hpr']
              exact ⟨rfl, rfl, rfl, rfl, rfl, h5, h6, h7, h8, by simp, by simp⟩
            · have hpr' : ¬ (PyDict.flag ({ m with requestId := .int (rho fl m.requestId.val) } : Yield).options "progress" &&
                  (reInv (rho fl) x).wantsProgress) = true := hpr
              have e1 : (reInv (rho fl) x).caller = x.caller := rfl
              have e2 : (reInv (rho fl) x).request = x.request := rfl
              cases ho : mk.find? (fun y => y.caller = x.caller ∧ y.request = x.request.val) with
              | none =>
                rw [ho] at hmark
                simp only [rpcIds, ids, Table.step, rpcDraws, hval, hfi, hx, if_neg hs, if_neg hs', if_neg hpr, if_neg hpr', hrest,
                  Table.mark, e1, e2, hmark, ho, Option.map_none]
                exact ⟨rfl, rfl, rfl, rfl, rfl, h5, fun y hy => h6 y (hsub y hy), fun y hy z hz => h7 y (hsub y hy) z (hsub z hz),
                  fun y hy => h8 y (hsub y hy), by simp, by simp⟩
              | some q =>
                rw [ho] at hmark
                simp only [rpcIds, ids, Table.step, rpcDraws, hval, hfi, hx, if_neg hs, if_neg hs', if_neg hpr, if_neg hpr', hrest,
                  Table.mark, Table.unmark, e1, e2, hmark, ho, Option.map_some]
                exact ⟨rfl, rfl, rfl, rfl, part_filter _ _ mk (fun x _ _ => rfl), h5, fun y hy => h6 y (hsub y hy),
                  fun y hy z hz => h7 y (hsub y hy) z (hsub z hz), fun y hy => h8 y (hsub y hy), by simp, by simp⟩
    | error m =>
      by_cases hty : m.messageType.val = 68
      · have hfi := find_inv (mine := mine) hinj h7 m.requestId.val
        have hrest : (part (fun x => mine x.caller) (reInv (rho fl)) pe).filter (·.inv ≠ rho fl m.requestId.val) =
            part (fun x => mine x.caller) (reInv (rho fl)) (pe.filter (·.inv ≠ m.requestId.val)) := by
          apply part_filter
          intro x _ _
          simp only [decide_eq_decide]
          exact ⟨fun h e => h (congrArg (rho fl) e), fun h e => h (hinj _ _ e)⟩
        have hval : (PyInt.int (rho fl m.requestId.val)).val = rho fl m.requestId.val := rfl
        have hfa := hfair hty
        cases hx : pe.find? (·.inv = m.requestId.val) with
        | none =>
          rw [hx] at hfi
          simp only [rpcIds, ids, Table.step, rpcDraws, if_pos hty, hval, hfi, hx, Option.filter_none, Option.map_none]
          exact ⟨rfl, rfl, rfl, rfl, rfl, h5, h6, h7, h8, by simp, by simp⟩
        | some x =>
          have hxm := List.mem_of_find?_eq_some hx
          have hxi : x.inv = m.requestId.val := by simpa using List.find?_some hx
          have hc : mine x.caller = true := by rw [h6 x hxm, ← hfa x hxm hxi, hm]
          have hsub : ∀ y ∈ pe.filter (·.inv ≠ m.requestId.val), y ∈ pe := fun y hy => (List.mem_filter.1 hy).1
          rw [hx] at hfi
          simp only [rpcIds, ids, Table.step, rpcDraws, if_pos hty, hval, hfi, hx, hrest, Option.filter_some, hc, if_true, Option.map_some]
          exact ⟨rfl, rfl, rfl, rfl, rfl, h5, fun y hy => h6 y (hsub y hy), fun y hy z hz => h7 y (hsub y hy) z (hsub z hz),
                  fun y hy => h8 y (hsub y hy), by simp, by simp⟩
      · simp only [rpcIds, ids, Table.step, rpcDraws, if_neg hty]
        exact ⟨rfl, rfl, rfl, rfl, rfl, h5, h6, h7, h8, by simp, by simp⟩
    | _ =>
      exact ⟨rfl, rfl, rfl, rfl, rfl, h5, h6, h7, h8, by simp [rpcDraws, Table.step], by simp [rpcDraws, Table.step, rpcIds, ids]⟩

theorem rpcSim_other {mine : Int → Bool} {ours : String → Bool} {fl : List Bool} {t t' : Table} {n : Nat}
    (h : RpcSim mine ours fl t t' n) (op : Op) (hm : rpcMine mine ours op = false) (ha : rpcApart mine ours op)
    (hfair : rpcFair mine t op) (hf : rpcDraws t op = true → fl[n]? = some false) :
    RpcSim mine ours fl (t.step op).1 t' (n + if rpcDraws t op then 1 else 0) := by
  obtain ⟨k, hd, pe, mk, nx⟩ := t
  obtain ⟨k', hd', pe', mk', nx'⟩ := t'
  obtain ⟨h1, h2, h3, h4, h5, h6, h7, h8, h9, h10⟩ := h
  simp only at h1 h2 h3 h4 h5 h6 h7 h8 h9 h10
  subst h1 h2 h3 h4 h9 h10
  have hrank : fl[n]? = some false → rank fl (n + 1) = rank fl n := by
    intro hf
    rw [rank_succ, hf]; simp
  -- removing a call of the other side
  have hrest : ∀ x ∈ pe, mine x.caller = false → part (fun x => mine x.caller) (reInv (rho fl)) (pe.filter (·.inv ≠ x.inv)) =
      part (fun x => mine x.caller) (reInv (rho fl)) pe := by
    intro x hx hc
    apply part_drop
    intro y hy hyc
    rw [decide_eq_true_eq]
    intro e
    rw [h7 y hy x hx e, hc] at hyc; cases hyc
  have hsub : ∀ i, ∀ y ∈ pe.filter (·.inv ≠ i), y ∈ pe := fun i y hy => (List.mem_filter.1 hy).1
  cases op with
  | addSession d =>
    simp only [rpcMine] at hm
    simp only [Table.step, rpcDraws]
    by_cases hk : d.sessionId.val ∈ k
    · simp only [if_pos hk]
      exact ⟨rfl, rfl, rfl, rfl, h5, h6, h7, h8, by simp, by simp⟩
    · simp only [if_neg hk]
      exact ⟨by simp [hm], rfl, rfl, rfl, h5, h6, h7, h8, by simp, by simp⟩
  | removeSession s =>
    simp only [rpcMine] at hm
    simp only [Table.step, rpcDraws]
    by_cases hk : s ∈ k
    · simp only [if_pos hk]
      refine ⟨?_, (part_drop _ hd ?_).symm, rfl, rfl, fun x hx => h5 x (List.mem_filter.1 hx).1, h6, h7, h8, by simp, by simp⟩
      · simp only
        rw [← filter_comm_ne, List.filter_filter]
        congr 1; funext x
        by_cases hx : x = s
        · subst hx; simp [hm]
        · simp [hx]
      · intro x _ hx
        simp only [decide_eq_true_eq]
        intro e; rw [e, hm] at hx; cases hx
    · simp only [if_neg hk]
      exact ⟨rfl, rfl, rfl, rfl, h5, h6, h7, h8, by simp, by simp⟩
  | hasRegistration p =>
    exact ⟨rfl, rfl, rfl, rfl, h5, h6, h7, h8, by simp [rpcDraws, Table.step], by simp [rpcDraws, Table.step]⟩
  | receiveMessage s m =>
    simp only [rpcMine] at hm
    cases m with
    | register m =>
      simp only [rpcApart] at ha
      simp only [Table.step, rpcDraws] at hf ⊢
      by_cases hk : s ∈ k
      · simp only [if_pos hk] at hf ⊢
        cases hp : hd.any (·.procedure = m.procedure)
        · simp only [hp, Bool.false_eq_true, if_false] at hf ⊢
          have hf' := hf (by simp; omega)
          rw [if_pos (by simp; omega)]
          refine ⟨rfl, ?_, rfl, rfl, ?_, h6, h7, ?_, by simp, by simp only [hrank hf']⟩
          · simp only [part_append]
            rw [part_neg _ (by exact hm), List.append_nil]
          · intro x hx
            rcases List.mem_append.1 hx with hx | hx
            · exact h5 x hx
            · rw [List.mem_singleton.1 hx]; exact ha
          · intro x hx; have := h8 x hx; simp only; omega
        · simp only [if_true]
          exact ⟨rfl, rfl, rfl, rfl, h5, h6, h7, h8, by simp, by simp⟩
      · simp only [if_neg hk]
        exact ⟨rfl, rfl, rfl, rfl, h5, h6, h7, h8, by simp, by simp⟩
    | unregister m =>
      simp only [Table.step, rpcDraws]
      by_cases hx : ∃ x ∈ hd, x.session = s ∧ x.id = m.registrationId.val
      · simp only [if_pos hx]
        refine ⟨rfl, (part_drop _ hd ?_).symm, rfl, rfl, fun x hx => h5 x (List.mem_filter.1 hx).1, h6, h7, h8, by simp, by simp⟩
        intro x _ hx
        simp only [decide_eq_true_eq]
        intro e; rw [e.1, hm] at hx; cases hx
      · simp only [if_neg hx]
        exact ⟨rfl, rfl, rfl, rfl, h5, h6, h7, h8, by simp, by simp⟩
    | call m =>
      simp only [rpcApart] at ha
      cases hx : hd.find? (·.procedure = m.procedure) with
      | none =>
        simp only [Table.step, rpcDraws, hx]
        exact ⟨rfl, rfl, rfl, rfl, h5, h6, h7, h8, by simp, by simp⟩
      | some x =>
        have hxm := List.mem_of_find?_eq_some hx
        have hxp : x.procedure = m.procedure := by simpa using List.find?_some hx
        have hxs : mine x.session = false := by rw [h5 x hxm, hxp, ← ha, hm]
        cases ho : (if PyDict.flag m.options "progress" = true then
            mk.find? (fun x => x.caller = s ∧ x.request = m.requestId.val) else none) with
        | some y =>
          simp only [Table.step, rpcDraws, Table.mark, hx, ho]
          exact ⟨rfl, rfl, rfl, rfl, h5, h6, h7, h8, by simp, by simp⟩
        | none =>
          simp only [Table.step, rpcDraws, Table.mark, Table.unmark, hx, ho] at hf ⊢
          have hf' := hf (by simp; omega)
          rw [if_pos (by simp; omega)]
          refine ⟨rfl, rfl, ?_, ?_, h5, ?_, ?_, ?_, by simp, by simp only [hrank hf']⟩
          · simp only [part_append]
            rw [part_neg _ (by exact hm), List.append_nil]
          · simp only [part_append]
            rw [part_neg _ (by exact hm), List.append_nil]
            refine (part_drop _ mk ?_).symm
            intro y _ hy
            simp only [decide_eq_true_eq]
            intro e; rw [e.1, hm] at hy; cases hy
          · intro y hy
            rcases List.mem_append.1 hy with hy | hy
            · exact h6 y hy
            · rw [List.mem_singleton.1 hy]; simp only [hm, hxs]
          · intro y hy z hz e
            rcases List.mem_append.1 hy with hy | hy <;> rcases List.mem_append.1 hz with hz | hz
            · exact h7 y hy z hz e
            · rw [List.mem_singleton.1 hz] at e
              have := h8 y hy; simp only at e; omega
            · rw [List.mem_singleton.1 hy] at e
              have := h8 z hz; simp only at e; omega
            · rw [List.mem_singleton.1 hy, List.mem_singleton.1 hz]
          · intro y hy
            rcases List.mem_append.1 hy with hy | hy
            · have := h8 y hy; simp only; omega
            · rw [List.mem_singleton.1 hy]; simp only; omega
    | yield_ m =>
      cases hx : pe.find? (·.inv = m.requestId.val) with
      | none =>
        simp only [Table.step, rpcDraws, hx]
        exact ⟨rfl, rfl, rfl, rfl, h5, h6, h7, h8, by simp, by simp⟩
      | some x =>
        have hxm := List.mem_of_find?_eq_some hx
        have hxi : x.inv = m.requestId.val := by simpa using List.find?_some hx
        by_cases hs : s ≠ x.callee
        · simp only [Table.step, rpcDraws, hx, if_pos hs]
          exact ⟨rfl, rfl, rfl, rfl, h5, h6, h7, h8, by simp, by simp⟩
        · have hs' : s = x.callee := by simpa using hs
          have hc : mine x.caller = false := by rw [h6 x hxm, ← hs', hm]
          have hr := hrest x hxm hc
          rw [hxi] at hr
          by_cases hpr : (PyDict.flag m.options "progress" && x.wantsProgress) = true
          · simp only [Table.step, rpcDraws, hx, if_neg hs, if_pos hpr]
            exact ⟨rfl, rfl, rfl, rfl, h5, h6, h7, h8, by simp, by simp⟩
          · cases ho : mk.find? (fun y => y.caller = x.caller ∧ y.request = x.request.val) with
            | none =>
              simp only [Table.step, rpcDraws, hx, if_neg hs, if_neg hpr, Table.mark, ho]
              exact ⟨rfl, rfl, hr.symm, rfl, h5, fun y hy => h6 y (hsub _ y hy), fun y hy z hz => h7 y (hsub _ y hy) z (hsub _ z hz),
                fun y hy => h8 y (hsub _ y hy), by simp, by simp⟩
            | some q =>
              simp only [Table.step, rpcDraws, hx, if_neg hs, if_neg hpr, Table.mark, Table.unmark, ho]
              refine ⟨rfl, rfl, hr.symm, (part_drop _ mk ?_).symm, h5, fun y hy => h6 y (hsub _ y hy),
                fun y hy z hz => h7 y (hsub _ y hy) z (hsub _ z hz), fun y hy => h8 y (hsub _ y hy), by simp, by simp⟩
              intro y _ hy
              simp only [decide_eq_true_eq]
              intro e; rw [e.1, hc] at hy; cases hy
    | error m =>
      by_cases hty : m.messageType.val = 68
      · have hfa := hfair hty
        cases hx : pe.find? (·.inv = m.requestId.val) with
        | none =>
          simp only [Table.step, rpcDraws, if_pos hty, hx]
          exact ⟨rfl, rfl, rfl, rfl, h5, h6, h7, h8, by simp, by simp⟩
        | some x =>
          have hxm := List.mem_of_find?_eq_some hx
          have hxi : x.inv = m.requestId.val := by simpa using List.find?_some hx
          have hc : mine x.caller = false := by rw [h6 x hxm, ← hfa x hxm hxi, hm]
          have hr := hrest x hxm hc
          rw [hxi] at hr
          simp only [Table.step, rpcDraws, if_pos hty, hx]
          exact ⟨rfl, rfl, hr.symm, rfl, h5, fun y hy => h6 y (hsub _ y hy), fun y hy z hz => h7 y (hsub _ y hy) z (hsub _ z hz),
                  fun y hy => h8 y (hsub _ y hy), by simp, by simp⟩
      · simp only [Table.step, rpcDraws, if_neg hty]
        exact ⟨rfl, rfl, rfl, rfl, h5, h6, h7, h8, by simp, by simp⟩
    | _ => exact ⟨rfl, rfl, rfl, rfl, h5, h6, h7, h8, by simp [rpcDraws, Table.step], by simp [rpcDraws, Table.step]⟩

theorem rpcOther_quiet {mine : Int → Bool} {ours : String → Bool} {fl : List Bool} {t t' : Table} {n : Nat}
    (h : RpcSim mine ours fl t t' n) (op : Op) (hm : rpcMine mine ours op = false) (ha : rpcApart mine ours op)
    (hfair : rpcFair mine t op) (o : Out) (ho : (t.step op).2 = .ok o) (c : Int) (hc : mine c = true) : rpcMail c (.ok o) = [] := by
  have hto : ∀ m r, mine r = false → rpcMail c (.ok (.reply ⟨m, r⟩)) = [] := by
    intro m r hr
    have : r ≠ c := by intro e; rw [e, hc] at hr; cases hr
    simp [rpcMail, mail, this]
  cases op with
  | addSession d =>
    simp only [Table.step] at ho
    split at ho <;> cases ho
    rfl
  | removeSession s =>
    simp only [Table.step] at ho
    split at ho <;> cases ho
    rfl
  | hasRegistration x => cases ho; rfl
  | receiveMessage s m =>
    simp only [rpcMine] at hm
    cases m with
    | register m =>
      simp only [Table.step] at ho
      split at ho
      · split at ho <;> cases ho <;> exact hto _ _ hm
      · cases ho
    | unregister m =>
      simp only [Table.step] at ho
      split at ho <;> cases ho
      exact hto _ _ hm
    | call m =>
      simp only [rpcApart] at ha
      simp only [Table.step] at ho
      split at ho
      · cases ho; exact hto _ _ hm
      · rename_i x hx
        have hxm := List.mem_of_find?_eq_some hx
        have hxp : x.procedure = m.procedure := by simpa using List.find?_some hx
        have hxs : mine x.session = false := by rw [h.apart x hxm, hxp, ← ha, hm]
        split at ho <;> cases ho <;> exact hto _ _ hxs
    | yield_ m =>
      simp only [Table.step] at ho
      split at ho
      · cases ho
      · rename_i x hx
        have hxm := List.mem_of_find?_eq_some hx
        split at ho
        · cases ho
        · rename_i hs
          have hs' : s = x.callee := by simpa using hs
          have hxc : mine x.caller = false := by rw [h.pairs x hxm, ← hs', hm]
          split at ho
          · cases ho; exact hto _ _ hxc
          · split at ho <;> cases ho
            exact hto _ _ hxc
    | error m =>
      by_cases hty : m.messageType.val = 68
      · simp only [Table.step, if_pos hty] at ho
        split at ho
        · cases ho
        · rename_i x hx
          have hxm := List.mem_of_find?_eq_some hx
          have hxi : x.inv = m.requestId.val := by simpa using List.find?_some hx
          cases ho
          exact hto _ _ (by rw [h.pairs x hxm, ← hfair hty x hxm hxi, hm])
      · simp only [Table.step, if_neg hty] at ho
        cases ho
    | _ => cases ho

/-- Which side drew the ids, one after another -/
def rpcFlags (mine : Int → Bool) (ours : String → Bool) (t : Table) : List Op → List Bool
  | [] => []
  | op :: ops => (if rpcDraws t op then [rpcMine mine ours op] else []) ++ rpcFlags mine ours (t.step op).1 ops

/-- `rpcFair` all along -/
def Fair (mine : Int → Bool) (t : Table) : List Op → Prop
  | [] => True
  | op :: ops => rpcFair mine t op ∧ Fair mine (t.step op).1 ops

/-- What an answer of the table puts into a mailbox -/
def rpcTableMail (c : Int) : Except Failure Out → List Message
  | .ok o => rpcMail c (.ok o)
  | _ => []

theorem rpcSim_run {mine : Int → Bool} {ours : String → Bool} {fl : List Bool} :
    ∀ (ops : List Op) (t t' : Table) (n : Nat), RpcSim mine ours fl t t' n → (∀ op ∈ ops, rpcApart mine ours op) → Fair mine t ops →
    fl.drop n = rpcFlags mine ours t ops →
    t'.answers ((ops.filter (rpcMine mine ours)).map (rpcIds (rho fl))) =
      ((ops.zip (t.answers ops)).filter fun e => rpcMine mine ours e.1).map (fun e => e.2.map (rpcOutIds (rho fl))) ∧
    ∀ c, mine c = true → (ops.zip (t.answers ops)).flatMap (fun e => rpcTableMail c e.2) =
      ((ops.zip (t.answers ops)).filter fun e => rpcMine mine ours e.1).flatMap fun e => rpcTableMail c e.2
  | [], _, _, _, _, _, _, _ => ⟨rfl, fun _ _ => rfl⟩
  | op :: ops, t, t', n, h, ha, hfair, hfl => by
    have hd : ∀ b, rpcMine mine ours op = b → rpcDraws t op = true → fl[n]? = some b := by
      intro b hb hdr
      rw [rpcFlags, if_pos hdr, hb] at hfl
      have := congrArg (fun l => l[0]?) hfl
      simpa using this
    have hrest : fl.drop (n + if rpcDraws t op then 1 else 0) = rpcFlags mine ours (t.step op).1 ops := by
      rw [← List.drop_drop, hfl, rpcFlags]
      cases rpcDraws t op <;> simp
    rw [Table.answers, List.zip_cons_cons]
    cases hm : rpcMine mine ours op
    · have hs := rpcSim_other h op hm (ha op (by simp)) hfair.1 (hd false hm)
      obtain ⟨i1, i2⟩ := rpcSim_run ops _ _ _ hs (fun o ho => ha o (by simp [ho])) hfair.2 hrest
      rw [List.filter_cons_of_neg (by simp [hm]), List.filter_cons_of_neg (by simp [hm])]
      refine ⟨i1, fun c hc => ?_⟩
      rw [List.flatMap_cons, i2 c hc]
      have : rpcTableMail c (t.step op).2 = [] := by
        cases ho : (t.step op).2 with
        | error e => rfl
        | ok o => exact rpcOther_quiet h op hm (ha op (by simp)) hfair.1 o ho c hc
      rw [this]; rfl
    · obtain ⟨ho, hs⟩ := rpcSim_mine h op hm (ha op (by simp)) hfair.1 (hd true hm)
      obtain ⟨i1, i2⟩ := rpcSim_run ops _ _ _ hs (fun o ho => ha o (by simp [ho])) hfair.2 hrest
      rw [List.filter_cons_of_pos (by simp [hm]), List.filter_cons_of_pos (by simp [hm]), List.map_cons, List.map_cons, Table.answers, i1, ho]
      exact ⟨rfl, fun c hc => by rw [List.flatMap_cons, List.flatMap_cons, i2 c hc]⟩

theorem pending_step (t : Table) (op : Op) (x : Pending) (hx : x ∈ (t.step op).1.pending) :
    x ∈ t.pending ∨ ∃ i, (t.step op).2 = .ok (.reply ⟨.invocation i, x.callee⟩) ∧ i.requestId.val = x.inv := by
  cases op with
  | addSession d => simp only [Table.step] at hx; split at hx <;> exact .inl hx
  | removeSession s => simp only [Table.step] at hx; split at hx <;> exact .inl hx
  | hasRegistration p => exact .inl hx
  | receiveMessage s m =>
    cases m with
    | register m =>
      simp only [Table.step] at hx
      split at hx
      · split at hx <;> exact .inl hx
      · exact .inl hx
    | unregister m => simp only [Table.step] at hx; split at hx <;> exact .inl hx
    | call m =>
      simp only [Table.step] at hx ⊢
      split at hx
      · exact .inl hx
      · split at hx
        · exact .inl hx
        · rcases List.mem_append.1 hx with hx | hx
          · exact .inl hx
          · rw [List.mem_singleton.1 hx]
            exact .inr ⟨_, rfl, rfl⟩
    | yield_ m =>
      simp only [Table.step] at hx
      split at hx
      · exact .inl hx
      · split at hx
        · exact .inl hx
        · split at hx
          · exact .inl hx
          · split at hx <;> exact .inl (List.mem_filter.1 hx).1
    | error m =>
      by_cases hty : m.messageType.val = 68
      · simp only [Table.step, if_pos hty] at hx
        split at hx
        · exact .inl hx
        · exact .inl (List.mem_filter.1 hx).1
      · simp only [Table.step, if_neg hty] at hx
        exact .inl hx
    | _ => exact .inl hx

theorem pending_run : ∀ (ops : List Op) (t : Table) (x : Pending), x ∈ (ops.foldl (fun t op => (t.step op).1) t).pending →
    x ∈ t.pending ∨ ∃ op i, (op, Except.ok (Out.reply ⟨.invocation i, x.callee⟩)) ∈ ops.zip (t.answers ops) ∧ i.requestId.val = x.inv
  | [], _, _, hx => .inl hx
  | op :: ops, t, x, hx => by
    rw [Table.answers, List.zip_cons_cons]
    rcases pending_run ops _ x hx with h | ⟨op', i, h1, h2⟩
    · rcases pending_step t op x h with h | ⟨i, h1, h2⟩
      · exact .inl h
      · exact .inr ⟨op, i, by simp [h1], h2⟩
    · exact .inr ⟨op', i, by simp [h1], h2⟩

theorem rpcTrace_zip (ops : List Op) (hl : ops.length ≤ 2 ^ 53) :
    (Dealer.trace ops).map (fun e => (e.1, graded e.2)) = ops.zip ((({} : Table).answers ops).map some) := by
  obtain ⟨h1, h2⟩ := Dealer.C80_dealer_is_table ops hl
  rw [← List.zip_map', h1, h2]

theorem graded_ok {e : Except Exc Out} {o : Out} (h : graded e = some (.ok o)) : e = .ok o := by
  unfold graded at h
  split at h <;> cases h
  rfl

theorem fair_of_trace {mine : Int → Bool} (all : List Op) (hl : all.length ≤ 2 ^ 53) (he : ErrorsApart mine all) :
    ∀ (ops before : List Op), all = before ++ ops → Fair mine (tableAfter before) ops
  | [], _, _ => trivial
  | op :: ops, before, e => by
    refine ⟨?_, ?_⟩
    · cases op with
      | receiveMessage s m =>
        cases m with
        | error m =>
          intro hty x hx hi
          rcases pending_run before {} x hx with h | ⟨op', i, h1, h2⟩
          · cases h
          · have hlb : before.length ≤ 2 ^ 53 := by rw [e, List.length_append] at hl; omega
            have hz := rpcTrace_zip before hlb
            have hm : (op', some (Except.ok (Out.reply ⟨.invocation i, x.callee⟩))) ∈ before.zip ((({} : Table).answers before).map some) := by
              rw [List.zip_map_right]
              exact List.mem_map.2 ⟨_, h1, rfl⟩
            rw [← hz] at hm
            obtain ⟨⟨o1, o2⟩, ho, hoe⟩ := List.mem_map.1 hm
            simp only [Prod.mk.injEq] at hoe
            obtain ⟨rfl, hoe⟩ := hoe
            rw [graded_ok hoe] at ho
            exact he before s m ops e hty _ i x.callee ho (by rw [h2, hi])
        | _ => trivial
      | _ => trivial
    · have := fair_of_trace all hl he ops (before ++ [op]) (by rw [e]; simp)
      rwa [tableAfter, List.foldl_append] at this

theorem rpcMail_ids (ρ : Int → Int) (c : Int) (o : Out) : rpcMail c (.ok (rpcOutIds ρ o)) = (rpcMail c (.ok o)).map (ids ρ) := by
  cases o with
  | unit => rfl
  | bool b => rfl
  | reply m => exact mail_ids ρ c m

/-- The same at a dealer, provided nobody answers, with an ERROR, an INVOCATION that was sent to a session of the other side.  That
proviso is missing in the claim: see `C117_dealer_false`. -/
theorem C117_dealer_partial (mine : Int → Bool) (ours : String → Bool) (ops : List Op) (hl : ops.length ≤ 2 ^ 53)
    (ha : ∀ op ∈ ops, rpcApart mine ours op) (he : ErrorsApart mine ops) :
    ∃ ρ, OneToOne ρ ∧
      (Dealer.trace ((ops.filter (rpcMine mine ours)).map (rpcIds ρ))).map (fun e => graded e.2) =
        ((Dealer.trace ops).filter fun e => rpcMine mine ours e.1).map (fun e => (graded e.2).map (·.map (rpcOutIds ρ))) ∧
      ∀ c, mine c = true →
        rpcInbox c (Dealer.trace ((ops.filter (rpcMine mine ours)).map (rpcIds ρ))) = (rpcInbox c (Dealer.trace ops)).map (ids ρ) := by
  have hs : RpcSim mine ours (rpcFlags mine ours {} ops) {} {} 0 :=
    ⟨rfl, rfl, rfl, rfl, (by intro x hx; cases hx), (by intro x hx; cases hx), (by intro x hx; cases hx), (by intro x hx; cases hx), rfl, rfl⟩
  obtain ⟨hr, hq⟩ := rpcSim_run ops _ _ 0 hs ha (fair_of_trace ops hl he ops [] rfl) rfl
  generalize hρ : rho (rpcFlags mine ours {} ops) = ρ at hr
  have hl' : ((ops.filter (rpcMine mine ours)).map (rpcIds ρ)).length ≤ 2 ^ 53 := by
    rw [List.length_map]; exact Nat.le_trans (List.length_filter_le _ _) hl
  have hz := rpcTrace_zip ops hl
  rw [List.zip_map_right] at hz
  have he : (Dealer.trace ((ops.filter (rpcMine mine ours)).map (rpcIds ρ))).map (fun e => graded e.2) =
        ((Dealer.trace ops).filter fun e => rpcMine mine ours e.1).map (fun e => (graded e.2).map (·.map (rpcOutIds ρ))) := by
    rw [(Dealer.C80_dealer_is_table _ hl').2, hr]
    have h2 := congrArg (fun l => (l.filter fun e : Op × _ => rpcMine mine ours e.1).map fun e => e.2.map (·.map (rpcOutIds ρ))) hz
    simp only [List.filter_map, List.map_map] at h2
    rw [List.map_map]
    exact h2.symm
  refine ⟨ρ, hρ ▸ rho_one _, he, fun c hc => ?_⟩
  have hmail : ∀ tr : List Dealer.Obs, rpcInbox c tr = (tr.map (fun e => graded e.2)).flatMap (fun o => (o.map (rpcTableMail c)).getD []) := by
    intro tr
    induction tr with
    | nil => rfl
    | cons e tr ih =>
      rw [List.map_cons, List.flatMap_cons, ← ih, rpcInbox, List.flatMap_cons]
      congr 1
      obtain ⟨e1, e2⟩ := e
      cases e2 with
      | ok o => rfl
      | error x => cases x <;> rfl
  have hq := hq c hc
  have h2 := congrArg (fun l => l.flatMap fun e : Op × Option (Except Failure Out) => (e.2.map (rpcTableMail c)).getD []) hz
  have h3 := congrArg (fun l => (l.filter fun e : Op × _ => rpcMine mine ours e.1).flatMap
    fun e : Op × Option (Except Failure Out) => (e.2.map (rpcTableMail c)).getD []) hz
  simp only [List.filter_map, List.flatMap_map] at h2 h3
  rw [hmail, he, hmail, List.flatMap_map, List.flatMap_map]
  refine Eq.trans ?_ (congrArg (List.map (ids ρ)) (h3.trans (hq.symm.trans h2.symm)))
  rw [List.map_flatMap]
  congr 1
  funext e
  cases hg : graded e.2 with
  | none => rfl
  | some r =>
    cases r with
    | error x => rfl
    | ok o => exact rpcMail_ids ρ c o

/-- The proviso is needed: an ERROR is taken from anybody (C34), so a session of another application can end a call that is none of
its business, and the caller is told so. -/
theorem C117_dealer_false : ¬ ∀ (mine : Int → Bool) (ours : String → Bool) (ops : List Op), ops.length ≤ 2 ^ 53 →
    (∀ op ∈ ops, rpcApart mine ours op) → ∃ ρ, OneToOne ρ ∧ ∀ c, mine c = true →
      rpcInbox c (Dealer.trace ((ops.filter (rpcMine mine ours)).map (rpcIds ρ))) = (rpcInbox c (Dealer.trace ops)).map (ids ρ) := by
  intro h
  obtain ⟨ρ, -, h⟩ := h (· ≠ 3) (· = "a")
    [.addSession { sessionId := .int 1, realm := "r" }, .addSession { sessionId := .int 2, realm := "r" },
     .addSession { sessionId := .int 3, realm := "r" }, .receiveMessage 1 (.register { requestId := .int 1, procedure := "a" }),
     .receiveMessage 2 (.call { requestId := .int 5, procedure := "a" }),
     .receiveMessage 3 (.error { messageType := .int 68, requestId := .int 2, uri := "no" })] (by decide)
    (by
      intro op hop
      simp only [List.mem_cons, List.not_mem_nil, or_false] at hop
      rcases hop with rfl | rfl | rfl | rfl | rfl | rfl <;> first | rfl | trivial)
  have h := congrArg List.length (h 2 (by decide))
  rw [List.length_map] at h
  revert h
  show ¬ (rpcInbox 2 (Dealer.trace
    [.addSession { sessionId := .int 1, realm := "r" }, .addSession { sessionId := .int 2, realm := "r" },
     .receiveMessage 1 (.register { requestId := .int 1, procedure := "a" }),
     .receiveMessage 2 (.call { requestId := .int 5, procedure := "a" })])).length = _
  decide

/-! Two applications that do meet the hypotheses: sessions 1 and 2 use `a`, session 3 uses `b`, and all three register, call and
answer.  Session 1 is given the ids 2 and 4; alone it would have got 1 and 2. -/

private def shared : List Op :=
  [.addSession { sessionId := .int 1, realm := "r" }, .addSession { sessionId := .int 2, realm := "r" },
   .addSession { sessionId := .int 3, realm := "r" }, .receiveMessage 3 (.register { requestId := .int 1, procedure := "b" }),
   .receiveMessage 1 (.register { requestId := .int 1, procedure := "a" }),
   .receiveMessage 3 (.call { requestId := .int 9, procedure := "b" }),
   .receiveMessage 2 (.call { requestId := .int 5, procedure := "a" }),
   .receiveMessage 3 (.error { messageType := .int 68, requestId := .int 3, uri := "no" }),
   .receiveMessage 1 (.yield_ { requestId := .int 4 })]

example : (∀ op ∈ shared, rpcApart (· ≠ 3) (· = "a") op) := by
  intro op hop
  simp only [shared, List.mem_cons, List.not_mem_nil, or_false] at hop
  rcases hop with rfl | rfl | rfl | rfl | rfl | rfl | rfl | rfl | rfl <;> first | rfl | trivial

example : rpcInbox 1 (Dealer.trace shared) =
      [.registered ⟨.int 1, .int 2⟩, .invocation { requestId := .int 4, registrationId := .int 2 }] ∧
    rpcInbox 2 (Dealer.trace shared) = [.result { requestId := .int 5 }] ∧
    rpcInbox 3 (Dealer.trace shared) =
      [.registered ⟨.int 1, .int 1⟩, .invocation { requestId := .int 3, registrationId := .int 1 },
       .error { messageType := .int 48, requestId := .int 9, uri := "no" }] := by decide +kernel

private def ρ (n : Int) : Int := if n = 2 then 1 else if n = 4 then 2 else n + 9

example : rpcInbox 1 (Dealer.trace ((shared.filter (rpcMine (· ≠ 3) (· = "a"))).map (rpcIds ρ))) =
      [.registered ⟨.int 1, .int 1⟩, .invocation { requestId := .int 2, registrationId := .int 1 }] ∧
    rpcInbox 2 (Dealer.trace ((shared.filter (rpcMine (· ≠ 3) (· = "a"))).map (rpcIds ρ))) = [.result { requestId := .int 5 }] := by
  decide +kernel

example : ErrorsApart (· ≠ 3) shared := by
  intro before s m later e hty op i c ho hi
  have hb : before = shared.take before.length := by rw [e]; simp
  have hx : shared[before.length]? = some (.receiveMessage s (.error m)) := by rw [e]; simp
  have h7 : before.length = 7 := by
    have : before.length < 9 := by
      have := congrArg List.length e
      simp [shared] at this; omega
    generalize before.length = k at this hx
    match k, this, hx with
    | 0, _, hx | 1, _, hx | 2, _, hx | 3, _, hx | 4, _, hx | 5, _, hx | 6, _, hx | 8, _, hx => simp [shared] at hx
    | 7, _, _ => rfl
  rw [h7] at hb hx
  have hm : s = 3 ∧ m = { messageType := .int 68, requestId := .int 3, uri := "no" } := by
    simp [shared] at hx; exact ⟨hx.1.symm, hx.2.symm⟩
  obtain ⟨rfl, rfl⟩ := hm
  rw [hb] at ho
  have hall : (Dealer.trace (shared.take 7)).all (fun e => match e.2 with
      | .ok (.reply ⟨.invocation i, c⟩) => i.requestId.val != 3 || c == 3
      | _ => true) = true := by decide +kernel
  have h1 := List.all_eq_true.1 hall _ ho
  have h2 : i.requestId.val = 3 := hi
  simp only [h2] at h1
  have h3 : c = 3 := by simpa using h1
  rw [h3]

end

end Wamp.Spec.Tenants
