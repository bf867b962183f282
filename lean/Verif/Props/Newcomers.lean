import Verif.Spec.Newcomers
import Verif.Props.Neighbours
import Verif.Props.AsNew
import Verif.Props.Departed

/-!
# C134: newcomers cannot tell that anybody was there
-/

namespace Wamp.Spec.Newcomers
open Wamp.Spec.Net Wamp.Spec.Naming Wamp.Spec.Tenants Wamp.Spec.Neighbours
variable {W : Type}

/-! ## Who has to do with the dealer -/

section
open Wamp.Spec.Rpc (Table Reg Pending Mark Failure)
open Wamp.Dealer (Op Out graded tableAfter)

/-- Everybody the table mentions is of the kind. -/
structure Only (P : Int → Prop) (t : Table) : Prop where
  held : ∀ x ∈ t.held, P x.session
  caller : ∀ x ∈ t.pending, P x.caller
  callee : ∀ x ∈ t.pending, P x.callee
  marks : ∀ x ∈ t.marks, P x.caller

theorem only_step {P : Int → Prop} {t : Table} (h : Only P t) (op : Op) (hop : ∀ s m, op = .receiveMessage s m → P s) : Only P (t.step op).1 := by
  cases op with
  | addSession d => simp only [Table.step]; split <;> exact ⟨h.held, h.caller, h.callee, h.marks⟩
  | removeSession s =>
    simp only [Table.step]
    split
    · exact ⟨fun x hx => h.held x (List.mem_filter.1 hx).1, h.caller, h.callee, h.marks⟩
    · exact h
  | hasRegistration p => exact h
  | receiveMessage s m =>
    have hs := hop s m rfl
    cases m with
    | register m =>
      simp only [Table.step]
      split
      · split
        · exact h
        · refine ⟨fun x hx => ?_, h.caller, h.callee, h.marks⟩
          rcases List.mem_append.1 hx with hx | hx
          · exact h.held x hx
          · rw [List.mem_singleton.1 hx]; exact hs
      · exact h
    | unregister m =>
      simp only [Table.step]
      split
      · exact ⟨fun x hx => h.held x (List.mem_filter.1 hx).1, h.caller, h.callee, h.marks⟩
      · exact h
    | call m =>
      simp only [Table.step]
      split
      · exact h
      · rename_i x hf
        split
        · exact h
        · refine ⟨h.held, fun y hy => ?_, fun y hy => ?_, fun y hy => ?_⟩
          · rcases List.mem_append.1 hy with hy | hy
            · exact h.caller y hy
            · rw [List.mem_singleton.1 hy]; exact hs
          · rcases List.mem_append.1 hy with hy | hy
            · exact h.callee y hy
            · rw [List.mem_singleton.1 hy]; exact h.held x (List.mem_of_find?_eq_some hf)
          · rcases List.mem_append.1 hy with hy | hy
            · exact h.marks y (List.mem_filter.1 hy).1
            · rw [List.mem_singleton.1 hy]; exact hs
    | yield_ m =>
      simp only [Table.step]
      split
      · exact h
      · split
        · exact h
        · split
          · exact h
          · split
            · exact ⟨h.held, fun y hy => h.caller y (List.mem_filter.1 hy).1, fun y hy => h.callee y (List.mem_filter.1 hy).1, h.marks⟩
            · exact ⟨h.held, fun y hy => h.caller y (List.mem_filter.1 hy).1, fun y hy => h.callee y (List.mem_filter.1 hy).1,
                fun y hy => h.marks y (List.mem_filter.1 hy).1⟩
    | error m =>
      simp only [Table.step]
      split
      · exact h
      · exact ⟨h.held, fun y hy => h.caller y (List.mem_filter.1 hy).1, fun y hy => h.callee y (List.mem_filter.1 hy).1, h.marks⟩
    | _ => exact h

theorem only_after {P : Int → Prop} (ops : List Op) (hop : ∀ s m, .receiveMessage s m ∈ ops → P s) : Only P (tableAfter ops) := by
  have : ∀ (ops : List Op) (t : Table), Only P t → (∀ s m, .receiveMessage s m ∈ ops → P s) →
      Only P (ops.foldl (fun t op => (t.step op).1) t) := by
    intro ops
    induction ops with
    | nil => intro t h _; exact h
    | cons a ops ih =>
      intro t h hop
      exact ih _ (only_step h a fun s m e => hop s m (e ▸ List.mem_cons_self)) fun s m hm => hop s m (List.mem_cons_of_mem _ hm)
  exact this ops {} ⟨nofun, nofun, nofun, nofun⟩ hop

/-- Who is connected after all had left has joined since. -/
theorem known_since {old : List Op} (h : (Rpc.view (Dealer.trace old)).known = []) (more : List Op) :
    ∀ s ∈ (Rpc.view (Dealer.trace (old ++ more))).known, ∃ d, .addSession d ∈ more ∧ d.sessionId.val = s := by
  induction more using snoc_induction with
  | nil => intro s hs; rw [List.append_nil, h] at hs; cases hs
  | snoc more op ih =>
    intro s hs
    rw [← List.append_assoc, Dealer.trace_snoc, Dealer.view_snoc] at hs
    have keep : s ∈ (Rpc.view (Dealer.trace (old ++ more))).known → ∃ d, .addSession d ∈ more ++ [op] ∧ d.sessionId.val = s := by
      intro h
      obtain ⟨d, h1, h2⟩ := ih s h
      exact ⟨d, List.mem_append_left _ h1, h2⟩
    revert hs
    generalize ((Dealer.after (old ++ more)).step op).2 = r
    unfold Rpc.View.next
    split
    · rename_i d _ _ e
      obtain ⟨rfl, -⟩ := Prod.mk.inj e
      intro hs
      rcases List.mem_append.1 hs with hs | hs
      · exact keep hs
      · exact ⟨_, List.mem_append_right _ (List.mem_singleton.2 rfl), (List.mem_singleton.1 hs).symm⟩
    · intro hs; exact keep (List.mem_filter.1 hs).1
    all_goals (try split)
    all_goals exact keep

/-- Before and after. -/
structure Split (mine : Int → Bool) (old later : List Op) : Prop where
  gone : (Rpc.view (Dealer.trace old)).known = []
  old : ∀ op ∈ old, rpcMine mine (fun _ => true) op = false
  later : ∀ op ∈ later, rpcMine mine (fun _ => true) op = true

theorem split_side {mine : Int → Bool} {old later : List Op} (h : Split mine old later) (hl : (old ++ later).length ≤ 2 ^ 53)
    {s : Int} {m : Call} {i : Invocation} {q : Int}
    (he : (.receiveMessage s (.call m), Except.ok (Out.reply ⟨.invocation i, q⟩)) ∈ Dealer.trace (old ++ later)) : mine s = mine q := by
  obtain ⟨pre, post, e1, e2⟩ := mem_dealerTrace he
  have hd : (Rpc.view (Dealer.trace pre)).drawn < 2 ^ 53 := by
    have := congrArg List.length e1
    simp only [List.length_append, List.length_cons] at this hl
    exact Nat.lt_of_le_of_lt (Dealer.drawn_le_length pre) (by omega)
  have hk := Dealer.C86_invocation_partial pre hd _ i q e2.symm
  rcases List.append_eq_append_iff.1 e1 with ⟨l, e3, e4⟩ | ⟨l, e3, e4⟩
  · -- in the second part
    rw [e3] at hk
    obtain ⟨d, h1, h2⟩ := known_since h.gone l q hk
    have a := h.later (.addSession d) (by rw [e4]; exact List.mem_append_left _ h1)
    have b := h.later (.receiveMessage s (.call m)) (by rw [e4]; simp)
    simp only [rpcMine] at a b
    rw [b, ← h2, a]
  · cases l with
    | nil =>
      rw [List.append_nil] at e3
      rw [← e3, h.gone] at hk; cases hk
    | cons x l =>
      obtain ⟨rfl, e5⟩ := List.cons.inj e4
      have := known_since (old := []) rfl pre q hk
      obtain ⟨d, h1, h2⟩ := this
      have a := h.old (.addSession d) (by rw [e3]; exact List.mem_append_left _ h1)
      have b := h.old (.receiveMessage s (.call m)) (by rw [e3]; simp)
      simp only [rpcMine] at a b
      rw [b, ← h2, a]

theorem split_errors {mine : Int → Bool} {ops : List Op} (hl : ops.length ≤ 2 ^ 53)
    (hs : ∀ s m i q, (.receiveMessage s (.call m), Except.ok (Out.reply ⟨.invocation i, q⟩)) ∈ Dealer.trace ops → mine s = mine q)
    (ho : ErrorsOwn ops) : ErrorsApart mine ops := by
  intro b s m l e ht op i q hm hid
  have hlb : b.length < 2 ^ 53 := by
    have := congrArg List.length e
    simp only [List.length_append, List.length_cons] at this; omega
  have grow : ∀ x, x ∈ Dealer.trace b → x ∈ Dealer.trace ops := fun x hx => by rw [e]; exact dealerTrace_mono hx
  obtain ⟨op0, i0, h0, hid0⟩ := ho b s m l e ht
  obtain ⟨s0, m0, rfl, x0, hx0, a1, a2⟩ := invoker (Nat.le_of_lt hlb) h0
  obtain ⟨s1, m1, rfl, x1, hx1, b1, b2⟩ := invoker (Nat.le_of_lt hlb) hm
  have hd : (Rpc.view (Dealer.trace b)).drawn < 2 ^ 53 := Nat.lt_of_le_of_lt (Dealer.drawn_le_length b) hlb
  have := (Dealer.rel_after b hd).2.inj x0 hx0 x1 hx1 (by rw [a1, b1, hid0, hid])
  have hss : s0 = s1 := by rw [← a2, ← b2, this]
  rw [← hs _ _ _ _ (grow _ h0), ← hs _ _ _ _ (grow _ hm), hss]

/-- A dealer everybody has left is as good as new to those who come later, whatever is left behind. -/
theorem dealer_strangers {mine : Int → Bool} {ops later : List Op} (h : Split mine ops later) (hl : (ops ++ later).length ≤ 2 ^ 53)
    (ho : ErrorsOwn (ops ++ later)) : ∃ ρ, OneToOne ρ ∧
    ({} : Table).answers (later.map (rpcIds ρ)) = ((tableAfter ops).answers later).map (·.map (rpcOutIds ρ)) := by
  by_cases hne : later = []
  · subst hne; exact ⟨id, fun _ _ h => h, rfl⟩
  have hlo' : ops.length < 2 ^ 53 := by
    have := List.length_pos_iff.2 hne
    rw [List.length_append] at hl; omega
  have hlo : ops.length ≤ 2 ^ 53 := Nat.le_of_lt hlo'
  have hsim := Dealer.sim_after ops hlo
  have hfair := fair_of_trace (ops ++ later) hl (split_errors hl (fun s m i q => split_side h hl) ho) later ops rfl
  have hk : (tableAfter ops).known = [] := by rw [hsim.known]; exact h.gone
  have hh : (tableAfter ops).held = [] := by
    have := AsNew.rpc_held_known ops
    cases hx : (tableAfter ops).held with
    | nil => rfl
    | cons x l =>
      have := this x (by rw [hx]; simp)
      rw [hk] at this; cases this
  have ha : Only (fun s => mine s = false) (tableAfter ops) := only_after ops fun s m hm => h.old _ hm
  have hn : (tableAfter ops).next = ((Rpc.view (Dealer.trace ops)).drawn : Int) + 1 := hsim.next
  have none : ∀ {α : Type} (p : α → Bool) (f : α → α) (l : List α), (∀ x ∈ l, p x = false) → part p f l = [] := by
    intro α p f l hp
    unfold part
    rw [List.filter_eq_nil_iff.2 (fun x hx => by rw [hp x hx]; exact Bool.false_ne_true)]; rfl
  have hrel := (Dealer.rel_after ops (Nat.lt_of_le_of_lt (Dealer.drawn_le_length ops) hlo')).2
  have hu : ∀ x ∈ (tableAfter ops).pending, ∀ y ∈ (tableAfter ops).pending, x.inv = y.inv → x = y := by
    rw [hsim.pending]; exact fun x hx y hy => hrel.inj x (hrel.sub x hx) y (hrel.sub y hy)
  have hol : ∀ x ∈ (tableAfter ops).pending, x.inv < (tableAfter ops).next := by
    rw [hsim.pending, hn]
    intro x hx
    have := hrel.range x (hrel.sub x hx)
    omega
  generalize (Rpc.view (Dealer.trace ops)).drawn = n at hn
  let fl := List.replicate n false ++ rpcFlags mine (fun _ => true) (tableAfter ops) later
  have hs : RpcSim mine (fun _ => true) fl (tableAfter ops) {} n := by
    refine ⟨?_, ?_, ?_, ?_, ?_, fun x hx => (ha.caller x hx).trans (ha.callee x hx).symm, hu, hol, hn, ?_⟩
    · rw [hk]; rfl
    · rw [hh]; rfl
    · exact (none _ _ _ ha.caller).symm
    · exact (none _ _ _ ha.marks).symm
    · rw [hh]; intro x hx; cases hx
    · have : rank fl n = 0 := by simp [rank, fl]
      rw [this]; rfl
  have hap : ∀ op ∈ later, rpcApart mine (fun _ => true) op := by
    intro op hop
    have := h.later op hop
    cases op with
    | receiveMessage s m => cases m <;> first | exact this | trivial
    | _ => trivial
  have hr := (rpcSim_run later _ _ n hs hap hfair (by simp [fl])).1
  refine ⟨rho fl, rho_one fl, ?_⟩
  have hall : later.filter (rpcMine mine (fun _ => true)) = later := by
    rw [List.filter_eq_self]; exact h.later
  have hz : ((later.zip ((tableAfter ops).answers later)).filter fun e => rpcMine mine (fun _ => true) e.1) =
      later.zip ((tableAfter ops).answers later) := by
    rw [List.filter_eq_self]; intro e he; exact h.later e.1 (List.of_mem_zip he).1
  rw [hall, hz] at hr
  rw [hr]
  have : (later.zip ((tableAfter ops).answers later)).map Prod.snd = (tableAfter ops).answers later :=
    List.map_snd_zip (Nat.le_of_eq (AsNew.rpc_answers_length _ _))
  conv => rhs; rw [← this]
  rw [List.map_map]; rfl

theorem graded_outcome (ops : List Op) (op : Op) (hl : ops.length < 2 ^ 53) :
    graded (Dealer.outcome ops op) = some ((tableAfter ops).step op).2 := by
  have h := (Dealer.C80_dealer_is_table (ops ++ [op]) (by simp only [List.length_append, List.length_cons, List.length_nil]; omega)).2
  rw [Dealer.trace_snoc, AsNew.rpc_answers_append, List.map_append, List.map_append] at h
  have := (List.append_inj' h rfl).2
  simp only [Table.answers, List.map_cons, List.map_nil] at this
  exact (List.cons.inj this).1

theorem option_of_graded {r r' : Except Exc Out} {f : Out → Out} {x : Except Failure Out} (h : graded r = some x)
    (h' : graded r' = some (x.map f)) : r'.toOption = r.toOption.map f := by
  rw [graded_option, graded_option, h, h']
  cases x <;> rfl

theorem dealer_own {mine : Int → Bool} {ops later : List Op} (h : Split mine ops later) (hl : (ops ++ later).length ≤ 2 ^ 53)
    (ho : ErrorsOwn (ops ++ later)) : ∃ σ, OneToOne σ ∧ OwnRpc mine (fun _ => true) σ (ops ++ later) := by
  obtain ⟨σ, h1, h2⟩ := dealer_strangers h hl ho
  refine ⟨σ, h1, fun pre op post e hm => ?_⟩
  have : ∃ l, pre = ops ++ l ∧ later = l ++ op :: post := by
    rcases List.append_eq_append_iff.1 e with ⟨l, e3, e4⟩ | ⟨l, e3, e4⟩
    · exact ⟨l, e3, e4⟩
    · cases l with
      | nil => rw [List.append_nil] at e3; exact ⟨[], by rw [e3, List.append_nil], e4.symm⟩
      | cons x l =>
        obtain ⟨rfl, e5⟩ := List.cons.inj e4
        have := h.old op (by rw [e3]; simp)
        rw [hm] at this; cases this
  obtain ⟨l, rfl, rfl⟩ := this
  have hf : (ops ++ l).filter (rpcMine mine fun _ => true) = l := by
    rw [List.filter_append, List.filter_eq_nil_iff.2 (fun x hx => by rw [h.old x hx]; exact Bool.false_ne_true), List.nil_append,
      List.filter_eq_self]
    exact fun x hx => h.later x (List.mem_append_left _ hx)
  rw [hf]
  rw [List.map_append, List.map_cons, AsNew.rpc_answers_append, AsNew.rpc_answers_append, List.map_append] at h2
  have h3 := (List.append_inj h2 (by rw [List.length_map, AsNew.rpc_answers_length, AsNew.rpc_answers_length, List.length_map])).2
  simp only [Table.answers, List.map_cons] at h3
  have h4 := (List.cons.inj h3).1
  simp only [List.length_append, List.length_cons] at hl
  refine option_of_graded (graded_outcome (ops ++ l) op (by rw [List.length_append]; omega)) ?_
  rw [graded_outcome (l.map (rpcIds σ)) (rpcIds σ op) (by rw [List.length_map]; omega)]
  refine congrArg some ?_
  rw [show tableAfter (ops ++ l) = l.foldl (fun t op => (t.step op).1) (tableAfter ops) by rw [tableAfter, List.foldl_append]; rfl]
  exact h4

end

/-! ## The broker -/

section
open Wamp.Broker (Op Out)

theorem broker_own {mine : Int → Bool} {ops later : List Op} (hk : (Pub.view (Broker.trace ops)).known = [])
    (h1 : ∀ op ∈ ops, pubMine mine (fun _ => true) op = false) (h2 : ∀ op ∈ later, pubMine mine (fun _ => true) op = true)
    (hl : (ops ++ later).length ≤ 2 ^ 53) : ∃ ρ, OneToOne ρ ∧ OwnPub mine (fun _ => true) ρ (ops ++ later) := by
  obtain ⟨ρ, hρ, he⟩ := AsNew.C118_broker ops hk later hl
  refine ⟨ρ, hρ, fun pre op post e hm => ?_⟩
  have : ∃ l, pre = ops ++ l ∧ later = l ++ op :: post := by
    rcases List.append_eq_append_iff.1 e with ⟨l, e3, e4⟩ | ⟨l, e3, e4⟩
    · exact ⟨l, e3, e4⟩
    · cases l with
      | nil => rw [List.append_nil] at e3; exact ⟨[], by rw [e3, List.append_nil], e4.symm⟩
      | cons x l =>
        obtain ⟨rfl, e5⟩ := List.cons.inj e4
        have := h1 op (by rw [e3]; simp)
        rw [hm] at this; cases this
  obtain ⟨l, rfl, rfl⟩ := this
  have hf : (ops ++ l).filter (pubMine mine fun _ => true) = l := by
    rw [List.filter_append, List.filter_eq_nil_iff.2 (fun x hx => by rw [h1 x hx]; exact Bool.false_ne_true), List.nil_append,
      List.filter_eq_self]
    exact fun x hx => h2 x (List.mem_append_left _ hx)
  rw [hf]
  have len : ∀ l : List Op, (Broker.trace l).length = l.length := fun l => by
    conv => rhs; rw [← trace_ops l]
    rw [List.length_map]
  obtain ⟨tr, ht⟩ := trace_at (ops ++ l) op post
  obtain ⟨tr', ht'⟩ := trace_at (l.map (pubIds ρ)) (pubIds ρ op) (post.map (pubIds ρ))
  rw [← List.append_assoc, List.map_append, List.map_cons, ht', ht, List.drop_append_of_le_length (by rw [len, List.length_append]; omega)] at he
  simp only [List.map_append, List.map_cons] at he
  have := (List.append_inj he (by rw [List.length_map, List.length_map, len, List.length_map, List.length_drop, len, List.length_append]; omega)).2
  exact (List.cons.inj this).1

end

/-! ## The network -/

/-- What an action adds to what the router was asked to do. -/
theorem step_adds (c : Codec W) (n : Net W) (a : Act) :
    ((n.step c a).broker = n.broker ∨ ∃ op, (n.step c a).broker = n.broker ++ [op] ∧ ∀ mine, pubMine mine (fun _ => true) op = mine (actor a)) ∧
    ((n.step c a).dealer = n.dealer ∨ ∃ op, (n.step c a).dealer = n.dealer ++ [op] ∧ ∀ mine, rpcMine mine (fun _ => true) op = mine (actor a)) := by
  have same : ∀ n' : Net W, n'.broker = n.broker → n'.dealer = n.dealer →
      (n'.broker = n.broker ∨ ∃ op, n'.broker = n.broker ++ [op] ∧ ∀ mine, pubMine mine (fun _ => true) op = mine (actor a)) ∧
      (n'.dealer = n.dealer ∨ ∃ op, n'.dealer = n.dealer ++ [op] ∧ ∀ mine, rpcMine mine (fun _ => true) op = mine (actor a)) :=
    fun n' h1 h2 => ⟨.inl h1, .inl h2⟩
  cases a with
  | join d =>
    have e1 : (n.step c (.join d)).broker = n.broker ++ [.addSession d] := by simp only [Net.step]; split <;> rfl
    have e2 : (n.step c (.join d)).dealer = n.dealer ++ [.addSession d] := by simp only [Net.step]; split <;> rfl
    exact ⟨.inr ⟨_, e1, fun _ => rfl⟩, .inr ⟨_, e2, fun _ => rfl⟩⟩
  | leave s => exact ⟨.inr ⟨.removeSession s, rfl, fun _ => rfl⟩, .inr ⟨.removeSession s, rfl, fun _ => rfl⟩⟩
  | send s m => simp only [Net.step]; split <;> exact same _ rfl rfl
  | deliver s =>
    simp only [Net.step]; split
    · exact same _ rfl rfl
    · split <;> exact same _ rfl rfl
  | route s =>
    simp only [Net.step]; split
    · exact same _ rfl rfl
    · split
      · exact same _ rfl rfl
      · simp only [Net.handle]
        split
        · rename_i op he
          exact ⟨.inr ⟨op, rfl, fun _ => brokerCall_mine he⟩, .inl rfl⟩
        · rename_i op _ he
          exact ⟨.inl rfl, .inr ⟨op, rfl, fun _ => dealerCall_mine he⟩⟩
        · exact same _ rfl rfl

/-- The router is asked to do something only about those who do something. -/
theorem asked_since (c : Codec W) (old later : List Act) :
    (∃ z, (run c (old ++ later)).broker = (run c old).broker ++ z ∧ z.length ≤ later.length ∧ ∀ op ∈ z, ∃ a ∈ later, ∀ mine, pubMine mine (fun _ => true) op = mine (actor a)) ∧
    (∃ z, (run c (old ++ later)).dealer = (run c old).dealer ++ z ∧ z.length ≤ later.length ∧ ∀ op ∈ z, ∃ a ∈ later, ∀ mine, rpcMine mine (fun _ => true) op = mine (actor a)) := by
  induction later using snoc_induction with
  | nil => exact ⟨⟨[], by simp, Nat.le_refl _, nofun⟩, [], by simp, Nat.le_refl _, nofun⟩
  | snoc later a ih =>
    obtain ⟨⟨z, h1, h2, h3⟩, z', k1, k2, k3⟩ := ih
    rw [← List.append_assoc, run_snoc]
    obtain ⟨g1, g2⟩ := step_adds c (run c (old ++ later)) a
    constructor
    · rcases g1 with g1 | ⟨op, g1, g2⟩
      · refine ⟨z, g1.trans h1, by rw [List.length_append]; omega, fun op hop => ?_⟩
        obtain ⟨b, hb, hm⟩ := h3 op hop
        exact ⟨b, List.mem_append_left _ hb, hm⟩
      · refine ⟨z ++ [op], by rw [g1, h1, List.append_assoc], by simp only [List.length_append, List.length_cons, List.length_nil]; omega, fun op' hop => ?_⟩
        rcases List.mem_append.1 hop with hop | hop
        · obtain ⟨b, hb, hm⟩ := h3 op' hop
          exact ⟨b, List.mem_append_left _ hb, hm⟩
        · rw [List.mem_singleton.1 hop]
          exact ⟨a, List.mem_append_right _ (List.mem_singleton.2 rfl), g2⟩
    · rcases g2 with g1 | ⟨op, g1, g2⟩
      · refine ⟨z', g1.trans k1, by rw [List.length_append]; omega, fun op hop => ?_⟩
        obtain ⟨b, hb, hm⟩ := k3 op hop
        exact ⟨b, List.mem_append_left _ hb, hm⟩
      · refine ⟨z' ++ [op], by rw [g1, k1, List.append_assoc], by simp only [List.length_append, List.length_cons, List.length_nil]; omega, fun op' hop => ?_⟩
        rcases List.mem_append.1 hop with hop | hop
        · obtain ⟨b, hb, hm⟩ := k3 op' hop
          exact ⟨b, List.mem_append_left _ hb, hm⟩
        · rw [List.mem_singleton.1 hop]
          exact ⟨a, List.mem_append_right _ (List.mem_singleton.2 rfl), g2⟩

theorem actMine_actor (mine : Int → Bool) (a : Act) : actMine mine a = mine (actor a) := by cases a <;> rfl

theorem stays_none (c : Codec W) (n : Net W) (a : Act) {s : Int} (hs : actor a ≠ s) (h : n.conns s = none) : (n.step c a).conns s = none := by
  have set : ∀ (n : Net W) s' k, s' ≠ s → n.conns s = none → (n.setConn s' k).conns s = none := by
    intro n s' k hne h
    rw [setConn_conns, if_neg (fun e => hne e.symm)]; exact h
  cases a with
  | join d => simp only [Net.step]; split <;> first | exact set _ _ _ hs h | exact h
  | leave s' => exact set _ _ _ hs h
  | send s' m => simp only [Net.step]; split <;> first | exact h | exact set _ _ _ hs h
  | deliver s' =>
    simp only [Net.step]; split
    · exact h
    · split <;> first | exact h | exact set _ _ _ hs h
  | route s' =>
    simp only [Net.step]; split
    · exact h
    · split
      · exact h
      · rename_i k _ _ m rest _
        have := set n s' (some { k with up := rest }) hs h
        simp only [Net.handle]
        split
        · rw [conns_push, this]; rfl
        · rw [conns_push, this]; rfl
        · exact this

/-- Newcomers cannot tell that anybody was there: once everybody has left, those who come later, under session ids of their own, see at every
moment what they would see in a network that was just started, and the same is on its way to them and from them, but for the ids the router
draws.  Calls that were in progress when the others left make no difference, and neither does whatever else the dealer keeps. -/
theorem C134_newcomers {c : Codec W} (hc : ∀ m, ∃ w, c.serialize m = .ok w) (old later : List Act) (hl : (old ++ later).length ≤ 2 ^ 53)
    (hgone : ∀ s, (run c old).conns s = none) (hs : Strangers old later) (he : ErrorsAnswer c (old ++ later)) :
    ∃ ρ σ, OneToOne ρ ∧ OneToOne σ ∧ ∀ pre post, later = pre ++ post → ∀ s,
      Same c ρ σ ((run c (old ++ pre)).conns s) ((run c (elsewhere ρ σ pre)).conns s) := by
  let mine : Int → Bool := fun s => !old.any fun a => actor a = s
  have ho : ∀ a ∈ old, mine (actor a) = false := by
    intro a ha
    simp only [mine, Bool.not_eq_false', List.any_eq_true, decide_eq_true_eq]
    exact ⟨a, ha, rfl⟩
  have hn : ∀ a ∈ later, mine (actor a) = true := by
    intro a ha
    simp only [mine, Bool.not_eq_true', List.any_eq_false, decide_eq_true_eq]
    exact fun b hb => hs b hb a ha
  obtain ⟨⟨zb, b1, b2, b3⟩, zd, d1, d2, d3⟩ := asked_since c [] old
  rw [List.nil_append] at b1 d1
  change _ = [] ++ zb at b1
  change _ = [] ++ zd at d1
  rw [List.nil_append] at b1 d1
  obtain ⟨⟨yb, e1, e2, e3⟩, yd, f1, f2, f3⟩ := asked_since c old later
  rw [List.length_append] at hl
  have hb1 : ∀ op ∈ (run c old).broker, pubMine mine (fun _ => true) op = false := by
    intro op hop
    obtain ⟨a, ha, hm⟩ := b3 op (b1 ▸ hop)
    rw [hm]; exact ho a ha
  have hb2 : ∀ op ∈ yb, pubMine mine (fun _ => true) op = true := by
    intro op hop
    obtain ⟨a, ha, hm⟩ := e3 op hop
    rw [hm]; exact hn a ha
  have hd1 : ∀ op ∈ (run c old).dealer, rpcMine mine (fun _ => true) op = false := by
    intro op hop
    obtain ⟨a, ha, hm⟩ := d3 op (d1 ▸ hop)
    rw [hm]; exact ho a ha
  have hd2 : ∀ op ∈ yd, rpcMine mine (fun _ => true) op = true := by
    intro op hop
    obtain ⟨a, ha, hm⟩ := f3 op hop
    rw [hm]; exact hn a ha
  have hbase := base_run c old (by omega)
  have nobody : ∀ l : List Int, (∀ s, s ∈ l ↔ ((run c old).conns s).isSome) → l = [] := by
    intro l hl
    cases l with
    | nil => rfl
    | cons s l =>
      have := (hl s).1 List.mem_cons_self
      rw [hgone s] at this; cases this
  obtain ⟨ρ, hρ, hB⟩ := broker_own (nobody _ hbase.bk) hb1 hb2 (by rw [List.length_append, b1]; omega)
  obtain ⟨σ, hσ, hD⟩ := dealer_own ⟨nobody _ hbase.dk, hd1, hd2⟩ (by rw [List.length_append, d1]; omega) (by
    rw [← f1]; exact (informed_run (old ++ later) he).own)
  rw [← e1] at hB
  rw [← f1] at hD
  have main : ∀ pre post, later = pre ++ post →
      Beside c mine (fun _ => true) (fun _ => true) ρ σ (run c (old ++ pre)) (run c (elsewhere ρ σ pre)) ∧
      ∀ s, mine s = false → (run c (old ++ pre)).conns s = none ∧ (run c (elsewhere ρ σ pre)).conns s = none := by
    intro pre
    induction pre using snoc_induction with
    | nil =>
      intro post _
      rw [List.append_nil]
      refine ⟨⟨?_, ?_, fun s _ => ?_⟩, fun s _ => ⟨hgone s, rfl⟩⟩
      · rw [List.filter_eq_nil_iff.2 (fun x hx => by rw [hb1 x hx]; exact Bool.false_ne_true)]; rfl
      · rw [List.filter_eq_nil_iff.2 (fun x hx => by rw [hd1 x hx]; exact Bool.false_ne_true)]; rfl
      · rw [hgone s]; trivial
    | snoc pre a ih =>
      intro post hp
      obtain ⟨i1, i2⟩ := ih (a :: post) (by rw [hp]; simp)
      obtain ⟨hb, hd⟩ := run_grows c (old ++ (pre ++ [a])) post
      have e : old ++ (pre ++ [a]) ++ post = old ++ later := by rw [hp]; simp
      have e' : elsewhere ρ σ (pre ++ [a]) = elsewhere ρ σ pre ++ [actIds ρ σ a] := by simp [elsewhere]
      rw [e, ← List.append_assoc, run_snoc] at hb hd
      rw [← List.append_assoc, run_snoc, e', run_snoc]
      have ha : mine (actor a) = true := hn a (by rw [hp]; simp)
      refine ⟨beside_step hB hD hc hρ hσ i1 a ((actMine_actor _ _).trans ha) hb hd, fun s hs => ?_⟩
      have hne : actor a ≠ s := by rintro rfl; rw [hs] at ha; cases ha
      have hne' : actor (actIds ρ σ a) ≠ s := by
        have : actor (actIds ρ σ a) = actor a := by cases a <;> rfl
        rw [this]; exact hne
      exact ⟨stays_none c _ a hne (i2 s hs).1, stays_none c _ _ hne' (i2 s hs).2⟩
  refine ⟨ρ, σ, hρ, hσ, fun pre post hp s => ?_⟩
  obtain ⟨h1, h2⟩ := main pre post hp
  cases hm : mine s with
  | true => exact same_of_pair (h1.conns s hm)
  | false => rw [(h2 s hm).1, (h2 s hm).2]; trivial

private def handed (s : Int) (sched : List Act) : Option (List Message) :=
  ((run WAMPSession.plainCodec sched).conns s).map fun k => k.calls.filterMap fun | .receiveMessage m => some m | _ => none

/-- Clients 1 and 2 leave; a subscription, a registration and a call in progress are theirs. -/
def before : List Act :=
  [joins 1, joins 2, .send 2 (.subscribe ⟨.int 1, "a", []⟩), .send 2 (.register ⟨.int 2, "a", []⟩), .route 2, .route 2, .deliver 2, .deliver 2,
   .send 1 (.call { requestId := .int 7, procedure := "a", options_ := [(.str "progress", .bool true)] }), .route 1, .leave 2, .leave 1]

/-- Clients 3 and 4 do the same, and finish the call. -/
def afterwards : List Act :=
  [joins 3, joins 4, .send 4 (.subscribe ⟨.int 1, "a", []⟩), .send 4 (.register ⟨.int 2, "a", []⟩), .route 4, .route 4, .deliver 4, .deliver 4,
   .send 3 (.call { requestId := .int 7, procedure := "a", options_ := [(.str "progress", .bool true)] }), .route 3, .deliver 4,
   .send 4 (.yield_ { requestId := .int 4 }), .route 4, .deliver 3]

example : ∀ s, (run WAMPSession.plainCodec before).conns s = none := by
  intro s
  rcases Decidable.em (s = 1) with rfl | h1
  · decide +kernel
  · rcases Decidable.em (s = 2) with rfl | h2
    · decide +kernel
    · have : ∀ sched : List Act, (∀ a ∈ sched, actor a ≠ s) → (run WAMPSession.plainCodec sched).conns s = none := by
        intro sched
        induction sched using snoc_induction with
        | nil => intro _; rfl
        | snoc sched a ih =>
          intro h
          rw [run_snoc]
          exact stays_none _ _ _ (h a (by simp)) (ih fun b hb => h b (by simp [hb]))
      refine this _ fun a ha => ?_
      have : actor a = 1 ∨ actor a = 2 := by revert a ha; decide +kernel
      omega

example : Strangers before afterwards := by unfold Strangers; decide +kernel

example : ErrorsAnswer WAMPSession.plainCodec (before ++ afterwards) := errors_of_errorsB _ _ (by decide +kernel)

/-- What they are handed, after the others and in a new network. -/
example : handed 4 (before ++ afterwards) = some [.subscribed ⟨.int 1, .int 2⟩, .registered ⟨.int 2, .int 3⟩,
      .invocation { requestId := .int 4, registrationId := .int 3, details_ := [(.str "progress", .bool true)] }] ∧
    handed 3 (before ++ afterwards) = some [.result { requestId := .int 7 }] ∧
    handed 4 (elsewhere (· - 1) (· - 2) afterwards) = some [.subscribed ⟨.int 1, .int 1⟩, .registered ⟨.int 2, .int 1⟩,
      .invocation { requestId := .int 2, registrationId := .int 1, details_ := [(.str "progress", .bool true)] }] ∧
    handed 3 (elsewhere (· - 1) (· - 2) afterwards) = some [.result { requestId := .int 7 }] := by
  decide +kernel

/-- Client 1 comes back under its old session id, and makes its call again. -/
def back : List Act :=
  [joins 1, joins 4, .send 4 (.register ⟨.int 2, "a", []⟩), .route 4, .deliver 4,
   .send 1 (.call { requestId := .int 7, procedure := "a", options_ := [(.str "progress", .bool true)] }), .route 1]

/-- Session ids of their own are needed: the dealer takes the call of the one who came back for a continuation of the one it made before, and
refuses the answer. -/
theorem C134_ids_needed : ErrorsAnswer WAMPSession.plainCodec (before ++ (back ++ [.deliver 4, .send 4 (.yield_ { requestId := .int 2 }), .route 4])) ∧
    ¬ ∃ ρ σ, OneToOne ρ ∧ OneToOne σ ∧ ∀ pre post, back ++ [.deliver 4, .send 4 (.yield_ { requestId := .int 2 }), .route 4] = pre ++ post → ∀ s,
      Same WAMPSession.plainCodec ρ σ ((run WAMPSession.plainCodec (before ++ pre)).conns s)
        ((run WAMPSession.plainCodec (elsewhere ρ σ pre)).conns s) := by
  refine ⟨errors_of_errorsB _ _ (by decide +kernel), ?_⟩
  rintro ⟨ρ, σ, -, -, h⟩
  have h1 := h back _ rfl 4
  have h2 := h _ [] (List.append_nil _).symm 1
  have e1 : elsewhere ρ σ back = back := rfl
  have e2 : elsewhere ρ σ (back ++ [.deliver 4, .send 4 (.yield_ { requestId := .int 2 }), .route 4]) =
      back ++ [.deliver 4, .send 4 (.yield_ { requestId := .int (σ 2) }), .route 4] := rfl
  have k1 : ((run WAMPSession.plainCodec (before ++ back)).conns 4).map (fun k => k.down) =
      some [.invocation { requestId := .int 2, registrationId := .int 3, details_ := [(.str "progress", .bool true)] }] := by decide +kernel
  have k2 : ((run WAMPSession.plainCodec back).conns 4).map (fun k => k.down) =
      some [.invocation { requestId := .int 2, registrationId := .int 1, details_ := [(.str "progress", .bool true)] }] := by decide +kernel
  obtain ⟨a, ha, k1⟩ := Option.map_eq_some_iff.1 k1
  obtain ⟨a', ha', k2⟩ := Option.map_eq_some_iff.1 k2
  rw [e1, ha, ha'] at h1
  have hd := h1.2.2
  rw [k1, k2] at hd
  have hσ : σ 2 = 2 := by
    simp only [renamed, Tenants.ids, List.map_cons, List.map_nil, List.cons.injEq, Message.invocation.injEq, Invocation.mk.injEq] at hd
    exact (PyInt.int.inj hd.1.1).symm
  rw [e2, hσ] at h2
  have k1 : ((run WAMPSession.plainCodec (before ++ (back ++ [.deliver 4, .send 4 (.yield_ { requestId := .int 2 }), .route 4]))).conns 1).map
      (fun k => k.down.length) = some 0 := by decide +kernel
  have k2 : ((run WAMPSession.plainCodec (back ++ [.deliver 4, .send 4 (.yield_ { requestId := .int 2 }), .route 4])).conns 1).map
      (fun k => k.down.length) = some 1 := by decide +kernel
  obtain ⟨b, hb, k1⟩ := Option.map_eq_some_iff.1 k1
  obtain ⟨b', hb', k2⟩ := Option.map_eq_some_iff.1 k2
  rw [hb, hb'] at h2
  have := congrArg List.length h2.2.2
  rw [List.length_map, k1, k2] at this
  cases this

end Wamp.Spec.Newcomers
