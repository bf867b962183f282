import Verif.Props.Visitors

/-! # What is undone leaves no trace: C136 -/

namespace Wamp.Spec.Undone
open Wamp.Spec.Present
open Wamp.Spec.Visitors (pairs pairs_subscribe pairs_unsubscribe mem_subscribersOf subscribersOf_pairs)

/-! ## The broker -/

section
open Wamp.Spec.Pub (Table Holding subscribersOf)
open Wamp.Broker (Op Out tableAfter)

theorem pub_step_eq (ops : List Op) (hl : ops.length < 2 ^ 53) (op : Op) : (Broker.outcome ops op).toOption = ((tableAfter ops).step op).2 := by
  rw [(Broker.table_step ops hl op).1, Broker.tableAfter_eq ops (by omega)]

/-- A session that joins and leaves again leaves no trace with the broker. -/
theorem C136_left_broker (ops : List Op) (hl : ops.length + 2 ≤ 2 ^ 53) (d : SessionDetails)
    (h : Broker.outcome ops (.addSession d) = .ok .unit) : Brokers ops (ops ++ [.addSession d, .removeSession d.sessionId.val]) := by
  have hl' : (ops ++ [Op.addSession d, .removeSession d.sessionId.val]).length ≤ 2 ^ 53 := by rw [List.length_append]; exact hl
  have hg := pub_step_eq ops (by omega) (.addSession d)
  rw [h] at hg
  have hk : d.sessionId.val ∉ (tableAfter ops).known := by
    intro hk; simp only [Table.step, if_pos hk] at hg; cases hg
  have hh := AsNew.pub_held_known ops {} (by intro x hx; cases hx)
  have ht : tableAfter (ops ++ [.addSession d, .removeSession d.sessionId.val]) =
      (((tableAfter ops).step (.addSession d)).1.step (.removeSession d.sessionId.val)).1 := by simp [tableAfter]
  have hm : d.sessionId.val ∈ (tableAfter ops).known ++ [d.sessionId.val] := by simp
  simp only [Table.step, if_neg hk, if_pos hm] at ht
  have e1 : ((tableAfter ops).known ++ [d.sessionId.val]).filter (fun x => decide (x ≠ d.sessionId.val)) = (tableAfter ops).known := by
    rw [List.filter_append, List.filter_eq_self.2]
    · simp
    · intro x hx; simp only [ne_eq, decide_not, Bool.not_eq_true', decide_eq_false_iff_not]; rintro rfl; exact hk hx
  have e2 : (tableAfter ops).held.filter (fun x => decide (x.session ≠ d.sessionId.val)) = (tableAfter ops).held := by
    rw [List.filter_eq_self]
    intro x hx; simp only [ne_eq, decide_not, Bool.not_eq_true', decide_eq_false_iff_not]; intro e; exact hk (e ▸ hh x hx)
  rw [e1, e2] at ht
  refine C128_broker _ _ (by omega) hl' (pubSame_of_table (by omega) hl' ?_ ?_) <;> intro x <;> rw [ht]

/-- A subscription that was given up leaves none. -/
theorem C136_unsubscribed (ops : List Op) (hl : ops.length + 2 ≤ 2 ^ 53) (s : Int) (m : Subscribe) (r : Subscribed) (q : Int)
    (h : Broker.outcome ops (.receiveMessage s (.subscribe m)) = .ok (.reply ⟨.subscribed r, q⟩))
    (hn : s ∉ (Pub.view (Broker.trace ops)).subscribers m.topic) (u : Unsubscribe) (hu : u.subscriptionId.val = r.subscriptionId.val) :
    Brokers ops (ops ++ [.receiveMessage s (.subscribe m), .receiveMessage s (.unsubscribe u)]) := by
  have hl' : (ops ++ [Op.receiveMessage s (.subscribe m), .receiveMessage s (.unsubscribe u)]).length ≤ 2 ^ 53 := by
    rw [List.length_append]; exact hl
  have hg := pub_step_eq ops (by omega) (.receiveMessage s (.subscribe m))
  rw [h] at hg
  have hk : s ∈ (tableAfter ops).known := by
    refine Classical.byContradiction fun hk => ?_
    simp only [Table.step, if_neg hk] at hg; cases hg
  have hn : s ∉ subscribersOf (tableAfter ops).held m.topic := by rw [Broker.tableAfter_eq ops (by omega)]; exact hn
  have ht : tableAfter (ops ++ [.receiveMessage s (.subscribe m), .receiveMessage s (.unsubscribe u)]) =
      (((tableAfter ops).step (.receiveMessage s (.subscribe m))).1.step (.receiveMessage s (.unsubscribe u))).1 := by simp [tableAfter]
  obtain ⟨h1, h2⟩ := pairs_subscribe (tableAfter ops) s m hk
  rw [if_neg hn] at h2
  have hin : ⟨s, m.topic, u.subscriptionId.val⟩ ∈ ((tableAfter ops).step (.receiveMessage s (.subscribe m))).1.held := by
    rw [hu]
    simp only [Table.step, if_pos hk] at hg ⊢
    split at hg
    · injection hg with hg; injection hg with hg; injection hg with hg; injection hg with hg; subst hg; simp [PyInt.val]
    · injection hg with hg; injection hg with hg; injection hg with hg; injection hg with hg; subst hg; simp [PyInt.val, hn]
  have ok := pubOk_step (pubOk_after ops) (.receiveMessage s (.subscribe m))
  have h3 := pairs_unsubscribe ok hin
  have h5 : (pairs ((tableAfter ops).step (.receiveMessage s (.subscribe m))).1.held).filter (fun x => !decide (x = (s, m.topic))) =
      pairs (tableAfter ops).held := by
    rw [h2, List.filter_append, List.filter_eq_self.2, List.filter_cons_of_neg (by simp), List.filter_nil, List.append_nil]
    intro x hx
    simp only [Bool.not_eq_true', decide_eq_false_iff_not]
    rintro rfl
    exact hn (mem_subscribersOf.2 hx)
  have h4 : (((tableAfter ops).step (.receiveMessage s (.subscribe m))).1.step (.receiveMessage s (.unsubscribe u))).1.known = (tableAfter ops).known ∧
      pairs (((tableAfter ops).step (.receiveMessage s (.subscribe m))).1.step (.receiveMessage s (.unsubscribe u))).1.held =
        pairs (tableAfter ops).held := by
    generalize ((tableAfter ops).step (.receiveMessage s (.subscribe m))).1 = t at *
    simp only [Table.step]
    rw [if_pos ⟨_, hin, rfl, rfl⟩]
    exact ⟨h1, h3.trans h5⟩
  refine C128_broker _ _ (by omega) hl' (pubSame_of_table (by omega) hl' ?_ ?_) <;> intro x <;> rw [ht]
  · rw [h4.1]
  · rw [subscribersOf_pairs, subscribersOf_pairs, h4.2]

end

/-! ## The dealer -/

section
open Wamp.Spec.Rpc (Table Reg Pending Mark Failure Current)
open Wamp.Dealer (Op Out tableAfter graded)

/-- A session that joins and leaves again leaves no trace with the dealer. -/
theorem C136_left_dealer (ops : List Op) (hl : ops.length + 2 ≤ 2 ^ 53) (d : SessionDetails)
    (h : Dealer.outcome ops (.addSession d) = .ok .unit) : Dealers id ops (ops ++ [.addSession d, .removeSession d.sessionId.val]) := by
  have hl' : (ops ++ [Op.addSession d, .removeSession d.sessionId.val]).length ≤ 2 ^ 53 := by rw [List.length_append]; exact hl
  have hg := rpc_step_eq ops (by omega) (.addSession d)
  rw [h] at hg
  have hg := (Option.some.inj hg).symm
  have hk : d.sessionId.val ∉ (tableAfter ops).known := by
    intro hk; simp only [Table.step, if_pos hk] at hg; cases hg
  have hh := AsNew.rpc_held_known ops
  have ht : tableAfter (ops ++ [.addSession d, .removeSession d.sessionId.val]) =
      (((tableAfter ops).step (.addSession d)).1.step (.removeSession d.sessionId.val)).1 := by simp [tableAfter]
  have hm : d.sessionId.val ∈ (tableAfter ops).known ++ [d.sessionId.val] := by simp
  simp only [Table.step, if_neg hk, if_pos hm] at ht
  have e1 : ((tableAfter ops).known ++ [d.sessionId.val]).filter (fun x => decide (x ≠ d.sessionId.val)) = (tableAfter ops).known := by
    rw [List.filter_append, List.filter_eq_self.2]
    · simp
    · intro x hx; simp only [ne_eq, decide_not, Bool.not_eq_true', decide_eq_false_iff_not]; rintro rfl; exact hk hx
  have e2 : (tableAfter ops).held.filter (fun x => decide (x.session ≠ d.sessionId.val)) = (tableAfter ops).held := by
    rw [List.filter_eq_self]
    intro x hx; simp only [ne_eq, decide_not, Bool.not_eq_true', decide_eq_false_iff_not]; intro e; exact hk (e ▸ hh x hx)
  rw [e1, e2] at ht
  exact C128_dealer id _ _ (by omega) hl' (rpcSame_of_table (by omega) hl' (by rw [ht]) (by rw [ht]) (by rw [ht]) (by rw [ht]; exact fun _ _ => rfl))

/-- A registration that was given up leaves none. -/
theorem C136_unregistered (ops : List Op) (hl : ops.length + 2 ≤ 2 ^ 53) (s : Int) (m : Register) (r : Registered) (q : Int)
    (h : Dealer.outcome ops (.receiveMessage s (.register m)) = .ok (.reply ⟨.registered r, q⟩))
    (u : Unregister) (hu : u.registrationId.val = r.registrationId.val) :
    Dealers id ops (ops ++ [.receiveMessage s (.register m), .receiveMessage s (.unregister u)]) := by
  have hl' : (ops ++ [Op.receiveMessage s (.register m), .receiveMessage s (.unregister u)]).length ≤ 2 ^ 53 := by
    rw [List.length_append]; exact hl
  have hg := rpc_step_eq ops (by omega) (.receiveMessage s (.register m))
  rw [h] at hg
  have hg := (Option.some.inj hg).symm
  have ht : tableAfter (ops ++ [.receiveMessage s (.register m), .receiveMessage s (.unregister u)]) =
      (((tableAfter ops).step (.receiveMessage s (.register m))).1.step (.receiveMessage s (.unregister u))).1 := by simp [tableAfter]
  have ok := rpcOk_after ops
  by_cases hk : s ∈ (tableAfter ops).known
  · by_cases ha : (tableAfter ops).held.any (·.procedure = m.procedure) = true
    · simp only [Table.step, if_pos hk, if_pos ha] at hg; cases hg
    · simp only [Table.step, if_pos hk, if_neg ha] at hg ht
      injection hg with hg; injection hg with hg; injection hg with hg; injection hg with hg; subst hg
      have hu : u.registrationId.val = (tableAfter ops).next := hu
      rw [if_pos ⟨⟨s, m.procedure, (tableAfter ops).next⟩, by simp, rfl, hu.symm⟩] at ht
      have e : ((tableAfter ops).held ++ [(⟨s, m.procedure, (tableAfter ops).next⟩ : Reg)]).filter
          (fun x => decide ¬ (x.session = s ∧ x.id = u.registrationId.val)) = (tableAfter ops).held := by
        rw [List.filter_append, List.filter_eq_self.2, List.filter_cons_of_neg (by simp [hu]), List.filter_nil, List.append_nil]
        intro x hx
        have := (ok.heldRange x hx).2
        simp only [hu, decide_not, Bool.not_eq_true', decide_eq_false_iff_not]
        rintro ⟨-, e⟩; omega
      simp only [e] at ht
      exact C128_dealer id _ _ (by omega) hl'
        (rpcSame_of_table (by omega) hl' (by rw [ht]) (by rw [ht]) (by rw [ht]) (by rw [ht]; exact fun _ _ => rfl))
  · simp only [Table.step, if_neg hk] at hg; cases hg

/-- A progressive result leaves none. -/
theorem C136_progress (ops : List Op) (hl : ops.length < 2 ^ 53) (s : Int) (y : Yield) (r : Result) (q : Int)
    (h : Dealer.outcome ops (.receiveMessage s (.yield_ y)) = .ok (.reply ⟨.result r, q⟩)) (hp : PyDict.flag r.details_ "progress" = true) :
    Dealers id ops (ops ++ [.receiveMessage s (.yield_ y)]) := by
  have hl' : (ops ++ [Op.receiveMessage s (.yield_ y)]).length ≤ 2 ^ 53 := by rw [List.length_append]; exact hl
  have hg := rpc_step_eq ops (by omega) (.receiveMessage s (.yield_ y))
  rw [h] at hg
  have hg := (Option.some.inj hg).symm
  have ht : tableAfter (ops ++ [.receiveMessage s (.yield_ y)]) = tableAfter ops := by
    rw [rpc_table_snoc]
    revert hg
    simp only [Table.step]
    split
    · simp
    · split
      · simp
      · split
        · simp
        · split
          · simp
          · intro hg
            injection hg with hg; injection hg with hg; injection hg with hg; injection hg with hg; subst hg
            cases hp
  exact C128_dealer id _ _ (by omega) hl'
    (rpcSame_of_table (by omega) hl' (by rw [ht]) (by rw [ht]) (by rw [ht]) (by rw [ht]; exact fun _ _ => rfl))

/-- What holds of a call answered with an ERROR: the same sessions are connected, the same procedures registered and the same calls in
progress as before.  Missing: the request id of the caller goes on standing for the invocation (C136_failed_false); no other request id
does so that did not before. -/
theorem C136_failed_partial (ops : List Op) (hl : ops.length + 2 ≤ 2 ^ 53) (s : Int) (m : Call) (inv : Invocation) (c : Int)
    (h : Dealer.outcome ops (.receiveMessage s (.call m)) = .ok (.reply ⟨.invocation inv, c⟩))
    (hf : ∀ i, ¬ Current (Dealer.trace ops) s m.requestId.val i) (e : ErrorMsg) (he : e.messageType.val = 68)
    (hi : e.requestId.val = inv.requestId.val) :
    let ops' := ops ++ [.receiveMessage s (.call m), .receiveMessage c (.error e)]
    (Rpc.view (Dealer.trace ops')).known = (Rpc.view (Dealer.trace ops)).known ∧
    (Rpc.view (Dealer.trace ops')).held = (Rpc.view (Dealer.trace ops)).held ∧
    (Rpc.view (Dealer.trace ops')).pending = (Rpc.view (Dealer.trace ops)).pending ∧
    ∀ s' r i, Current (Dealer.trace ops') s' r i ↔
      (s' = s ∧ r = m.requestId.val ∧ i = inv.requestId.val) ∨ Current (Dealer.trace ops) s' r i := by
  intro ops'
  have hl' : ops'.length ≤ 2 ^ 53 := by simp only [ops', List.length_append]; exact hl
  have hg := rpc_step_eq ops (by omega) (.receiveMessage s (.call m))
  rw [h] at hg
  have hg := (Option.some.inj hg).symm
  have hmark : (tableAfter ops).mark s m.requestId.val = none := by
    cases e : (tableAfter ops).mark s m.requestId.val with
    | none => rfl
    | some k => exact absurd ((mark_iff ops (by omega) s m.requestId.val k.inv).1 (by rw [e]; rfl)) (hf _)
  have ht : tableAfter ops' = (((tableAfter ops).step (.receiveMessage s (.call m))).1.step (.receiveMessage c (.error e))).1 := by
    simp [ops', tableAfter]
  have ok := rpcOk_after ops
  have s1 := Dealer.sim_after ops (by omega)
  have s2 := Dealer.sim_after ops' hl'
  rw [← s1.known, ← s1.held, ← s1.pending, ← s2.known, ← s2.held, ← s2.pending]
  simp only [← mark_iff ops' hl', ← mark_iff ops (by omega : ops.length ≤ 2 ^ 53)]
  generalize tableAfter ops' = t' at *
  generalize tableAfter ops = t at *
  cases hf : t.held.find? (fun x => decide (x.procedure = m.procedure)) with
  | none => simp [Table.step, hf] at hg
  | some x =>
    have hc : (if PyDict.flag m.options "progress" then t.mark s m.requestId.val else none) = none := by rw [hmark, ite_self]
    simp only [Table.step, hf, hc] at hg ht
    simp only [Rpc.invocation, Except.ok.injEq, Out.reply.injEq, MessageWithRecipient.mk.injEq, Message.invocation.injEq] at hg
    obtain ⟨hgi, rfl⟩ := hg
    have hinv : inv.requestId.val = t.next := by rw [← hgi]; rfl
    rw [hinv] at hi ⊢
    have hold : ∀ x ∈ t.pending, x.inv ≠ t.next := fun x hx e => by
      have := ok.usedRange _ (.inl ⟨x, hx, rfl⟩); omega
    have h1 : t.pending.find? (fun x => decide (x.inv = t.next)) = none := by
      rw [List.find?_eq_none]; intro x hx; simpa using hold x hx
    have h2 : t.pending.filter (fun x => decide (x.inv ≠ t.next)) = t.pending := by
      rw [List.filter_eq_self]; intro x hx; simpa using hold x hx
    simp only [he, if_true, hi, List.find?_append, h1, Option.none_or, List.find?_cons, decide_true, List.filter_append, h2] at ht
    subst ht
    refine ⟨rfl, rfl, by simp, fun s' r i => ?_⟩
    simp only [Table.mark, Table.unmark, Dealer.find_unmark, List.find?_append, List.find?_cons, List.find?_nil]
    simp only [Table.mark] at hmark
    by_cases e : (s, m.requestId.val) = (s', r)
    · cases e
      simp only [hmark]
      simp [eq_comm]
    · have e' : ¬ (s = s' ∧ m.requestId.val = r) := fun ⟨e1, e2⟩ => e (by rw [e1, e2])
      have e'' : ¬ (s' = s ∧ r = m.requestId.val ∧ i = t.next) := fun ⟨e1, e2, _⟩ => e (by rw [e1, e2])
      simp [e, e', e'']

end

/-! ## The trace an ERROR leaves -/

/-- The first part of a call sent in parts, with a request id used before, and its result. -/
def again : Dealer.Op := .receiveMessage 2 (.call { requestId := .int 8, procedure := "p", options_ := [(.str "progress", .bool true)] })
def answer : Dealer.Op := .receiveMessage 1 (.yield_ { requestId := .int 3 })

/-- What the callee is sent. -/
def staleInv (i r : Int) : Invocation := { requestId := .int i, registrationId := .int r, details_ := [(.str "progress", .bool true)] }

/-- False of the code: a call that was answered with an ERROR can be told from one that was never made.  If the caller uses its request
id again for a call sent in parts, the callee is given the id of the old invocation and cannot answer. -/
theorem C136_failed_false : ∃ (ops : List Dealer.Op) (s : Int) (m : Call) (c : Int) (inv : Invocation) (e out : ErrorMsg),
    Dealer.outcome ops (.receiveMessage s (.call m)) = .ok (.reply ⟨.invocation inv, c⟩) ∧
    (∀ i, ¬ Rpc.Current (Dealer.trace ops) s m.requestId.val i) ∧
    Dealer.outcome (ops ++ [.receiveMessage s (.call m)]) (.receiveMessage c (.error e)) = .ok (.reply ⟨.error out, s⟩) ∧
    ∀ τ, ¬ Dealers τ ops (ops ++ [.receiveMessage s (.call m), .receiveMessage c (.error e)]) := by
  refine ⟨quiet, 2, { requestId := .int 8, procedure := "p" }, 1, { requestId := .int 3, registrationId := .int 1 },
    { messageType := .int 68, requestId := .int 3, uri := "no" }, { messageType := .int 48, requestId := .int 8, uri := "no" },
    by rfl, fun i => ?_, by rfl, ?_⟩
  · have m1 : (Dealer.tableAfter quiet).mark 2 8 = none := by decide +kernel
    rw [← mark_iff quiet (by decide)]
    change ¬ Option.map _ ((Dealer.tableAfter quiet).mark 2 8) = some i
    rw [m1]; simp
  · rintro τ ⟨ρ, -, -, -, -, h⟩
    have h1 : [some (Except.ok (Dealer.Out.reply ⟨.invocation (staleInv 3 1), 1⟩))] =
        [some (Except.ok (Dealer.Out.reply ⟨.invocation (staleInv (ρ 3) (ρ 1)), 1⟩))] := h [again] (by decide) (by decide)
    have hρ : ρ 3 = 3 := by
      simp only [staleInv, List.cons.injEq, Option.some.injEq, Except.ok.injEq, Dealer.Out.reply.injEq, MessageWithRecipient.mk.injEq,
        Message.invocation.injEq, Invocation.mk.injEq, PyInt.int.injEq] at h1
      exact h1.1.1.1.symm
    have h2 := h [again, answer] (by decide) (by decide)
    have e : [again, answer].map (Tenants.rpcIds ρ) = [again, answer] := by
      change [again, Dealer.Op.receiveMessage 1 (.yield_ { requestId := .int (ρ 3) })] = _
      rw [hρ]; rfl
    rw [e] at h2
    have h3 : (none : Option Nat) = some 0 := congrArg (fun l => match l with | [_, some (.ok _)] => some 0 | _ => none) h2
    cases h3

/-! ## Examples -/

/-- A session joins a broker with subscribers and leaves; another subscribes and unsubscribes. -/
example : Brokers plain (plain ++ [.addSession { sessionId := .int 5, realm := "r" }, .removeSession 5]) :=
  C136_left_broker plain (by decide) { sessionId := .int 5, realm := "r" } rfl
example : Brokers plain (plain ++ [sub 1 "v", .receiveMessage 1 (.unsubscribe { requestId := .int 9, subscriptionId := .int 2 })]) :=
  C136_unsubscribed plain (by decide) 1 { requestId := .int 1, topic := "v" } _ _ rfl (by decide +kernel) _ rfl

/-- Not so, if it was subscribed before. -/
example : ¬ Brokers plain (plain ++ [sub 2 "v", .receiveMessage 2 (.unsubscribe { requestId := .int 9, subscriptionId := .int 2 })]) := by
  rw [C128_broker_exact _ _ (by decide) (by decide)]
  intro h
  have := h.subscribers "v"
  revert this; decide +kernel

/-- The same at a dealer. -/
example : Dealers id quiet (quiet ++ [.addSession { sessionId := .int 5, realm := "r" }, .removeSession 5]) :=
  C136_left_dealer quiet (by decide) { sessionId := .int 5, realm := "r" } rfl
example : Dealers id quiet (quiet ++ [.receiveMessage 2 (.register { requestId := .int 1, procedure := "q" }),
    .receiveMessage 2 (.unregister { requestId := .int 2, registrationId := .int 3 })]) :=
  C136_unregistered quiet (by decide) 2 { requestId := .int 1, procedure := "q" } _ _ rfl _ rfl

/-- A call of which results are wanted as they come, and one of them. -/
def streaming : List Dealer.Op :=
  quiet ++ [.receiveMessage 2 (.call { requestId := .int 8, procedure := "p", options_ := [(.str "receive_progress", .bool true)] })]
example : Dealers id streaming (streaming ++ [.receiveMessage 1 (.yield_ { requestId := .int 3, options_ := [(.str "progress", .bool true)] })]) :=
  C136_progress streaming (by decide) 1 _ _ _ rfl rfl

end Wamp.Spec.Undone
