import Verif.Spec.Tally
import Verif.Spec.ByteNet
import Verif.Props.BrokerTable
import Verif.Props.DealerTable
import Verif.Proofs.NetBase

/-! # C140: never more answers than requests -/

set_option linter.unusedSimpArgs false

namespace Wamp.Spec.Tally
open Wamp.Spec.Net Wamp.Spec.Ses

/-! ## One call -/

/-- The messages to `s` among them that settle requests of this kind with this id -/
def out (l : List (Int × Message)) (s : Int) (k : Ses.Kind) (i : Int) : Nat := settled (inbox l s) k i

theorem out_one (t : Int) (m : Message) (s : Int) (k : Ses.Kind) (i : Int) :
    out [(t, m)] s k i = if t = s ∧ settles m = some (k, i) then 1 else 0 := by
  simp only [out, inbox, settled]
  by_cases h : t = s <;> by_cases h' : settles m = some (k, i) <;> simp [h, h']

theorem out_append (l l' : List (Int × Message)) (s : Int) (k : Ses.Kind) (i : Int) : out (l ++ l') s k i = out l s k i + out l' s k i := by
  simp only [out, settled, inbox_append, List.countP_append]

theorem out_nil (s : Int) (k : Ses.Kind) (i : Int) : out [] s k i = 0 := rfl

theorem out_events (p : Publication) (s : Int) (k : Ses.Kind) (i : Int) : out (eventsOf p) s k i = 0 := by
  simp only [out, settled, List.countP_eq_zero, decide_eq_true_eq, inbox, List.mem_map, List.mem_filter]
  rintro m ⟨x, ⟨hx, -⟩, rfl⟩
  unfold eventsOf at hx
  split at hx
  · obtain ⟨y, -, rfl⟩ := List.mem_map.1 hx
    simp [settles, replyTo]
  · cases hx

/-- The message `m` from `t` is a request of this kind and id by `s`. -/
def one (t : Int) (m : Message) (s : Int) (k : Ses.Kind) (i : Int) : Nat := if t = s ∧ requestOf m = some (k, i) then 1 else 0

theorem le_one {P Q : Prop} [Decidable P] [Decidable Q] (h : P → Q) : (if P then 1 else 0 : Nat) ≤ if Q then 1 else 0 := by
  by_cases p : P
  · simp [p, h p]
  · simp [p]

theorem broker_tally (ops : List Broker.Op) (hl : ops.length < 2 ^ 53) (t : Int) (m : Message) (op : Broker.Op)
    (hop : brokerCall t m = some op) (s : Int) (k : Ses.Kind) (i : Int) : out (brokerOut (Broker.outcome ops op)) s k i ≤ one t m s k i := by
  have ht := (Broker.table_step ops hl op).1
  cases ho : Broker.outcome ops op with
  | error e => exact Nat.zero_le _
  | ok r =>
    rw [ho] at ht
    simp only [Except.toOption] at ht
    cases m <;> simp only [brokerCall, Option.some.injEq, reduceCtorEq] at hop <;> subst hop
    case publish m =>
      simp only [Pub.Table.step] at ht
      split at ht <;> cases ht
      simp only [brokerOut, out_append, out_events, Nat.zero_add, ackOf]
      by_cases hf : PyDict.flag m.options "acknowledge" = true
      · simp only [hf, if_true, out_one, one]
        refine le_one fun h => ⟨h.1, ?_⟩
        simpa only [requestOf, hf, if_true, settles, replyTo] using h.2
      · simp only [hf, if_false, out_nil, Nat.zero_le, Bool.false_eq_true]
    case subscribe m =>
      simp only [Pub.Table.step] at ht
      split at ht
      · split at ht <;> cases ht <;> simp only [brokerOut, out_one, one] <;> exact le_one fun h => h
      · cases ht
    case unsubscribe m =>
      simp only [Pub.Table.step] at ht
      split at ht <;> cases ht
      simp only [brokerOut, out_one, one]
      exact le_one fun h => h

/-- The calls with that id the caller has not had its answer to -/
def pend (t : Rpc.Table) (s : Int) (k : Ses.Kind) (i : Int) : Nat :=
  if k = .call then t.pending.countP fun x => decide (x.caller = s ∧ x.request.val = i) else 0

theorem countP_rest {α : Type} (p q : α → Bool) (l : List α) (x : α) (hx : x ∈ l) (hq : q x = false) :
    (l.filter q).countP p + (if p x = true then 1 else 0) ≤ l.countP p := by
  induction l with
  | nil => cases hx
  | cons y l ih =>
    have hle : (l.filter q).countP p ≤ l.countP p := List.Sublist.countP_le List.filter_sublist
    rcases List.mem_cons.1 hx with rfl | hx
    · rw [List.filter_cons_of_neg (by simp [hq]), List.countP_cons]
      omega
    · have := ih hx
      rw [List.filter_cons]
      split
      · rw [List.countP_cons, List.countP_cons]; omega
      · rw [List.countP_cons]; omega

theorem pend_rest (t : Rpc.Table) (j : Int) (x : Rpc.Pending) (hx : t.pending.find? (·.inv = j) = some x) (s : Int) (k : Ses.Kind) (i : Int)
    (marks : List Rpc.Mark) :
    (if x.caller = s ∧ some (Ses.Kind.call, x.request.val) = some (k, i) then 1 else 0) +
      pend { t with pending := t.pending.filter (·.inv ≠ j), marks := marks } s k i ≤ pend t s k i := by
  unfold pend
  by_cases hk : k = .call
  · subst hk
    have := countP_rest (fun x : Rpc.Pending => decide (x.caller = s ∧ x.request.val = i)) (fun x : Rpc.Pending => decide (x.inv ≠ j)) t.pending x
      (List.mem_of_find?_eq_some hx) (by have := List.find?_some hx; simpa using this)
    simp only [if_true, Option.some.injEq, Prod.mk.injEq, true_and, decide_eq_true_eq] at this ⊢
    omega
  · have : ¬ (x.caller = s ∧ some (Ses.Kind.call, x.request.val) = some (k, i)) := by
      rintro ⟨-, h⟩; cases h; exact hk rfl
    simp only [hk, if_false, this, Nat.le_refl, Nat.add_zero]

/-- What the dealer's answer settles -/
def val (r : Except Rpc.Failure Dealer.Out) (s : Int) (k : Ses.Kind) (i : Int) : Nat :=
  match r with
  | .ok r => out (dealerOut (.ok r)) s k i
  | .error _ => 0

theorem val_reply (m : Message) (v s : Int) (k : Ses.Kind) (i : Int) :
    val (.ok (.reply ⟨m, v⟩)) s k i = if v = s ∧ settles m = some (k, i) then 1 else 0 := out_one v m s k i

theorem table_tally (t : Rpc.Table) (u : Int) (m : Message) (op : Dealer.Op) (hop : dealerCall u m = some op) (s : Int) (k : Ses.Kind) (i : Int) :
    val (t.step op).2 s k i + pend (t.step op).1 s k i ≤ pend t s k i + one u m s k i := by
  have key : ∀ t' r, pend t' s k i = pend t s k i → val r s k i ≤ one u m s k i →
      val (t', r).2 s k i + pend (t', r).1 s k i ≤ pend t s k i + one u m s k i := by
    intro t' r h1 h2
    dsimp only
    omega
  have hless : ∀ t' r, val r s k i + pend t' s k i ≤ pend t s k i →
      val (t', r).2 s k i + pend (t', r).1 s k i ≤ pend t s k i + one u m s k i := fun t' r h => Nat.le_trans h (Nat.le_add_right _ _)
  generalize hr : t.step op = r
  cases m <;> simp only [dealerCall, Option.some.injEq, reduceCtorEq] at hop <;> subst hop
  case register m =>
    simp only [Rpc.Table.step] at hr
    split at hr
    · split at hr <;> subst hr <;> refine key _ _ rfl ?_ <;> rw [val_reply] <;> exact le_one fun h => h
    · subst hr; exact key _ _ rfl (Nat.zero_le _)
  case unregister m =>
    simp only [Rpc.Table.step] at hr
    split at hr <;> subst hr
    · refine key _ _ rfl ?_
      rw [val_reply]
      exact le_one fun h => h
    · exact key _ _ rfl (Nat.zero_le _)
  case call m =>
    have hinv : ∀ v a b c, val (.ok (.reply ⟨Rpc.invocation a b c, v⟩)) s k i = 0 := by
      intro v a b c
      simp [val_reply, Rpc.invocation, settles, replyTo]
    simp only [Rpc.Table.step] at hr
    split at hr
    · subst hr
      refine key _ _ rfl ?_
      rw [val_reply]
      exact le_one fun h => h
    · split at hr <;> subst hr
      · exact key _ _ rfl (by rw [hinv]; exact Nat.zero_le _)
      · simp only [hinv]
        unfold pend one
        by_cases hk : k = .call
        · subst hk
          simp only [if_true, List.countP_append, List.countP_singleton, decide_eq_true_eq, requestOf, Option.some.injEq, Prod.mk.injEq,
            true_and]
          omega
        · simp only [hk, if_false]; omega
  case yield_ m =>
    simp only [Rpc.Table.step] at hr
    split at hr
    · subst hr; exact key _ _ rfl (Nat.zero_le _)
    · rename_i x hx
      split at hr
      · subst hr; exact key _ _ rfl (Nat.zero_le _)
      · split at hr
        · rename_i hf
          subst hr
          refine key _ _ rfl ?_
          rw [val_reply, if_neg]
          · exact Nat.zero_le _
          · rintro ⟨-, h⟩
            rw [Bool.and_eq_true] at hf
            have h1 := hf.1
            simp only [PyDict.flag] at h1
            simp only [settles, Result.details, withSerializer, PyDict.flag, PyDict.get?, if_true] at h
            cases hg : PyDict.get? m.options "progress" with
            | none => rw [hg] at h1; cases h1
            | some v =>
              rw [hg] at h h1
              simp only at h1
              simp only [Option.getD_some, h1, if_true, reduceCtorEq] at h
        · have hr' := pend_rest t m.requestId.val x hx s k i
          split at hr <;> subst hr
          · have := hr' t.marks
            exact hless _ _ (Nat.le_trans (Nat.add_le_add_right (Nat.zero_le _) _) this)
          · have := hr' (t.unmark x.caller x.request.val)
            refine hless _ _ ?_
            rw [val_reply]
            exact this
  case error m =>
    simp only [Rpc.Table.step] at hr
    split at hr
    · subst hr; exact key _ _ rfl (Nat.zero_le _)
    · rename_i x hx
      have hx' : t.pending.find? (·.inv = m.requestId.val) = some x := by
        split at hx
        · exact hx
        · cases hx
      subst hr
      refine hless _ _ ?_
      rw [val_reply]
      exact pend_rest t m.requestId.val x hx' s k i t.marks

theorem dealer_tally (ops : List Dealer.Op) (hl : ops.length < 2 ^ 53) (u : Int) (m : Message) (op : Dealer.Op)
    (hop : dealerCall u m = some op) (s : Int) (k : Ses.Kind) (i : Int) :
    out (dealerOut (Dealer.outcome ops op)) s k i + pend (Dealer.tableAfter (ops ++ [op])) s k i ≤
      pend (Dealer.tableAfter ops) s k i + one u m s k i := by
  have hd := Dealer.C30_ids_not_exhausted ops hl
  obtain ⟨hr, hc⟩ := Dealer.rel_after ops hd
  have ht := (Dealer.sim_step (Dealer.wf_after ops) hr hc hd (Dealer.sim_after ops (Nat.le_of_lt hl)) op).1
  change Dealer.graded (Dealer.outcome ops op) = _ at ht
  have e : Dealer.tableAfter (ops ++ [op]) = ((Dealer.tableAfter ops).step op).1 := by simp [Dealer.tableAfter, List.foldl_append]
  rw [e]
  have := table_tally (Dealer.tableAfter ops) u m op hop s k i
  cases ho : Dealer.outcome ops op with
  | error e =>
    simp only [dealerOut, out_nil]
    omega
  | ok r =>
    rw [ho] at ht
    simp only [Dealer.graded, Option.some.injEq] at ht
    rw [← ht] at this
    exact this

/-! ## The network -/

variable {W : Type} (c : Codec W)

/-- What a client has had, and what it is about to ask -/
def part (n : Net W) (s : Int) (k : Ses.Kind) (i : Int) : Nat :=
  match n.conns s with
  | none => 0
  | some kc => settled kc.sentTo k i + requested kc.up k i

theorem part_set (n : Net W) (u : Int) (kc : Option (Conn W)) (s : Int) (k : Ses.Kind) (i : Int) (b d) :
    part ({ n with broker := b, dealer := d }.setConn u kc) s k i =
      if s = u then (match kc with | none => 0 | some kc => settled kc.sentTo k i + requested kc.up k i) else part n s k i := by
  simp only [part, Net.setConn]
  by_cases h : s = u <;> simp [h]

theorem part_push (n : Net W) (l : List (Int × Message)) (s : Int) (k : Ses.Kind) (i : Int) :
    part (n.push l) s k i ≤ part n s k i + out l s k i := by
  simp only [part, Net.push]
  cases n.conns s with
  | none => exact Nat.zero_le _
  | some kc =>
    simp only [Option.map_some, Conn.sentTo, settled, List.countP_append, out]
    omega

theorem asks_snoc (s : Int) (sched : List Act) (a : Act) (k : Ses.Kind) (i : Int) : requested (asks s (sched ++ [a])) k i =
    requested (asks s sched) k i + (match a with | .send t m => one t m s k i | _ => 0) := by
  simp only [asks, requested, List.filterMap_append, List.countP_append]
  congr 1
  cases a with
  | send t m => by_cases h : t = s <;> by_cases h' : requestOf m = some (k, i) <;> simp [h, h', one]
  | _ => rfl

theorem pend_session (ops : List Dealer.Op) (op : Dealer.Op) (h : (∃ d, op = .addSession d) ∨ ∃ u, op = .removeSession u) (s : Int)
    (k : Ses.Kind) (i : Int) : pend (Dealer.tableAfter (ops ++ [op])) s k i = pend (Dealer.tableAfter ops) s k i := by
  have e : Dealer.tableAfter (ops ++ [op]) = ((Dealer.tableAfter ops).step op).1 := by simp [Dealer.tableAfter, List.foldl_append]
  rw [e]
  rcases h with ⟨d, rfl⟩ | ⟨u, rfl⟩ <;> simp only [Rpc.Table.step] <;> split <;> rfl

theorem tally_run (sched : List Act) (hl : sched.length ≤ 2 ^ 53) (s : Int) (k : Ses.Kind) (i : Int) :
    part (run c sched) s k i + pend (Dealer.tableAfter (run c sched).dealer) s k i ≤ requested (asks s sched) k i := by
  induction sched using snoc_induction with
  | nil =>
    have : pend (Dealer.tableAfter []) s k i = 0 := by simp only [pend]; split <;> rfl
    show 0 + pend (Dealer.tableAfter []) s k i ≤ 0
    omega
  | snoc sched a ih =>
    have hN : sched.length < 2 ^ 53 := by rw [List.length_append] at hl; exact hl
    have hi := ih (Nat.le_of_lt hN)
    have hb := base_run c sched (Nat.le_of_lt hN)
    rw [run_snoc, asks_snoc]
    generalize run c sched = n at hi hb ⊢
    cases a with
    | join d =>
      have hp := pend_session n.dealer (.addSession d) (.inl ⟨d, rfl⟩) s k i
      simp only [Net.step]
      split
      · rw [part_set]
        show _ + pend (Dealer.tableAfter (n.dealer ++ [.addSession d])) s k i ≤ _
        rw [hp]
        split
        · simp only [Conn.sentTo, settled, requested, List.filterMap_nil, List.append_nil, List.countP_nil] at hi ⊢
          omega
        · exact hi
      · show part n s k i + pend (Dealer.tableAfter (n.dealer ++ [.addSession d])) s k i ≤ _
        rw [hp]; exact hi
    | leave u =>
      have hp := pend_session n.dealer (.removeSession u) (.inr ⟨u, rfl⟩) s k i
      simp only [Net.step]
      rw [part_set]
      show _ + pend (Dealer.tableAfter (n.dealer ++ [.removeSession u])) s k i ≤ _
      rw [hp]
      split
      · dsimp only; omega
      · exact hi
    | send u m =>
      simp only [Net.step]
      cases hk : n.conns u with
      | none => exact Nat.le_add_right_of_le hi
      | some kc =>
        dsimp only
        have e := part_set n u (some { kc with
          calls := kc.calls ++ [.sendMessage m]
          up := if returned (WAMPSession.outcome c kc.calls (.sendMessage m)) then kc.up ++ [m] else kc.up }) s k i n.broker n.dealer
        refine Nat.le_trans (Nat.add_le_add_right (Nat.le_of_eq e) _) ?_
        show _ + pend (Dealer.tableAfter n.dealer) s k i ≤ _
        split
        · rename_i h
          subst h
          simp only [part, hk, Conn.sentTo, List.filterMap_append, List.filterMap_cons, List.filterMap_nil, List.append_nil] at hi ⊢
          have : requested (if returned (WAMPSession.outcome c kc.calls (.sendMessage m)) then kc.up ++ [m] else kc.up) k i ≤
              requested kc.up k i + one s m s k i := by
            split
            · simp only [requested, List.countP_append, List.countP_singleton, one, true_and, decide_eq_true_eq]
              exact Nat.le_refl _
            · exact Nat.le_add_right _ _
          omega
        · exact Nat.le_add_right_of_le hi
    | deliver u =>
      simp only [Net.step]
      cases hk : n.conns u with
      | none => exact hi
      | some kc =>
        dsimp only
        split
        · exact hi
        · rename_i m rest hd
          have e := part_set n u (some { kc with calls := kc.calls ++ [.receiveMessage m], down := rest }) s k i n.broker n.dealer
          refine Nat.le_trans (Nat.add_le_add_right (Nat.le_of_eq e) _) ?_
          show _ + pend (Dealer.tableAfter n.dealer) s k i ≤ _
          split
          · rename_i h
            subst h
            simp only [part, hk, Conn.sentTo, hd, List.filterMap_append, List.filterMap_cons, List.filterMap_nil, List.append_assoc,
              List.cons_append, List.nil_append] at hi ⊢
            exact hi
          · exact hi
    | route u =>
      simp only [Net.step]
      cases hk : n.conns u with
      | none => exact hi
      | some kc =>
        dsimp only
        split
        · exact hi
        · rename_i m rest hu
          have e : part (n.setConn u (some { kc with up := rest })) s k i + one u m s k i ≤ part n s k i := by
            refine Nat.le_trans (Nat.add_le_add_right (Nat.le_of_eq (part_set n u (some { kc with up := rest }) s k i n.broker n.dealer)) _) ?_
            split
            · rename_i h
              subst h
              simp only [part, hk, hu, requested, List.countP_cons, one, true_and, decide_eq_true_eq, Conn.sentTo]
              omega
            · rename_i h
              have : one u m s k i = 0 := by simp only [one, Ne.symm h, false_and, if_false]
              omega
          simp only [Net.handle]
          split
          · rename_i op hop
            have h1 := part_push { n.setConn u (some { kc with up := rest }) with broker := n.broker ++ [op] }
              (brokerOut (Broker.outcome n.broker op)) s k i
            have h2 := broker_tally n.broker (Nat.lt_of_le_of_lt hb.bl hN) u m op hop s k i
            have h3 : part ({ n.setConn u (some { kc with up := rest }) with broker := n.broker ++ [op] } : Net W) s k i =
              part (n.setConn u (some { kc with up := rest })) s k i := rfl
            refine Nat.le_trans (Nat.add_le_add_right h1 _) ?_
            rw [h3]
            show _ + pend (Dealer.tableAfter n.dealer) s k i ≤ _
            omega
          · rename_i op hop' hop
            have h1 := part_push { n.setConn u (some { kc with up := rest }) with dealer := n.dealer ++ [op] }
              (dealerOut (Dealer.outcome n.dealer op)) s k i
            have h2 := dealer_tally n.dealer (Nat.lt_of_le_of_lt hb.dl hN) u m op hop s k i
            have h3 : part ({ n.setConn u (some { kc with up := rest }) with dealer := n.dealer ++ [op] } : Net W) s k i =
              part (n.setConn u (some { kc with up := rest })) s k i := rfl
            refine Nat.le_trans (Nat.add_le_add_right h1 _) ?_
            rw [h3]
            show _ + pend (Dealer.tableAfter (n.dealer ++ [op])) s k i ≤ _
            omega
          · show part (n.setConn u (some { kc with up := rest })) s k i + pend (Dealer.tableAfter n.dealer) s k i ≤ _
            omega

/-- Whatever all clients send: a client is never sent more messages that settle requests of a kind and id than it has been asked to send
such requests. -/
theorem C140_no_more_answers (sched : List Act) (hl : sched.length ≤ 2 ^ 53) (s : Int) (kc : Conn W) (hk : (run c sched).conns s = some kc)
    (k : Ses.Kind) (i : Int) : settled kc.sentTo k i ≤ requested (asks s sched) k i := by
  have := tally_run c sched hl s k i
  simp only [part, hk] at this
  omega

/-- In particular a request id a session id uses for one request of a kind only is answered once at most. -/
theorem C140_once (sched : List Act) (hl : sched.length ≤ 2 ^ 53) (s : Int) (kc : Conn W) (hk : (run c sched).conns s = some kc)
    (k : Ses.Kind) (i : Int) (h : requested (asks s sched) k i ≤ 1) : settled kc.sentTo k i ≤ 1 :=
  Nat.le_trans (C140_no_more_answers c sched hl s kc hk k i) h

/-! ## Examples -/

/-- A client calls a procedure of another, which answers twice, once with a RESULT and once with an ERROR; a third client sends an ERROR
for the same invocation.  The client calls a procedure nobody has registered. -/
def insistent : List Act :=
  [.join ⟨.int 1, "r", none, none⟩, .join ⟨.int 2, "r", none, none⟩, .join ⟨.int 3, "r", none, none⟩,
   .send 2 (.register ⟨.int 1, "p", []⟩), .route 2, .deliver 2,
   .send 1 (.call { requestId := .int 1, procedure := "p" }), .route 1, .deliver 2,
   .send 2 (.yield_ { requestId := .int 2 }), .route 2,
   .send 2 (.error { messageType := .int 68, requestId := .int 2, uri := "e" }), .route 2,
   .send 3 (.error { messageType := .int 68, requestId := .int 2, uri := "e" }), .route 3, .deliver 1,
   .send 1 (.call { requestId := .int 2, procedure := "q" }), .route 1]

/-- It gets one answer to each. -/
example : (((run objects insistent).conns 1).map fun kc => (kc.sentTo.length, settled kc.sentTo .call 1, settled kc.sentTo .call 2)) =
    some (2, 1, 1) ∧ requested (asks 1 insistent) .call 1 = 1 ∧ requested (asks 1 insistent) .call 2 = 1 := by decide +kernel

/-- A client asks for progressive results, and gets one and then an ERROR. -/
def halfway : List Act :=
  [.join ⟨.int 1, "r", none, none⟩, .join ⟨.int 2, "r", none, none⟩,
   .send 2 (.register ⟨.int 1, "p", []⟩), .route 2, .deliver 2,
   .send 1 (.call { requestId := .int 1, procedure := "p", options_ := [(.str "receive_progress", .bool true)] }), .route 1, .deliver 2,
   .send 2 (.yield_ { requestId := .int 2, options_ := [(.str "progress", .bool true)] }), .route 2,
   .send 2 (.error { messageType := .int 68, requestId := .int 2, uri := "e" }), .route 2]

/-- Progressive results have to be left out: with them there are more replies than requests. -/
theorem C140_progress_not_counted : ∃ sched kc, (run objects sched).conns 1 = some kc ∧ requested (asks 1 sched) .call 1 = 1 ∧
    1 < kc.sentTo.countP (fun m => decide (replyTo m = some (.call, 1))) := by
  have h : ((run objects halfway).conns 1).map (fun kc => kc.sentTo.countP (fun m => decide (replyTo m = some (.call, 1)))) = some 2 := by
    decide +kernel
  obtain ⟨kc, h1, h2⟩ := Option.map_eq_some_iff.1 h
  exact ⟨halfway, kc, h1, by decide +kernel, by omega⟩

end Wamp.Spec.Tally
