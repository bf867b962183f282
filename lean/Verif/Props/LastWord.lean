import Verif.Props.Tally

/-! # C141: the answer is the last word -/

set_option linter.unusedSimpArgs false

namespace Wamp.Spec.Tally
open Wamp.Spec.Net Wamp.Spec.Ses

/-- A RESULT comes from a pending call of the recipient. -/
theorem result_pending (ops : List Dealer.Op) (hl : ops.length < 2 ^ 53) (op : Dealer.Op) (v : Int) (r : Result)
    (h : (v, Message.result r) ∈ dealerOut (Dealer.outcome ops op)) :
    ∃ x ∈ (Dealer.tableAfter ops).pending, x.caller = v ∧ x.request = r.requestId := by
  have hd := Dealer.C30_ids_not_exhausted ops hl
  obtain ⟨hr, hc⟩ := Dealer.rel_after ops hd
  have ht := (Dealer.sim_step (Dealer.wf_after ops) hr hc hd (Dealer.sim_after ops (Nat.le_of_lt hl)) op).1
  change Dealer.graded (Dealer.outcome ops op) = _ at ht
  generalize Dealer.tableAfter ops = t at ht
  cases ho : Dealer.outcome ops op with
  | error e => rw [ho] at h; cases h
  | ok out =>
    rw [ho] at ht h
    simp only [Dealer.graded, Option.some.injEq] at ht
    have step : ∀ m w, out = .reply ⟨m, w⟩ → m = .result r ∧ w = v := by
      rintro m w rfl
      simp only [dealerOut, List.mem_singleton, Prod.mk.injEq] at h
      exact ⟨h.2.symm, h.1.symm⟩
    have key : ∀ t' m w, t.step op = (t', .ok (.reply ⟨m, w⟩)) → m = .result r ∧ w = v := by
      intro t' m w e
      rw [e] at ht
      simp only [Except.ok.injEq] at ht
      exact step m w ht
    have nobody : ∀ t' x, t.step op = (t', x) → .ok out = x := by
      intro t' x e; rw [e] at ht; exact ht
    generalize hs : t.step op = res at key nobody
    cases op with
    | addSession d =>
      simp only [Rpc.Table.step] at hs
      split at hs <;> subst hs <;> cases nobody _ _ rfl
      cases h
    | removeSession s =>
      simp only [Rpc.Table.step] at hs
      split at hs <;> subst hs <;> cases nobody _ _ rfl
      cases h
    | hasRegistration p =>
      simp only [Rpc.Table.step] at hs
      subst hs
      cases nobody _ _ rfl
      cases h
    | receiveMessage u m =>
      cases m with
      | register m =>
        simp only [Rpc.Table.step] at hs
        split at hs
        · split at hs <;> subst hs <;> cases (key _ _ _ rfl).1
        · subst hs; cases nobody _ _ rfl
      | unregister m =>
        simp only [Rpc.Table.step] at hs
        split at hs <;> subst hs
        · cases (key _ _ _ rfl).1
        · cases nobody _ _ rfl
      | call m =>
        simp only [Rpc.Table.step] at hs
        split at hs
        · subst hs; cases (key _ _ _ rfl).1
        · split at hs <;> subst hs <;> cases (key _ _ _ rfl).1
      | yield_ m =>
        simp only [Rpc.Table.step] at hs
        split at hs
        · subst hs; cases nobody _ _ rfl
        · rename_i x hx
          split at hs
          · subst hs; cases nobody _ _ rfl
          · split at hs
            · subst hs
              obtain ⟨e1, e2⟩ := key _ _ _ rfl
              cases e1
              exact ⟨x, List.mem_of_find?_eq_some hx, e2, rfl⟩
            · split at hs <;> subst hs
              · cases nobody _ _ rfl
              · obtain ⟨e1, e2⟩ := key _ _ _ rfl
                cases e1
                exact ⟨x, List.mem_of_find?_eq_some hx, e2, rfl⟩
      | error m =>
        simp only [Rpc.Table.step] at hs
        split at hs
        · subst hs; cases nobody _ _ rfl
        · subst hs; cases (key _ _ _ rfl).1
      | _ =>
        simp only [Rpc.Table.step] at hs
        subst hs
        cases nobody _ _ rfl

theorem settles_of_not_result {m : Message} (h : ∀ r, m ≠ .result r) : settles m = replyTo m := by
  cases m <;> first | rfl | exact absurd rfl (h _)

theorem out_pos {l : List (Int × Message)} {s : Int} {m : Message} {k : Ses.Kind} {i : Int} (hm : m ∈ inbox l s)
    (h : settles m = some (k, i)) : 1 ≤ out l s k i := by
  simp only [out, settled]
  exact List.countP_pos_iff.2 ⟨m, hm, by simpa using h⟩

theorem mem_inbox {l : List (Int × Message)} {s : Int} {m : Message} : m ∈ inbox l s ↔ (s, m) ∈ l := by
  simp only [inbox, List.mem_map, List.mem_filter, decide_eq_true_eq]
  constructor
  · rintro ⟨⟨a, b⟩, ⟨h1, rfl⟩, rfl⟩; exact h1
  · intro h; exact ⟨(s, m), ⟨h, rfl⟩, rfl⟩

/-- What replies to a call comes from a call that is pending or just made. -/
theorem dealer_emits (ops : List Dealer.Op) (hl : ops.length < 2 ^ 53) (u : Int) (m : Message) (op : Dealer.Op)
    (hop : dealerCall u m = some op) (s : Int) (k : Ses.Kind) (i : Int) (m' : Message) (hm : m' ∈ inbox (dealerOut (Dealer.outcome ops op)) s)
    (h : replyTo m' = some (k, i)) : 1 ≤ pend (Dealer.tableAfter ops) s k i + one u m s k i := by
  by_cases hr : ∃ r, m' = .result r
  · obtain ⟨r, rfl⟩ := hr
    obtain ⟨x, hx, h1, h2⟩ := result_pending ops hl op s r (mem_inbox.1 hm)
    simp only [replyTo, Option.some.injEq, Prod.mk.injEq] at h
    obtain ⟨rfl, h⟩ := h
    have : 0 < pend (Dealer.tableAfter ops) s .call i := by
      simp only [pend, if_true]
      exact List.countP_pos_iff.2 ⟨x, hx, by simp [h1, h2, h]⟩
    omega
  · have := dealer_tally ops hl u m op hop s k i
    have := out_pos (k := k) (i := i) hm (by rw [settles_of_not_result fun r e => hr ⟨r, e⟩]; exact h)
    omega

theorem broker_no_result (ops : List Broker.Op) (hl : ops.length < 2 ^ 53) (op : Broker.Op) (v : Int) (r : Result) :
    (v, Message.result r) ∉ brokerOut (Broker.outcome ops op) := by
  intro h
  have ht := (Broker.table_step ops hl op).1
  cases ho : Broker.outcome ops op with
  | error e => rw [ho] at h; cases h
  | ok out =>
    rw [ho] at ht h
    simp only [Except.toOption] at ht
    cases op with
    | addSession d =>
      simp only [Pub.Table.step] at ht
      split at ht <;> cases ht; cases h
    | removeSession s =>
      simp only [Pub.Table.step] at ht
      split at ht <;> cases ht; cases h
    | hasSubscription t =>
      simp only [Pub.Table.step] at ht
      cases ht; cases h
    | receivePublish s m =>
      simp only [Pub.Table.step] at ht
      split at ht <;> cases ht
      simp only [brokerOut, List.mem_append, eventsOf, ackOf] at h
      rcases h with h | h
      · split at h
        · obtain ⟨y, -, e⟩ := List.mem_map.1 h
          cases e
        · cases h
      · split at h
        · rename_i x hx
          split at hx <;> cases hx
          cases List.mem_singleton.1 h
        · cases h
    | receiveMessage s m =>
      cases m with
      | subscribe m =>
        simp only [Pub.Table.step] at ht
        split at ht
        · split at ht <;> cases ht <;> cases List.mem_singleton.1 h
        · cases ht
      | unsubscribe m =>
        simp only [Pub.Table.step] at ht
        split at ht <;> cases ht
        cases List.mem_singleton.1 h
      | _ => simp only [Pub.Table.step, reduceCtorEq] at ht

/-- Nothing follows what settles the request. -/
abbrev Last (k : Ses.Kind) (i : Int) (l : List Message) : Prop :=
  l.Pairwise fun m m' => settles m = some (k, i) → replyTo m' ≠ some (k, i)

theorem settled_pos {l : List Message} {m : Message} {k : Ses.Kind} {i : Int} (hm : m ∈ l) (h : settles m = some (k, i)) :
    1 ≤ settled l k i := List.countP_pos_iff.2 ⟨m, hm, by simpa using h⟩

theorem last_few {l : List Message} {k : Ses.Kind} {i : Int} (h : settled l k i ≤ 1) (hr : ∀ m ∈ l, ∀ r, m ≠ .result r) : Last k i l := by
  induction l with
  | nil => exact List.Pairwise.nil
  | cons m l ih =>
    simp only [settled, List.countP_cons] at h
    refine List.Pairwise.cons (fun m' hm' h1 h2 => ?_) (ih (by simp only [settled]; omega) fun m hm => hr m (List.mem_cons_of_mem _ hm))
    have := settled_pos hm' ((settles_of_not_result (hr m' (List.mem_cons_of_mem _ hm'))).trans h2)
    simp only [h1, decide_true, if_true, settled] at h this
    omega

variable {W : Type} (c : Codec W)

theorem last_push (n : Net W) (l : List (Int × Message)) (s : Int) (k : Ses.Kind) (i : Int)
    (h : ∀ kc, n.conns s = some kc → Last k i kc.sentTo) (h1 : Last k i (inbox l s))
    (h2 : ∀ kc, n.conns s = some kc → ∀ m ∈ kc.sentTo, settles m = some (k, i) → ∀ m' ∈ inbox l s, replyTo m' ≠ some (k, i)) :
    ∀ kc, (n.push l).conns s = some kc → Last k i kc.sentTo := by
  intro kc hk
  simp only [Net.push, Option.map_eq_some_iff] at hk
  obtain ⟨k', h', rfl⟩ := hk
  have e : Conn.sentTo { k' with down := k'.down ++ inbox l s } = k'.sentTo ++ inbox l s := by
    simp only [Conn.sentTo, List.append_assoc]
  rw [e, Last, List.pairwise_append]
  exact ⟨h k' h', h1, fun m hm m' hm' hs => h2 k' h' m hm hs m' hm'⟩

theorem last_run (sched : List Act) (hl : sched.length ≤ 2 ^ 53) (s : Int) (k : Ses.Kind) (i : Int)
    (h1 : requested (asks s sched) k i ≤ 1) : ∀ kc, (run c sched).conns s = some kc → Last k i kc.sentTo := by
  induction sched using snoc_induction with
  | nil => intro kc h; cases h
  | snoc sched a ih =>
    have hN : sched.length < 2 ^ 53 := by rw [List.length_append] at hl; exact hl
    have ha := asks_snoc s sched a k i
    have h1' : requested (asks s sched) k i ≤ 1 := by omega
    have hi := ih (Nat.le_of_lt hN) h1'
    have hb := base_run c sched (Nat.le_of_lt hN)
    have ht := tally_run c sched (Nat.le_of_lt hN) s k i
    rw [run_snoc]
    generalize run c sched = n at hi hb ht ⊢
    have hset : ∀ (n' : Net W) u kc', n'.conns = n.conns → (∀ kc, n.conns s = some kc → u = s → ∀ kd, kc' = some kd → kd.sentTo = kc.sentTo) →
        (n.conns s = none → u = s → ∀ kd, kc' = some kd → kd.sentTo = []) → ∀ kc, (n'.setConn u kc').conns s = some kc → Last k i kc.sentTo := by
      intro n' u kc' e g1 g2 kc hk
      simp only [Net.setConn] at hk
      split at hk
      · rename_i hu
        cases hc : n.conns s with
        | none => rw [g2 hc hu.symm kc hk]; exact List.Pairwise.nil
        | some kd => rw [g1 kd hc hu.symm kc hk]; exact hi kd hc
      · rw [e] at hk; exact hi kc hk
    cases a with
    | join d =>
      simp only [Net.step]
      split
      · intro kc hk
        simp only [Net.setConn] at hk
        split at hk
        · cases hk; exact List.Pairwise.nil
        · exact hi kc hk
      · exact hi
    | leave u =>
      intro kc hk
      simp only [Net.step, Net.setConn] at hk
      split at hk
      · cases hk
      · exact hi kc hk
    | send u m =>
      simp only [Net.step]
      cases hk : n.conns u with
      | none => exact hi
      | some kc =>
        refine hset n u _ rfl ?_ ?_
        · rintro kd hkd rfl ke ⟨⟩
          rw [hk] at hkd
          cases hkd
          simp only [Conn.sentTo, List.filterMap_append, List.filterMap_cons, List.filterMap_nil, List.append_nil]
        · rintro hkd rfl
          rw [hk] at hkd; cases hkd
    | deliver u =>
      simp only [Net.step]
      cases hk : n.conns u with
      | none => exact hi
      | some kc =>
        dsimp only
        split
        · exact hi
        · rename_i m rest hd
          refine hset n u _ rfl ?_ ?_
          · rintro kd hkd rfl ke ⟨⟩
            rw [hk] at hkd
            cases hkd
            simp only [Conn.sentTo, hd, List.filterMap_append, List.filterMap_cons, List.filterMap_nil, List.append_assoc,
              List.cons_append, List.nil_append]
          · rintro hkd rfl
            rw [hk] at hkd; cases hkd
    | route u =>
      simp only [Net.step]
      cases hk : n.conns u with
      | none => exact hi
      | some kc =>
        dsimp only
        split
        · exact hi
        · rename_i m rest hu
          have hs : ∀ kc', (n.setConn u (some { kc with up := rest })).conns s = some kc' → Last k i kc'.sentTo := by
            refine hset n u _ rfl ?_ ?_
            · rintro kd hkd rfl ke ⟨⟩
              rw [hk] at hkd
              cases hkd
              rfl
            · rintro hkd rfl
              rw [hk] at hkd; cases hkd
          have e : part (n.setConn u (some { kc with up := rest })) s k i + one u m s k i ≤ part n s k i := by
            refine Nat.le_trans (Nat.add_le_add_right (Nat.le_of_eq (part_set n u (some { kc with up := rest }) s k i n.broker n.dealer)) _) ?_
            split
            · rename_i h
              subst h
              simp only [part, hk, hu, requested, List.countP_cons, one, true_and, decide_eq_true_eq, Conn.sentTo]
              omega
            · rename_i h
              have : one u m s k i = 0 := by simp only [one, Ne.symm h, false_and, if_false]
              omega
          have none_left : ∀ kd, (n.setConn u (some { kc with up := rest })).conns s = some kd → ∀ m' ∈ kd.sentTo, settles m' = some (k, i) →
              pend (Dealer.tableAfter n.dealer) s k i + one u m s k i = 0 := by
            intro kd hkd m' hm' hs'
            have := settled_pos hm' hs'
            have e2 : part (n.setConn u (some { kc with up := rest })) s k i = settled kd.sentTo k i + requested kd.up k i := by
              simp only [part, hkd]
            omega
          simp only [Net.handle]
          split
          · rename_i op hop
            have hlb := Nat.lt_of_le_of_lt hb.bl hN
            have ht := broker_tally n.broker hlb u m op hop s k i
            have hone : one u m s k i ≤ 1 := by unfold one; split <;> omega
            refine last_push { n.setConn u (some { kc with up := rest }) with broker := n.broker ++ [op] } _ s k i hs ?_ ?_
            · refine last_few ?_ ?_
              · exact Nat.le_trans ht hone
              · rintro m' hm' r rfl
                exact broker_no_result n.broker hlb op s r (mem_inbox.1 hm')
            · intro kd hkd m' hm' hs' m'' hm'' hr
              have h0 := none_left kd hkd m' hm' hs'
              have := out_pos (k := k) (i := i) hm'' (by
                rw [settles_of_not_result]
                · exact hr
                · rintro r rfl
                  exact broker_no_result n.broker hlb op s r (mem_inbox.1 hm''))
              change 1 ≤ out (brokerOut (Broker.outcome n.broker op)) s k i at this
              omega
          · rename_i op hop' hop
            have hld := Nat.lt_of_le_of_lt hb.dl hN
            refine last_push { n.setConn u (some { kc with up := rest }) with dealer := n.dealer ++ [op] } _ s k i hs ?_ ?_
            · show Last k i (inbox (dealerOut (Dealer.outcome n.dealer op)) s)
              unfold dealerOut
              split
              · rename_i r hr
                simp only [inbox]
                by_cases hx : r.recipient = s <;> simp [hx]
              · exact List.Pairwise.nil
            · intro kd hkd m' hm' hs' m'' hm'' hr
              have h0 := none_left kd hkd m' hm' hs'
              have := dealer_emits n.dealer hld u m op hop s k i m'' hm'' hr
              omega
          · exact hs

/-- Once a request made once has been settled, the router sends nothing more in reply to it: a progressive RESULT comes before the final
one or not at all, whatever the callee and all others send. -/
theorem C141_last_word (sched : List Act) (hl : sched.length ≤ 2 ^ 53) (s : Int) (kc : Conn W) (hk : (run c sched).conns s = some kc)
    (k : Ses.Kind) (i : Int) (h : requested (asks s sched) k i ≤ 1) (a b : List Message) (m : Message) (hm : kc.sentTo = a ++ m :: b)
    (hs : settles m = some (k, i)) : ∀ m' ∈ b, replyTo m' ≠ some (k, i) := by
  have := last_run c sched hl s k i h kc hk
  rw [hm, Last, List.pairwise_append] at this
  intro m' hm'
  exact (List.pairwise_cons.1 this.2.1).1 m' hm' hs

/-- In the example `halfway` the progressive RESULT comes first, and the ERROR is the last word. -/
example : (((run objects halfway).conns 1).map fun kc => kc.sentTo.map fun m => (settles m, replyTo m)) =
    some [(none, some (.call, 1)), (some (.call, 1), some (.call, 1))] := by decide +kernel

example : (((run objects insistent).conns 1).map fun kc => kc.sentTo.map fun m => (settles m, replyTo m)) =
    some [(some (.call, 1), some (.call, 1)), (some (.call, 2), some (.call, 2))] := by decide +kernel

end Wamp.Spec.Tally
