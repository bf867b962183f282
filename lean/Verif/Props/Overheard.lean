import Verif.Spec.Overheard
import Verif.Spec.ByteNet
import Verif.Props.Broker
import Verif.Props.BrokerTable
import Verif.Props.DealerTable
import Verif.Proofs.NetBase

/-! # C142: nobody overhears -/

set_option linter.unusedSimpArgs false

namespace Wamp.Spec.Overheard
open Wamp.Spec.Net Wamp.Spec.Ses

/-! ## One call -/

theorem held_topic (ops : List Broker.Op) (hl : ops.length ≤ 2 ^ 53) (x : Pub.Holding)
    (hx : x ∈ (Pub.view (Broker.trace ops)).held) : ∃ m, .receiveMessage x.session (.subscribe m) ∈ ops ∧ m.topic = x.topic := by
  obtain ⟨pre, e, post, h1, ⟨m, r, rec, rfl, h2, -⟩, -⟩ := (Broker.held_iff ops x.session x.topic x.id (Broker.C19_no_clash ops hl)).1 hx
  refine ⟨m, ?_, h2⟩
  rw [← (Broker.C79_broker_is_table ops hl).1, h1]
  simp

/-- What stands behind the dealer's table -/
structure Behind (ops : List Dealer.Op) (t : Rpc.Table) : Prop where
  held : ∀ x ∈ t.held, ∃ q, .receiveMessage x.session (.register q) ∈ ops ∧ q.procedure = x.procedure
  pending : ∀ x ∈ t.pending, ∃ c q, .receiveMessage x.caller (.call c) ∈ ops ∧ c.requestId = x.request ∧
    .receiveMessage x.callee (.register q) ∈ ops ∧ q.procedure = c.procedure

theorem behind (ops : List Dealer.Op) : Behind ops (Dealer.tableAfter ops) := by
  induction ops using snoc_induction with
  | nil => exact ⟨nofun, nofun⟩
  | snoc ops op hi =>
    have e : Dealer.tableAfter (ops ++ [op]) = ((Dealer.tableAfter ops).step op).1 := by simp [Dealer.tableAfter, List.foldl_append]
    rw [e]
    generalize Dealer.tableAfter ops = t at hi
    have hm : Behind (ops ++ [op]) t := by
      refine ⟨fun x hx => ?_, fun x hx => ?_⟩
      · obtain ⟨q, h1, h2⟩ := hi.held x hx
        exact ⟨q, List.mem_append_left _ h1, h2⟩
      · obtain ⟨c, q, h1, h2, h3, h4⟩ := hi.pending x hx
        exact ⟨c, q, List.mem_append_left _ h1, h2, List.mem_append_left _ h3, h4⟩
    have hfil : ∀ t', (∀ x ∈ t'.held, x ∈ t.held) → (∀ x ∈ t'.pending, x ∈ t.pending) → Behind (ops ++ [op]) t' :=
      fun t' h1 h2 => ⟨fun x hx => hm.held x (h1 x hx), fun x hx => hm.pending x (h2 x hx)⟩
    have hsub : ∀ {α : Type} (p : α → Bool) (l : List α), ∀ x ∈ l.filter p, x ∈ l := fun p l x hx => (List.mem_filter.1 hx).1
    cases op with
    | addSession d =>
      simp only [Rpc.Table.step]
      split
      · exact hm
      · exact hfil _ (fun _ h => h) (fun _ h => h)
    | removeSession s =>
      simp only [Rpc.Table.step]
      split
      · exact hfil _ (hsub _ _) (fun _ h => h)
      · exact hm
    | hasRegistration p => exact hm
    | receiveMessage u m =>
      cases m with
      | register m =>
        simp only [Rpc.Table.step]
        split
        · split
          · exact hm
          · refine ⟨fun x hx => ?_, hm.pending⟩
            rcases List.mem_append.1 hx with hx | hx
            · exact hm.held x hx
            · rw [List.mem_singleton.1 hx]
              exact ⟨m, List.mem_append_right _ (List.mem_singleton.2 rfl), rfl⟩
        · exact hm
      | unregister m =>
        simp only [Rpc.Table.step]
        split
        · exact hfil _ (hsub _ _) (fun _ h => h)
        · exact hm
      | call m =>
        simp only [Rpc.Table.step]
        split
        · exact hm
        · rename_i y hy
          obtain ⟨q, h1, h2⟩ := hm.held y (List.mem_of_find?_eq_some hy)
          have h3 : y.procedure = m.procedure := by simpa using List.find?_some hy
          split
          · exact hm
          · refine ⟨hm.held, fun x hx => ?_⟩
            rcases List.mem_append.1 hx with hx | hx
            · exact hm.pending x hx
            · rw [List.mem_singleton.1 hx]
              exact ⟨m, q, List.mem_append_right _ (List.mem_singleton.2 rfl), rfl, h1, h2.trans h3⟩
      | yield_ m =>
        simp only [Rpc.Table.step]
        split
        · exact hm
        · split
          · exact hm
          · split
            · exact hm
            · split <;> exact hfil _ (fun _ h => h) (hsub _ _)
      | error m =>
        simp only [Rpc.Table.step]
        split
        · exact hm
        · exact hfil _ (fun _ h => h) (hsub _ _)
      | _ => exact hm

theorem broker_meant (sched : List Act) (ops : List Broker.Op) (hl : ops.length < 2 ^ 53) (op : Broker.Op)
    (hs : ∀ op' ∈ ops ++ [op], ∀ t q, brokerCall t q = some op' → .send t q ∈ sched) :
    ∀ x ∈ brokerOut (Broker.outcome ops op), MeantFor sched x.1 x.2 := by
  have ht := (Broker.table_step ops hl op).1
  cases ho : Broker.outcome ops op with
  | error e => intro x hx; simp [brokerOut] at hx
  | ok out =>
    rw [ho] at ht
    simp only [Except.toOption] at ht
    cases op with
    | addSession d =>
      simp only [Pub.Table.step] at ht
      split at ht <;> cases ht; intro x hx; simp [brokerOut] at hx
    | removeSession s =>
      simp only [Pub.Table.step] at ht
      split at ht <;> cases ht; intro x hx; simp [brokerOut] at hx
    | hasSubscription t =>
      simp only [Pub.Table.step] at ht
      cases ht; intro x hx; simp [brokerOut] at hx
    | receivePublish s m =>
      simp only [Pub.Table.step] at ht
      split at ht <;> cases ht
      intro x hx
      simp only [brokerOut, List.mem_append, eventsOf, ackOf] at hx
      rcases hx with hx | hx
      · split at hx
        · rename_i ev hev
          simp only [Option.map_eq_some_iff] at hev
          obtain ⟨_, _, rfl⟩ := hev
          simp only [List.mem_map] at hx
          obtain ⟨r, hr, rfl⟩ := hx
          simp only [Pub.subscribersOf, List.mem_map, List.mem_filter, decide_eq_true_eq] at hr
          obtain ⟨y, ⟨hy, hy'⟩, rfl⟩ := hr
          obtain ⟨q, hq, hq'⟩ := held_topic ops (Nat.le_of_lt hl) y hy
          exact ⟨s, m, q, hs _ (List.mem_append_right _ (List.mem_singleton.2 rfl)) s (.publish m) rfl,
            hs _ (List.mem_append_left _ hq) y.session (.subscribe q) rfl, hq'.trans hy', rfl, rfl⟩
        · cases hx
      · split at hx
        · rename_i r hr
          split at hr <;> cases hr
          rw [List.mem_singleton.1 hx]
          trivial
        · cases hx
    | receiveMessage s m =>
      cases m with
      | subscribe m =>
        simp only [Pub.Table.step] at ht
        split at ht
        · split at ht <;> cases ht <;>
          · intro x hx
            simp only [brokerOut, List.mem_singleton] at hx
            subst hx
            trivial
        · cases ht
      | unsubscribe m =>
        simp only [Pub.Table.step] at ht
        split at ht <;> cases ht
        intro x hx
        simp only [brokerOut, List.mem_singleton] at hx
        subst hx
        trivial
      | _ => simp only [Pub.Table.step, reduceCtorEq] at ht

theorem dealer_meant (sched : List Act) (ops : List Dealer.Op) (hl : ops.length < 2 ^ 53) (op : Dealer.Op)
    (hs : ∀ op' ∈ ops ++ [op], ∀ t q, dealerCall t q = some op' → .send t q ∈ sched) :
    ∀ x ∈ dealerOut (Dealer.outcome ops op), MeantFor sched x.1 x.2 := by
  have hd := Dealer.C30_ids_not_exhausted ops hl
  obtain ⟨hr, hc⟩ := Dealer.rel_after ops hd
  have ht := (Dealer.sim_step (Dealer.wf_after ops) hr hc hd (Dealer.sim_after ops (Nat.le_of_lt hl)) op).1
  change Dealer.graded (Dealer.outcome ops op) = _ at ht
  have hbe := behind ops
  generalize Dealer.tableAfter ops = t at ht hbe
  have old : ∀ {u q op'}, op' ∈ ops → dealerCall u q = some op' → .send u q ∈ sched := fun h h' => hs _ (List.mem_append_left _ h) _ _ h'
  have new : ∀ {u q}, dealerCall u q = some op → .send u q ∈ sched := fun h => hs _ (List.mem_append_right _ (List.mem_singleton.2 rfl)) _ _ h
  cases ho : Dealer.outcome ops op with
  | error e => intro x hx; simp [dealerOut] at hx
  | ok out =>
    rw [ho] at ht
    simp only [Dealer.graded, Option.some.injEq] at ht
    cases op with
    | addSession d =>
      simp only [Rpc.Table.step] at ht
      split at ht <;> cases ht; intro x hx; simp [dealerOut] at hx
    | removeSession s =>
      simp only [Rpc.Table.step] at ht
      split at ht <;> cases ht; intro x hx; simp [dealerOut] at hx
    | hasRegistration p =>
      simp only [Rpc.Table.step] at ht
      cases ht; intro x hx; simp [dealerOut] at hx
    | receiveMessage u m =>
      cases m with
      | register m =>
        simp only [Rpc.Table.step] at ht
        split at ht
        · split at ht <;> cases ht <;> intro x hx <;> simp only [dealerOut, List.mem_singleton] at hx <;> subst hx
          · exact .inl ⟨rfl, rfl, rfl⟩
          · trivial
        · cases ht
      | unregister m =>
        simp only [Rpc.Table.step] at ht
        split at ht <;> cases ht
        intro x hx; simp only [dealerOut, List.mem_singleton] at hx; subst hx
        trivial
      | call m =>
        simp only [Rpc.Table.step] at ht
        split at ht
        · cases ht
          intro x hx; simp only [dealerOut, List.mem_singleton] at hx; subst hx
          exact .inl ⟨rfl, rfl, rfl⟩
        · rename_i y hy
          obtain ⟨q, h1, h2⟩ := hbe.held y (List.mem_of_find?_eq_some hy)
          have h3 : y.procedure = m.procedure := by simpa using List.find?_some hy
          split at ht <;> cases ht <;>
          · intro x hx; simp only [dealerOut, List.mem_singleton] at hx; subst hx
            exact ⟨u, m, q, new rfl, old h1 rfl, h2.trans h3, rfl, rfl, rfl⟩
      | yield_ m =>
        simp only [Rpc.Table.step] at ht
        split at ht
        · cases ht
        · rename_i y hy
          obtain ⟨c, q, h1, h2, h3, h4⟩ := hbe.pending y (List.mem_of_find?_eq_some hy)
          split at ht
          · cases ht
          · rename_i hu
            have hu' : y.callee = u := by
              by_cases h : u = y.callee
              · exact h.symm
              · exact absurd h hu
            subst hu'
            split at ht
            · cases ht
              intro x hx; simp only [dealerOut, List.mem_singleton] at hx; subst hx
              exact ⟨c, _, m, q, old h1 rfl, new rfl, old h3 rfl, h4, h2.symm, rfl, rfl, nofun⟩
            · split at ht <;> cases ht
              intro x hx; simp only [dealerOut, List.mem_singleton] at hx; subst hx
              exact ⟨c, _, m, q, old h1 rfl, new rfl, old h3 rfl, h4, h2.symm, rfl, rfl, nofun⟩
      | error m =>
        simp only [Rpc.Table.step] at ht
        split at ht
        · cases ht
        · rename_i y hy
          have hy' : y ∈ t.pending := by
            split at hy
            · exact List.mem_of_find?_eq_some hy
            · cases hy
          obtain ⟨c, q, h1, h2, -, -⟩ := hbe.pending y hy'
          cases ht
          intro x hx; simp only [dealerOut, List.mem_singleton] at hx; subst hx
          exact .inr ⟨c, u, m, old h1 rfl, new rfl, h2.symm, rfl, rfl, rfl, rfl⟩
      | _ => simp only [Rpc.Table.step, reduceCtorEq] at ht

/-! ## The network -/

variable {W : Type}

theorem broker_from {s s' : Int} {q q' : Message} {op : Broker.Op} (h : brokerCall s q = some op) (h' : brokerCall s' q' = some op) :
    s = s' ∧ q = q' := by
  cases q <;> simp only [brokerCall, Option.some.injEq, reduceCtorEq] at h <;> subst h <;>
    cases q' <;> simp only [brokerCall, Option.some.injEq, reduceCtorEq, Broker.Op.receiveMessage.injEq, Broker.Op.receivePublish.injEq,
      Message.subscribe.injEq, Message.unsubscribe.injEq, and_false] at h' <;> exact ⟨h'.1.symm, by rw [h'.2]⟩

theorem dealer_from {s s' : Int} {q q' : Message} {op : Dealer.Op} (h : dealerCall s q = some op) (h' : dealerCall s' q' = some op) :
    s = s' ∧ q = q' := by
  cases q <;> simp only [dealerCall, Option.some.injEq, reduceCtorEq] at h <;> subst h <;>
    cases q' <;> simp only [dealerCall, Option.some.injEq, reduceCtorEq, Dealer.Op.receiveMessage.injEq, Message.register.injEq,
      Message.unregister.injEq, Message.call.injEq, Message.yield_.injEq, Message.error.injEq, and_false] at h' <;>
    exact ⟨h'.1.symm, by rw [h'.2]⟩

theorem MeantFor.mono {sched sched' : List Act} (h : ∀ a ∈ sched, a ∈ sched') {s : Int} {m : Message} (hm : MeantFor sched s m) :
    MeantFor sched' s m := by
  cases m with
  | event e =>
    obtain ⟨t, p, q, h1, h2, h3⟩ := hm
    exact ⟨t, p, q, h _ h1, h _ h2, h3⟩
  | invocation v =>
    obtain ⟨t, p, q, h1, h2, h3⟩ := hm
    exact ⟨t, p, q, h _ h1, h _ h2, h3⟩
  | result r =>
    obtain ⟨c, t, y, q, h1, h2, h3, h4⟩ := hm
    exact ⟨c, t, y, q, h _ h1, h _ h2, h _ h3, h4⟩
  | error e =>
    rcases hm with hm | ⟨c, t, f, h1, h2, h3⟩
    · exact .inl hm
    · exact .inr ⟨c, t, f, h _ h1, h _ h2, h3⟩
  | _ => exact hm

/-- Everything the router has had, has to read and has sent -/
structure OInv (n : Net W) (sched : List Act) : Prop where
  broker : ∀ op ∈ n.broker, ∀ t q, brokerCall t q = some op → .send t q ∈ sched
  dealer : ∀ op ∈ n.dealer, ∀ t q, dealerCall t q = some op → .send t q ∈ sched
  up : ∀ s k, n.conns s = some k → ∀ m ∈ k.up, .send s m ∈ sched
  sent : ∀ s k, n.conns s = some k → ∀ m ∈ k.sentTo, MeantFor sched s m

theorem OInv.mono {n : Net W} {sched : List Act} (h : OInv n sched) (a : Act) : OInv n (sched ++ [a]) :=
  ⟨fun op h1 t q h2 => List.mem_append_left _ (h.broker op h1 t q h2), fun op h1 t q h2 => List.mem_append_left _ (h.dealer op h1 t q h2),
    fun s k h1 m h2 => List.mem_append_left _ (h.up s k h1 m h2),
    fun s k h1 m h2 => MeantFor.mono (fun _ h => List.mem_append_left _ h) (h.sent s k h1 m h2)⟩

theorem OInv.push {n : Net W} {sched : List Act} (h : OInv n sched) (l : List (Int × Message)) (hl : ∀ x ∈ l, MeantFor sched x.1 x.2) :
    OInv (n.push l) sched := by
  refine ⟨h.broker, h.dealer, fun s k hk => ?_, fun s k hk m hm => ?_⟩
  · simp only [Net.push, Option.map_eq_some_iff] at hk
    obtain ⟨k', h', rfl⟩ := hk
    exact h.up s k' h'
  · simp only [Net.push, Option.map_eq_some_iff] at hk
    obtain ⟨k', h', rfl⟩ := hk
    simp only [Conn.sentTo, ← List.append_assoc] at hm
    rcases List.mem_append.1 hm with hm | hm
    · exact h.sent s k' h' m hm
    · simp only [inbox, List.mem_map, List.mem_filter, decide_eq_true_eq] at hm
      obtain ⟨x, ⟨hx, rfl⟩, rfl⟩ := hm
      exact hl x hx

theorem OInv.set {n : Net W} {sched : List Act} (h : OInv n sched) (t : Int) (k : Option (Conn W))
    (hk : ∀ k', k = some k' → (∀ m ∈ k'.up, .send t m ∈ sched) ∧ ∀ m ∈ k'.sentTo, MeantFor sched t m) : OInv (n.setConn t k) sched := by
  refine ⟨h.broker, h.dealer, fun s k' h' => ?_, fun s k' h' => ?_⟩ <;> simp only [Net.setConn] at h' <;> split at h'
  · rename_i e; subst e; exact (hk k' h').1
  · exact h.up s k' h'
  · rename_i e; subst e; exact (hk k' h').2
  · exact h.sent s k' h'

theorem oinv_run (c : Codec W) (sched : List Act) (hl : sched.length ≤ 2 ^ 53) : OInv (run c sched) sched := by
  induction sched using snoc_induction with
  | nil =>
    refine ⟨fun op h => ?_, fun op h => ?_, fun s k h => ?_, fun s k h => ?_⟩
    · cases h
    · cases h
    · cases h
    · cases h
  | snoc sched a ih =>
    have hN : sched.length < 2 ^ 53 := by rw [List.length_append] at hl; exact hl
    have hi := (ih (Nat.le_of_lt hN)).mono a
    have hb := base_run c sched (Nat.le_of_lt hN)
    rw [run_snoc]
    generalize run c sched = n at hi hb ⊢
    have sess : ∀ b d, (∀ t q, brokerCall t q ≠ some b) → (∀ t q, dealerCall t q ≠ some d) →
        OInv ({ n with broker := n.broker ++ [b], dealer := n.dealer ++ [d] } : Net W) (sched ++ [a]) := by
      intro b d h1 h2
      refine ⟨fun op h t q h' => ?_, fun op h t q h' => ?_, hi.up, hi.sent⟩
      · rcases List.mem_append.1 h with h | h
        · exact hi.broker op h t q h'
        · rw [List.mem_singleton.1 h] at h'; exact absurd h' (h1 t q)
      · rcases List.mem_append.1 h with h | h
        · exact hi.dealer op h t q h'
        · rw [List.mem_singleton.1 h] at h'; exact absurd h' (h2 t q)
    cases a with
    | join d =>
      have h1 := sess (.addSession d) (.addSession d) (by intro t q h; cases q <;> simp [brokerCall] at h)
        (by intro t q h; cases q <;> simp [dealerCall] at h)
      simp only [Net.step]
      split
      · refine h1.set _ _ ?_
        rintro k' ⟨⟩
        exact ⟨nofun, nofun⟩
      · exact h1
    | leave u =>
      have h1 := sess (.removeSession u) (.removeSession u) (by intro t q h; cases q <;> simp [brokerCall] at h)
        (by intro t q h; cases q <;> simp [dealerCall] at h)
      exact h1.set _ _ nofun
    | send u m =>
      simp only [Net.step]
      cases hk : n.conns u with
      | none => exact hi
      | some k =>
        refine hi.set u _ ?_
        rintro k' ⟨⟩
        refine ⟨fun m' hm' => ?_, fun m' hm' => hi.sent u k hk m' ?_⟩
        · dsimp only at hm'
          split at hm'
          · rcases List.mem_append.1 hm' with h | h
            · exact hi.up u k hk m' h
            · rw [List.mem_singleton.1 h]; exact List.mem_append_right _ (List.mem_singleton.2 rfl)
          · exact hi.up u k hk m' hm'
        · simpa only [Conn.sentTo, List.filterMap_append, List.filterMap_cons, List.filterMap_nil, List.append_nil] using hm'
    | deliver u =>
      simp only [Net.step]
      cases hk : n.conns u with
      | none => exact hi
      | some k =>
        dsimp only
        split
        · exact hi
        · rename_i m rest hd
          refine hi.set u _ ?_
          rintro k' ⟨⟩
          refine ⟨hi.up u k hk, fun m' hm' => hi.sent u k hk m' ?_⟩
          simpa only [Conn.sentTo, hd, List.filterMap_append, List.filterMap_cons, List.filterMap_nil, List.append_assoc,
            List.cons_append, List.nil_append] using hm'
    | route u =>
      simp only [Net.step]
      cases hk : n.conns u with
      | none => exact hi
      | some k =>
        dsimp only
        split
        · exact hi
        · rename_i m rest hu
          have hset : OInv (n.setConn u (some { k with up := rest })) (sched ++ [.route u]) := by
            refine hi.set u _ ?_
            rintro k' ⟨⟩
            exact ⟨fun m' h' => hi.up u k hk m' (by rw [hu]; exact List.mem_cons_of_mem _ h'), hi.sent u k hk⟩
          have hm := hi.up u k hk m (by rw [hu]; exact List.mem_cons_self)
          simp only [Net.handle]
          split
          · rename_i op hop
            have hb' : ∀ op' ∈ n.broker ++ [op], ∀ t q, brokerCall t q = some op' → .send t q ∈ sched ++ [Act.route u] := by
              intro op' h t q h'
              rcases List.mem_append.1 h with h | h
              · exact hi.broker op' h t q h'
              · rw [List.mem_singleton.1 h] at h'
                obtain ⟨rfl, rfl⟩ := broker_from h' hop
                exact hm
            refine OInv.push (n := { n.setConn u (some { k with up := rest }) with broker := n.broker ++ [op] })
              ⟨hb', hset.dealer, hset.up, hset.sent⟩ _ ?_
            exact broker_meant _ n.broker (Nat.lt_of_le_of_lt hb.bl hN) op hb'
          · rename_i op hop' hop
            have hb' : ∀ op' ∈ n.dealer ++ [op], ∀ t q, dealerCall t q = some op' → .send t q ∈ sched ++ [Act.route u] := by
              intro op' h t q h'
              rcases List.mem_append.1 h with h | h
              · exact hi.dealer op' h t q h'
              · rw [List.mem_singleton.1 h] at h'
                obtain ⟨rfl, rfl⟩ := dealer_from h' hop
                exact hm
            refine OInv.push (n := { n.setConn u (some { k with up := rest }) with dealer := n.dealer ++ [op] })
              ⟨hset.broker, hb', hset.up, hset.sent⟩ _ ?_
            exact dealer_meant _ n.dealer (Nat.lt_of_le_of_lt hb.dl hN) op hb'
          · exact hset

/-- Whatever all clients send, the contents of every message the router has sent to a session id were meant for it. -/
theorem C142_nobody_overhears (c : Codec W) (sched : List Act) (hl : sched.length ≤ 2 ^ 53) (s : Int) (k : Conn W)
    (hk : (run c sched).conns s = some k) (m : Message) (hm : m ∈ k.sentTo) : MeantFor sched s m :=
  (oinv_run c sched hl).sent s k hk m hm

/-- In particular, who never asked to subscribe to a topic is sent no EVENT with contents published to that topic only, and who never
asked to register a procedure no INVOCATION with contents of calls of that procedure only. -/
theorem C142_topics_are_private (c : Codec W) (sched : List Act) (hl : sched.length ≤ 2 ^ 53) (s : Int) (k : Conn W)
    (hk : (run c sched).conns s = some k) (topic : String) (hs : ∀ q, .send s (.subscribe q) ∈ sched → q.topic ≠ topic) (args : Option (List Value))
    (kwargs : Option PyDict) (hp : ∀ t p, .send t (.publish p) ∈ sched → p.args = args → p.kwargs = kwargs → p.topic = topic) (e : Event)
    (ha : e.args = args) (hkw : e.kwargs = kwargs) : .event e ∉ k.sentTo := by
  intro hm
  obtain ⟨t, p, q, h1, h2, h3, h4, h5⟩ := C142_nobody_overhears c sched hl s k hk _ hm
  exact hs q h2 (h3.trans (hp t p h1 (h4.symm.trans ha) (h5.symm.trans hkw)))

theorem C142_procedures_are_private (c : Codec W) (sched : List Act) (hl : sched.length ≤ 2 ^ 53) (s : Int) (k : Conn W)
    (hk : (run c sched).conns s = some k) (procedure : String) (hs : ∀ q, .send s (.register q) ∈ sched → q.procedure ≠ procedure)
    (args : Option (List Value)) (kwargs : Option PyDict)
    (hp : ∀ t p, .send t (.call p) ∈ sched → p.args = args → p.kwargs = kwargs → p.procedure = procedure) (v : Invocation)
    (ha : v.args = args) (hkw : v.kwargs = kwargs) : .invocation v ∉ k.sentTo := by
  intro hm
  obtain ⟨t, p, q, h1, h2, h3, h4, h5, -⟩ := C142_nobody_overhears c sched hl s k hk _ hm
  exact hs q h2 (h3.trans (hp t p h1 (h4.symm.trans ha) (h5.symm.trans hkw)))

/-! ## An example -/

/-- Two clients subscribe to different topics, a third publishes a secret to one of them and something else to the other. -/
def whispered : List Act :=
  [.join ⟨.int 1, "r", none, none⟩, .join ⟨.int 2, "r", none, none⟩, .join ⟨.int 3, "r", none, none⟩,
   .send 1 (.subscribe ⟨.int 1, "private", []⟩), .route 1, .send 2 (.subscribe ⟨.int 1, "public", []⟩), .route 2,
   .send 3 (.publish ⟨.int 1, "private", some [.str "secret"], none, []⟩), .route 3,
   .send 3 (.publish ⟨.int 2, "public", some [.str "news"], none, []⟩), .route 3]

example : (((run objects whispered).conns 1).map fun k => k.sentTo.map fun | .event e => e.args | _ => none) =
      some [none, some [.str "secret"]] ∧
    (((run objects whispered).conns 2).map fun k => k.sentTo.map fun | .event e => e.args | _ => none) =
      some [none, some [.str "news"]] := by decide +kernel

/-- The hypotheses of `C142_topics_are_private` hold for client 2, the private topic and the secret. -/
example : (∀ q, .send 2 (.subscribe q) ∈ whispered → q.topic ≠ "private") ∧
    ∀ t p, .send t (.publish p) ∈ whispered → p.args = some [.str "secret"] → p.kwargs = none → p.topic = "private" := by
  have e : (2 : Int) ≠ 1 := by decide
  constructor
  · intro q h
    simp only [whispered, List.mem_cons, reduceCtorEq, Act.send.injEq, Message.subscribe.injEq, e, false_and, and_false, true_and,
      List.not_mem_nil, or_false, false_or] at h
    subst h
    decide
  · intro t p h ha _
    simp only [whispered, List.mem_cons, reduceCtorEq, Act.send.injEq, Message.publish.injEq, and_false, List.not_mem_nil, or_false,
      false_or] at h
    rcases h with ⟨-, rfl⟩ | ⟨-, rfl⟩
    · rfl
    · revert ha; decide

/-- Client 1 registers a procedure, client 2 calls it, and client 3, who has registered nothing, sends an ERROR for the invocation. -/
def intruded : List Act :=
  [.join ⟨.int 1, "r", none, none⟩, .join ⟨.int 2, "r", none, none⟩, .join ⟨.int 3, "r", none, none⟩,
   .send 1 (.register ⟨.int 1, "add", []⟩), .route 1,
   .send 2 (.call { requestId := .int 1, procedure := "add" }), .route 2,
   .send 3 (.error { messageType := .int Invocation.TYPE, requestId := .int 2, uri := "wrong", args := some [.str "from a stranger"] }), .route 3]

/-- For an ERROR no more can be said than that somebody has sent it: the dealer does not check that it comes from the callee. -/
theorem C142_errors_from_anybody : (∀ q, .send 3 (.register q) ∉ intruded) ∧
    ∃ k, (run objects intruded).conns 2 = some k ∧
      k.sentTo = [.error { messageType := .int Call.TYPE, requestId := .int 1, uri := "wrong", args := some [.str "from a stranger"] }] := by
  have e : (3 : Int) ≠ 1 := by decide
  refine ⟨fun q h => ?_, ?_⟩
  · simp only [intruded, List.mem_cons, reduceCtorEq, Act.send.injEq, e, false_and, and_false, List.not_mem_nil, or_false] at h
  · have h : ((run objects intruded).conns 2).map Conn.sentTo =
        some [.error { messageType := .int Call.TYPE, requestId := .int 1, uri := "wrong", args := some [.str "from a stranger"] }] := by
      decide +kernel
    simpa only [Option.map_eq_some_iff] using h

end Wamp.Spec.Overheard
