import Verif.Spec.Asked
import Verif.Props.Broker
import Verif.Props.BrokerTable
import Verif.Props.DealerTable
import Verif.Proofs.NetBase
import Verif.Proofs.ByteNet

/-! # C139: nobody gets what they have not asked for -/

set_option linter.unusedSimpArgs false

namespace Wamp.Spec.Asked
open Wamp.Spec.Net Wamp.Spec.Ses

/-! ## One call -/

theorem held_subscribed (ops : List Broker.Op) (hl : ops.length ≤ 2 ^ 53) (x : Pub.Holding)
    (hx : x ∈ (Pub.view (Broker.trace ops)).held) : ∃ m, .receiveMessage x.session (.subscribe m) ∈ ops := by
  obtain ⟨pre, e, post, h1, ⟨m, r, rec, rfl, -⟩, -⟩ := (Broker.held_iff ops x.session x.topic x.id (Broker.C19_no_clash ops hl)).1 hx
  refine ⟨m, ?_⟩
  rw [← (Broker.C79_broker_is_table ops hl).1, h1]
  simp

theorem held_registered (ops : List Dealer.Op) (hl : ops.length ≤ 2 ^ 53) (x : Rpc.Reg)
    (hx : x ∈ (Rpc.view (Dealer.trace ops)).held) : ∃ m, .receiveMessage x.session (.register m) ∈ ops := by
  obtain ⟨pre, e, post, h1, ⟨m, r, rec, rfl, -⟩, -⟩ := (Dealer.held_iff _ x).1 hx
  refine ⟨m, ?_⟩
  rw [← (Dealer.C80_dealer_is_table ops hl).1, h1]
  simp

theorem pending_called (ops : List Dealer.Op) (hl : ops.length ≤ 2 ^ 53) (x : Rpc.Pending)
    (hx : x ∈ (Rpc.view (Dealer.trace ops)).pending) : ∃ m, .receiveMessage x.caller (.call m) ∈ ops ∧ m.requestId = x.request ∧
      x.wantsProgress = PyDict.flag m.options "receive_progress" := by
  obtain ⟨pre, e, post, h1, ⟨⟨m, r, rfl, -, h2, h3⟩, -⟩, -⟩ := (Dealer.pending_iff _ x).1 hx
  refine ⟨m, ?_, h2, h3⟩
  rw [← (Dealer.C80_dealer_is_table ops hl).1, h1]
  simp

/-- Whatever the broker sends to anyone is owed to a message it has had from them. -/
theorem C139_broker (ops : List Broker.Op) (hl : ops.length < 2 ^ 53) (op : Broker.Op) :
    ∀ x ∈ brokerOut (Broker.outcome ops op), ∃ q op', op' ∈ ops ++ [op] ∧ brokerCall x.1 q = some op' ∧ OwedTo q x.2 := by
  have ht := (Broker.table_step ops hl op).1
  have hh : ∀ x ∈ (Pub.view (Broker.trace ops)).held, _ := fun x hx => held_subscribed ops (Nat.le_of_lt hl) x hx
  cases ho : Broker.outcome ops op with
  | error e => intro x hx; simp [brokerOut] at hx
  | ok out =>
    rw [ho] at ht
    simp only [Except.toOption] at ht
    cases op with
    | addSession d =>
      simp only [Pub.Table.step] at ht
      split at ht <;> cases ht; intro x hx; simp [brokerOut] at hx
    | removeSession s =>
      simp only [Pub.Table.step] at ht
      split at ht <;> cases ht; intro x hx; simp [brokerOut] at hx
    | hasSubscription t =>
      simp only [Pub.Table.step] at ht
      cases ht; intro x hx; simp [brokerOut] at hx
    | receivePublish s m =>
      simp only [Pub.Table.step] at ht
      split at ht <;> cases ht
      intro x hx
      simp only [brokerOut, List.mem_append, eventsOf, ackOf] at hx
      rcases hx with hx | hx
      · split at hx
        · simp only [List.mem_map] at hx
          obtain ⟨r, hr, rfl⟩ := hx
          simp only [Pub.subscribersOf, List.mem_map, List.mem_filter] at hr
          obtain ⟨y, ⟨hy, -⟩, rfl⟩ := hr
          obtain ⟨q, hq⟩ := hh y hy
          exact ⟨.subscribe q, _, List.mem_append_left _ hq, rfl, trivial⟩
        · cases hx
      · split at hx
        · rename_i r hr
          split at hr <;> cases hr
          rename_i hf
          rw [List.mem_singleton.1 hx]
          exact ⟨.publish m, _, List.mem_append_right _ (List.mem_singleton.2 rfl), rfl, rfl, hf⟩
        · cases hx
    | receiveMessage s m =>
      cases m with
      | subscribe m =>
        simp only [Pub.Table.step] at ht
        split at ht
        · split at ht <;> cases ht <;>
          · intro x hx
            simp only [brokerOut, List.mem_singleton] at hx
            subst hx
            exact ⟨.subscribe m, _, List.mem_append_right _ (List.mem_singleton.2 rfl), rfl, rfl⟩
        · cases ht
      | unsubscribe m =>
        simp only [Pub.Table.step] at ht
        split at ht <;> cases ht
        intro x hx
        simp only [brokerOut, List.mem_singleton] at hx
        subst hx
        exact ⟨.unsubscribe m, _, List.mem_append_right _ (List.mem_singleton.2 rfl), rfl, rfl⟩
      | _ => simp only [Pub.Table.step, reduceCtorEq] at ht

/-- Whatever the dealer sends to anyone is owed to a message it has had from them. -/
theorem C139_dealer (ops : List Dealer.Op) (hl : ops.length < 2 ^ 53) (op : Dealer.Op) :
    ∀ x ∈ dealerOut (Dealer.outcome ops op), ∃ q op', op' ∈ ops ++ [op] ∧ dealerCall x.1 q = some op' ∧ OwedTo q x.2 := by
  have hd := Dealer.C30_ids_not_exhausted ops hl
  obtain ⟨hr, hc⟩ := Dealer.rel_after ops hd
  have hs := Dealer.sim_after ops (Nat.le_of_lt hl)
  have ht := (Dealer.sim_step (Dealer.wf_after ops) hr hc hd hs op).1
  change Dealer.graded (Dealer.outcome ops op) = _ at ht
  have hh : ∀ x ∈ (Dealer.tableAfter ops).held, _ := fun x hx => held_registered ops (Nat.le_of_lt hl) x (hs.held ▸ hx)
  have hp : ∀ x ∈ (Dealer.tableAfter ops).pending, _ := fun x hx => pending_called ops (Nat.le_of_lt hl) x (hs.pending ▸ hx)
  generalize Dealer.tableAfter ops = t at ht hh hp
  cases ho : Dealer.outcome ops op with
  | error e => intro x hx; simp [dealerOut] at hx
  | ok out =>
    rw [ho] at ht
    simp only [Dealer.graded, Option.some.injEq] at ht
    cases op with
    | addSession d =>
      simp only [Rpc.Table.step] at ht
      split at ht <;> cases ht; intro x hx; simp [dealerOut] at hx
    | removeSession s =>
      simp only [Rpc.Table.step] at ht
      split at ht <;> cases ht; intro x hx; simp [dealerOut] at hx
    | hasRegistration p =>
      simp only [Rpc.Table.step] at ht
      cases ht; intro x hx; simp [dealerOut] at hx
    | receiveMessage s m =>
      cases m with
      | register m =>
        simp only [Rpc.Table.step] at ht
        split at ht
        · split at ht <;> cases ht
          · intro x hx
            simp only [dealerOut, List.mem_singleton] at hx
            subst hx
            exact ⟨.register m, _, List.mem_append_right _ (List.mem_singleton.2 rfl), rfl, rfl, rfl⟩
          · intro x hx
            simp only [dealerOut, List.mem_singleton] at hx
            subst hx
            exact ⟨.register m, _, List.mem_append_right _ (List.mem_singleton.2 rfl), rfl, rfl⟩
        · cases ht
      | unregister m =>
        simp only [Rpc.Table.step] at ht
        split at ht <;> cases ht
        intro x hx; simp only [dealerOut, List.mem_singleton] at hx; subst hx
        exact ⟨.unregister m, _, List.mem_append_right _ (List.mem_singleton.2 rfl), rfl, rfl⟩
      | call m =>
        simp only [Rpc.Table.step] at ht
        split at ht
        · cases ht
          intro x hx; simp only [dealerOut, List.mem_singleton] at hx; subst hx
          exact ⟨.call m, _, List.mem_append_right _ (List.mem_singleton.2 rfl), rfl, rfl, rfl⟩
        · rename_i y hy
          obtain ⟨q, hq⟩ := hh y (List.mem_of_find?_eq_some hy)
          split at ht <;> cases ht <;>
          · intro x hx; simp only [dealerOut, List.mem_singleton] at hx; subst hx
            exact ⟨.register q, _, List.mem_append_left _ hq, rfl, trivial⟩
      | yield_ m =>
        simp only [Rpc.Table.step] at ht
        split at ht
        · cases ht
        · rename_i y hy
          obtain ⟨q, hq, h1, h2⟩ := hp y (List.mem_of_find?_eq_some hy)
          split at ht
          · cases ht
          · split at ht
            · rename_i hf
              cases ht
              intro x hx; simp only [dealerOut, List.mem_singleton] at hx; subst hx
              rw [Bool.and_eq_true] at hf
              exact ⟨.call q, _, List.mem_append_left _ hq, rfl, h1.symm, fun _ => h2 ▸ hf.2⟩
            · split at ht <;> cases ht
              intro x hx; simp only [dealerOut, List.mem_singleton] at hx; subst hx
              exact ⟨.call q, _, List.mem_append_left _ hq, rfl, h1.symm, fun h => by cases h⟩
      | error m =>
        simp only [Rpc.Table.step] at ht
        split at ht
        · cases ht
        · rename_i y hy
          have hy' : y ∈ t.pending := by
            split at hy
            · exact List.mem_of_find?_eq_some hy
            · cases hy
          obtain ⟨q, hq, h1, -⟩ := hp y hy'
          cases ht
          intro x hx; simp only [dealerOut, List.mem_singleton] at hx; subst hx
          exact ⟨.call q, _, List.mem_append_left _ hq, rfl, h1.symm, rfl⟩
      | _ => simp only [Rpc.Table.step, reduceCtorEq] at ht

/-! ## The network -/

variable {W : Type}

theorem sent_data {c : Codec W} {calls : List (WAMPSession.Op W)} {m : Message} {w : W}
    (h : WAMPSession.outcome c calls (.sendMessage m) = .ok (.data w)) : c.serialize m = .ok w := by
  simp only [WAMPSession.outcome, WAMPSession.step] at h
  generalize WAMPSession.after c calls = st at h
  have key : (st.sendMessage c m).2 = .ok w := by
    generalize (st.sendMessage c m).2 = r at h
    cases r <;> simp only [Except.map, Except.ok.injEq, WAMPSession.Out.data.injEq, reduceCtorEq] at h
    rw [h]
  unfold WAMPSession.sendMessage at key
  cases m <;> dsimp only at key <;> (try split at key) <;> first | exact key | cases key

theorem broker_caller {s s' : Int} {q q' : Message} {op : Broker.Op} (h : brokerCall s q = some op) (h' : brokerCall s' q' = some op) :
    s = s' ∧ q = q' := by
  cases q <;> simp only [brokerCall, Option.some.injEq, reduceCtorEq] at h <;> subst h <;>
    cases q' <;> simp only [brokerCall, Option.some.injEq, reduceCtorEq, Broker.Op.receiveMessage.injEq, Broker.Op.receivePublish.injEq,
      Message.subscribe.injEq, Message.unsubscribe.injEq, and_false] at h' <;> exact ⟨h'.1.symm, by rw [h'.2]⟩

theorem dealer_caller {s s' : Int} {q q' : Message} {op : Dealer.Op} (h : dealerCall s q = some op) (h' : dealerCall s' q' = some op) :
    s = s' ∧ q = q' := by
  cases q <;> simp only [dealerCall, Option.some.injEq, reduceCtorEq] at h <;> subst h <;>
    cases q' <;> simp only [dealerCall, Option.some.injEq, reduceCtorEq, Dealer.Op.receiveMessage.injEq, Message.register.injEq,
      Message.unregister.injEq, Message.call.injEq, Message.yield_.injEq, Message.error.injEq, and_false] at h' <;>
    exact ⟨h'.1.symm, by rw [h'.2]⟩

/-- What the router has had from `s`, what is on its way from `s`, and what `s` has been sent -/
structure AInv (c : Codec W) (s : Int) (n : BNet W) (sched : List Act) : Prop where
  bl : n.broker.length ≤ sched.length
  dl : n.dealer.length ≤ sched.length
  broker : ∀ op ∈ n.broker, ∀ q, brokerCall s q = some op → ∃ q0, .send s q0 ∈ sched ∧ q = received q0
  dealer : ∀ op ∈ n.dealer, ∀ q, dealerCall s q = some op → ∃ q0, .send s q0 ∈ sched ∧ q = received q0
  up : ∀ k, n.conns s = some k → ∀ w ∈ k.up, ∃ q0, .send s q0 ∈ sched ∧ c.serialize q0 = .ok w
  gets : ∀ k, n.conns s = some k → ∀ w, k.Gets w → ∃ m q0, c.serialize m = .ok w ∧ .send s q0 ∈ sched ∧ OwedTo (received q0) m

theorem AInv.mono {c : Codec W} {s : Int} {n : BNet W} {sched : List Act} (h : AInv c s n sched) (a : Act) : AInv c s n (sched ++ [a]) := by
  have e : ∀ {P : Message → Prop}, (∃ q0, .send s q0 ∈ sched ∧ P q0) → ∃ q0, .send s q0 ∈ sched ++ [a] ∧ P q0 :=
    fun ⟨q, h1, h2⟩ => ⟨q, List.mem_append_left _ h1, h2⟩
  refine ⟨?_, ?_, fun op h1 q h2 => e (h.broker op h1 q h2), fun op h1 q h2 => e (h.dealer op h1 q h2),
    fun k h1 w h2 => e (h.up k h1 w h2), fun k h1 w h2 => ?_⟩
  · rw [List.length_append]; exact Nat.le_add_right_of_le h.bl
  · rw [List.length_append]; exact Nat.le_add_right_of_le h.dl
  · obtain ⟨m, q, h3, h4, h5⟩ := h.gets k h1 w h2
    exact ⟨m, q, h3, List.mem_append_left _ h4, h5⟩

theorem AInv.push {cs : Int → Codec W} {s : Int} {n : BNet W} {sched : List Act} (h : AInv (cs s) s n sched) (out : List (Int × Message))
    (ho : ∀ x ∈ out, x.1 = s → ∃ q0, .send s q0 ∈ sched ∧ OwedTo (received q0) x.2) : AInv (cs s) s (n.push cs out) sched := by
  refine ⟨h.bl, h.dl, h.broker, h.dealer, ?_, ?_⟩
  · intro k hk
    simp only [BNet.push, Option.map_eq_some_iff] at hk
    obtain ⟨k', h', rfl⟩ := hk
    exact h.up k' h'
  · intro k hk w hw
    simp only [BNet.push, Option.map_eq_some_iff] at hk
    obtain ⟨k', h', rfl⟩ := hk
    rcases hw with hw | hw
    · rcases List.mem_append.1 hw with hw | hw
      · exact h.gets k' h' w (.inl hw)
      · obtain ⟨m, hm, hw⟩ := List.mem_filterMap.1 hw
        simp only [inbox, List.mem_map, List.mem_filter, decide_eq_true_eq] at hm
        obtain ⟨x, ⟨hx, hxs⟩, rfl⟩ := hm
        obtain ⟨q0, h1, h2⟩ := ho x hx hxs
        refine ⟨x.2, q0, ?_, h1, h2⟩
        cases e : (cs s).serialize x.2 with
        | error _ => rw [e] at hw; cases hw
        | ok w' => rw [e] at hw; cases hw; rfl
    · exact h.gets k' h' w (.inr hw)

theorem AInv.set {c : Codec W} {s : Int} {n : BNet W} {sched : List Act} (h : AInv c s n sched) (t : Int) (k : Option (BConn W))
    (hk : ∀ k', t = s → k = some k' → (∀ w ∈ k'.up, ∃ q0, .send s q0 ∈ sched ∧ c.serialize q0 = .ok w) ∧
      ∀ w, k'.Gets w → ∃ m q0, c.serialize m = .ok w ∧ .send s q0 ∈ sched ∧ OwedTo (received q0) m) : AInv c s (n.setConn t k) sched := by
  refine ⟨h.bl, h.dl, h.broker, h.dealer, ?_, ?_⟩ <;>
  · intro k' h'
    simp only [BNet.setConn] at h'
    split at h'
    · rename_i e
      first
      | exact (hk k' e.symm h').1
      | exact (hk k' e.symm h').2
    · first
      | exact h.up k' h'
      | exact h.gets k' h'

theorem ainv_run (cs : Int → Codec W) (s : Int) (sched : List Act) (hl : sched.length ≤ 2 ^ 53) (hs : ReadBack (cs s) s sched) :
    AInv (cs s) s (brun cs sched) sched := by
  induction sched using snoc_induction with
  | nil =>
    refine ⟨Nat.le_refl _, Nat.le_refl _, fun op h => ?_, fun op h => ?_, fun k h => ?_, fun k h => ?_⟩
    · cases h
    · cases h
    · cases h
    · cases h
  | snoc sched a ih =>
    have hN : sched.length < 2 ^ 53 := by rw [List.length_append] at hl; exact hl
    have hi := ih (Nat.le_of_lt hN) (fun q h => hs q (List.mem_append_left _ h))
    rw [brun_snoc]
    generalize brun cs sched = n at hi ⊢
    have hi' := hi.mono a
    have hlen : (sched ++ [a]).length = sched.length + 1 := by simp
    have bcall : ∀ op, (∀ q, brokerCall s q = some op → ∃ q0, .send s q0 ∈ sched ++ [a] ∧ q = received q0) →
        ∀ op' ∈ n.broker ++ [op], ∀ q, brokerCall s q = some op' → ∃ q0, .send s q0 ∈ sched ++ [a] ∧ q = received q0 := by
      intro op h op' hop'
      rcases List.mem_append.1 hop' with h' | h'
      · exact hi'.broker op' h'
      · rw [List.mem_singleton.1 h']; exact h
    have dcall : ∀ op, (∀ q, dealerCall s q = some op → ∃ q0, .send s q0 ∈ sched ++ [a] ∧ q = received q0) →
        ∀ op' ∈ n.dealer ++ [op], ∀ q, dealerCall s q = some op' → ∃ q0, .send s q0 ∈ sched ++ [a] ∧ q = received q0 := by
      intro op h op' hop'
      rcases List.mem_append.1 hop' with h' | h'
      · exact hi'.dealer op' h'
      · rw [List.mem_singleton.1 h']; exact h
    cases a with
    | join d =>
      have h1 : AInv (cs s) s ({ n with broker := n.broker ++ [.addSession d], dealer := n.dealer ++ [.addSession d] } : BNet W)
          (sched ++ [.join d]) := by
        refine ⟨?_, ?_, bcall _ ?_, dcall _ ?_, hi'.up, hi'.gets⟩
        · simp only [List.length_append, List.length_singleton]; exact Nat.add_le_add_right hi.bl 1
        · simp only [List.length_append, List.length_singleton]; exact Nat.add_le_add_right hi.dl 1
        · intro q h; cases q <;> simp [brokerCall] at h
        · intro q h; cases q <;> simp [dealerCall] at h
      simp only [BNet.step]
      split
      · refine h1.set _ _ ?_
        rintro k' - ⟨⟩
        exact ⟨nofun, fun w h => by rcases h with h | h <;> cases h⟩
      · exact h1
    | leave t =>
      have h1 : AInv (cs s) s ({ n with broker := n.broker ++ [.removeSession t], dealer := n.dealer ++ [.removeSession t] } : BNet W)
          (sched ++ [.leave t]) := by
        refine ⟨?_, ?_, bcall _ ?_, dcall _ ?_, hi'.up, hi'.gets⟩
        · simp only [List.length_append, List.length_singleton]; exact Nat.add_le_add_right hi.bl 1
        · simp only [List.length_append, List.length_singleton]; exact Nat.add_le_add_right hi.dl 1
        · intro q h; cases q <;> simp [brokerCall] at h
        · intro q h; cases q <;> simp [dealerCall] at h
      simp only [BNet.step]
      exact h1.set _ _ nofun
    | send t m =>
      simp only [BNet.step]
      cases hk : n.conns t with
      | none => exact hi'
      | some k =>
        refine hi'.set t _ ?_
        rintro k' rfl ⟨⟩
        refine ⟨fun w hw => ?_, fun w hw => hi'.gets k hk w ?_⟩
        · dsimp only at hw
          split at hw
          · rename_i w' ho
            rcases List.mem_append.1 hw with hw | hw
            · exact hi'.up k hk w hw
            · rw [List.mem_singleton.1 hw]
              exact ⟨m, List.mem_append_right _ (List.mem_singleton.2 rfl), sent_data ho⟩
          · exact hi'.up k hk w hw
        · rcases hw with hw | hw
          · exact .inl hw
          · rcases List.mem_append.1 hw with hw | hw
            · exact .inr hw
            · cases List.mem_singleton.1 hw
    | deliver t =>
      simp only [BNet.step]
      cases hk : n.conns t with
      | none => exact hi'
      | some k =>
        dsimp only
        split
        · exact hi'
        · rename_i w ws hd
          refine hi'.set t _ ?_
          rintro k' rfl ⟨⟩
          refine ⟨hi'.up k hk, fun w' hw => hi'.gets k hk w' ?_⟩
          rcases hw with hw | hw
          · exact .inl (by rw [hd]; exact List.mem_cons_of_mem _ hw)
          · rcases List.mem_append.1 hw with hw | hw
            · exact .inr hw
            · cases List.mem_singleton.1 hw
              exact .inl (by rw [hd]; exact List.mem_cons_self)
    | route t =>
      simp only [BNet.step]
      cases hk : n.conns t with
      | none => exact hi'
      | some k =>
        dsimp only
        split
        · exact hi'
        · rename_i w ws hu
          have hset : AInv (cs s) s (n.setConn t (some { k with up := ws })) (sched ++ [.route t]) := by
            refine hi'.set t _ ?_
            rintro k' rfl ⟨⟩
            exact ⟨fun w' h' => hi'.up k hk w' (by rw [hu]; exact List.mem_cons_of_mem _ h'), hi'.gets k hk⟩
          split
          · exact hset
          · rename_i m hm
            have from_s : t = s → ∃ q0, .send s q0 ∈ sched ++ [Act.route t] ∧ m = received q0 := by
              rintro rfl
              obtain ⟨q0, h1, h2⟩ := hi'.up k hk w (by rw [hu]; exact List.mem_cons_self)
              have := hs q0 h1 w h2
              rw [hm] at this
              cases this
              exact ⟨q0, h1, rfl⟩
            simp only [BNet.handle]
            split
            · rename_i op hop
              have hb : ∀ op' ∈ n.broker ++ [op], ∀ q, brokerCall s q = some op' → ∃ q0, .send s q0 ∈ sched ++ [Act.route t] ∧ q = received q0 := by
                refine bcall op fun q hq => ?_
                obtain ⟨e1, rfl⟩ := broker_caller hq hop
                exact from_s e1.symm
              refine AInv.push (n := { n.setConn t (some { k with up := ws }) with broker := n.broker ++ [op] }) ⟨?_, hset.dl, hb, hset.dealer, hset.up, hset.gets⟩ _ ?_
              · simp only [BNet.setConn, List.length_append, List.length_singleton]; exact Nat.add_le_add_right hi.bl 1
              · rintro x hx rfl
                obtain ⟨q, op', h1, h2, h3⟩ := C139_broker n.broker (Nat.lt_of_le_of_lt hi.bl hN) op x hx
                obtain ⟨q0, h4, rfl⟩ := hb op' h1 q h2
                exact ⟨q0, h4, h3⟩
            · rename_i op hop' hop
              have hb : ∀ op' ∈ n.dealer ++ [op], ∀ q, dealerCall s q = some op' → ∃ q0, .send s q0 ∈ sched ++ [Act.route t] ∧ q = received q0 := by
                refine dcall op fun q hq => ?_
                obtain ⟨e1, rfl⟩ := dealer_caller hq hop
                exact from_s e1.symm
              refine AInv.push (n := { n.setConn t (some { k with up := ws }) with dealer := n.dealer ++ [op] }) ⟨hset.bl, ?_, hset.broker, hb, hset.up, hset.gets⟩ _ ?_
              · simp only [BNet.setConn, List.length_append, List.length_singleton]; exact Nat.add_le_add_right hi.dl 1
              · rintro x hx rfl
                obtain ⟨q, op', h1, h2, h3⟩ := C139_dealer n.dealer (Nat.lt_of_le_of_lt hi.dl hN) op x hx
                obtain ⟨q0, h4, rfl⟩ := hb op' h1 q h2
                exact ⟨q0, h4, h3⟩
            · exact hset

/-- Whatever the other clients do, and whatever serializers they use: all that a client is ever sent is owed to something it has
sent itself. -/
theorem C139_owed (cs : Int → Codec W) (s : Int) (sched : List Act) (hl : sched.length ≤ 2 ^ 53) (hs : ReadBack (cs s) s sched)
    (k : BConn W) (hk : (brun cs sched).conns s = some k) (w : W) (hw : k.Gets w) :
    ∃ m q, (cs s).serialize m = .ok w ∧ .send s q ∈ sched ∧ OwedTo (received q) m :=
  (ainv_run cs s sched hl hs).gets k hk w hw

/-- A client that has sent nothing is sent nothing. -/
theorem C139_silent (cs : Int → Codec W) (s : Int) (sched : List Act) (hl : sched.length ≤ 2 ^ 53) (hs : ∀ q, .send s q ∉ sched)
    (k : BConn W) (hk : (brun cs sched).conns s = some k) (w : W) : ¬ k.Gets w := by
  intro hw
  obtain ⟨-, q, -, h, -⟩ := C139_owed cs s sched hl (fun q h => absurd h (hs q)) k hk w hw
  exact hs q h

/-! ## An example -/

/-- A client subscribes to one topic and calls one procedure, both of another client; that one publishes to the topic and to another,
answers the call, and answers it again; a third client has joined and sends nothing. -/
def busy : List Act :=
  [.join ⟨.int 1, "r", none, none⟩, .join ⟨.int 2, "r", none, none⟩, .join ⟨.int 3, "r", none, none⟩,
   .send 1 (.subscribe ⟨.int 1, "t", []⟩), .route 1, .deliver 1,
   .send 2 (.register ⟨.int 1, "p", []⟩), .route 2, .deliver 2,
   .send 1 (.call { requestId := .int 2, procedure := "p" }), .route 1, .deliver 2,
   .send 2 (.publish ⟨.int 2, "t", none, none, []⟩), .route 2, .send 2 (.publish ⟨.int 3, "u", none, none, []⟩), .route 2,
   .send 2 (.yield_ { requestId := .int 2 }), .route 2, .send 2 (.yield_ { requestId := .int 2 }), .route 2, .deliver 1]

/-- The client gets the SUBSCRIBED and the EVENT, and the RESULT is on its way; the third client gets nothing. -/
example : (((brun (fun _ => objects) busy).conns 1).map fun k => (k.calls.filterMap (fun | .receive w => some w | _ => none), k.down)) =
      some ([.list [.int 33, .int 1, .int 1], .list [.int 36, .int 1, .int 2, .dict []]], [.list [.int 50, .int 2, .dict []]]) ∧
    (((brun (fun _ => objects) busy).conns 3).map fun k => (k.calls.length, k.down)) = some (0, []) := by decide +kernel

/-- What it sends is read as meant. -/
example : ReadBack objects 1 busy := by
  intro q hq w hw
  simp only [busy, List.mem_cons, reduceCtorEq, Act.send.injEq, List.not_mem_nil, or_false, false_or] at hq
  have e : (1 : Int) ≠ 2 := by decide
  simp only [true_and, e, false_and, or_false, false_or] at hq
  rcases hq with rfl | rfl <;> cases hw <;> decide +kernel

/-- The third client has sent nothing. -/
example : ∀ q, .send 3 q ∉ busy := by
  intro q hq
  have e1 : (3 : Int) ≠ 1 := by decide
  have e2 : (3 : Int) ≠ 2 := by decide
  simp only [busy, List.mem_cons, reduceCtorEq, Act.send.injEq, List.not_mem_nil, or_false, false_or, e1, e2, false_and] at hq

/-- An EVENT is not owed to a CALL, nor a RESULT to a CALL with another id, nor a PUBLISHED to a PUBLISH that does not want it. -/
example (c : Call) (e : Event) (p : Publish) (r : Published) (h : PyDict.flag p.options "acknowledge" = false) :
    ¬ OwedTo (.call c) (.event e) ∧ ¬ OwedTo (.call { c with requestId := .int 1 }) (.result { requestId := .int 2 }) ∧
      ¬ OwedTo (.publish p) (.published r) := by
  refine ⟨fun h => h, fun h => ?_, fun h' => ?_⟩
  · cases h.1
  · have := h'.2
    rw [h] at this
    cases this

end Wamp.Spec.Asked
