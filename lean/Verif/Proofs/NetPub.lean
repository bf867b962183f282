import Verif.Proofs.NetBase

/-! # The network: subscriptions and publications -/

namespace Wamp.Spec.Net
open Wamp.Spec.Ses

variable {W : Type} (c : Codec W)

/-- Session `s` holds a subscription with id `i` at the broker. -/
def HeldB (ops : List Broker.Op) (s i : Int) : Prop := ∃ t, (⟨s, t, i⟩ : Pub.Holding) ∈ (Pub.view (Broker.trace ops)).held

theorem heldB_snoc (ops : List Broker.Op) (hl : ops.length ≤ 2 ^ 53) (op : Broker.Op) (s i : Int) :
    HeldB (ops ++ [op]) s i ↔ (∃ t, Pub.Subscribes (op, Broker.outcome ops op) s t i) ∨
      (HeldB ops s i ∧ ¬ Pub.Ends (op, Broker.outcome ops op) s i) := by
  have hr := Broker.rel_after ops (Broker.C19_no_clash ops hl)
  simp only [HeldB, Broker.trace_snoc, Broker.view_snoc]
  constructor
  · rintro ⟨t, h⟩
    rcases (Broker.held_step _ _ hr op s t i).1 h with h | ⟨h, h'⟩
    · exact .inl ⟨t, h⟩
    · exact .inr ⟨⟨t, h⟩, h'⟩
  · rintro (⟨t, h⟩ | ⟨⟨t, h⟩, h'⟩)
    · exact ⟨t, (Broker.held_step _ _ hr op s t i).2 (.inl h)⟩
    · exact ⟨t, (Broker.held_step _ _ hr op s t i).2 (.inr ⟨h, h'⟩)⟩

theorem heldB_known {ops : List Broker.Op} (hl : ops.length ≤ 2 ^ 53) {s i : Int} (h : HeldB ops s i) :
    s ∈ (Pub.view (Broker.trace ops)).known := by
  have hr := Broker.rel_after ops (Broker.C19_no_clash ops hl)
  obtain ⟨t, h⟩ := h
  obtain ⟨r, d, -, -, k3, -⟩ := hr.ids _ h
  exact (hr.known s).2 ⟨d, k3⟩

/-- An operation that neither subscribes nor ends anything for `s'` leaves its subscriptions alone. -/
theorem heldB_same {ops : List Broker.Op} (hl : ops.length ≤ 2 ^ 53) {op : Broker.Op} {s : Int}
    (h1 : ∀ t i, ¬ Pub.Subscribes (op, Broker.outcome ops op) s t i) (h2 : ∀ i, ¬ Pub.Ends (op, Broker.outcome ops op) s i)
    (i : Int) : HeldB ops s i ↔ HeldB (ops ++ [op]) s i := by
  rw [heldB_snoc ops hl]
  constructor
  · intro h; exact .inr ⟨h, h2 i⟩
  · rintro (⟨t, h⟩ | h)
    · exact absurd h (h1 t i)
    · exact h.1

/-- The client and the broker agree up to what is in flight. -/
structure PubConn (B : List Broker.Op) (s : Int) (k : Conn W) : Prop where
  req : ReqInv pubSub (WAMPSession.after c k.calls) k.up k.down
  rep : Replays ((WAMPSession.after c k.calls).names .unsubscribe) (k.down.map subEff)
    ((WAMPSession.after c k.calls).grants .subscribe) (HeldB B s)

/-- For all clients. -/
def PubInv (n : Net W) : Prop := ∀ s k, n.conns s = some k → PubConn c n.broker s k

variable {c}

theorem PubConn.held {B B' : List Broker.Op} {s : Int} {k : Conn W} (h : PubConn c B s k)
    (he : ∀ i, HeldB B s i ↔ HeldB B' s i) : PubConn c B' s k :=
  ⟨h.req, h.rep.congr (fun _ => .rfl) he (fun _ _ _ => .rfl)⟩

/-- More messages arrive that concern the client's subscriptions only by being events for them. -/
theorem PubConn.push {B B' : List Broker.Op} {s : Int} {k : Conn W} (h : PubConn c B s k)
    (he : ∀ i, HeldB B s i ↔ HeldB B' s i) {more : List Message}
    (hm : ∀ m ∈ more, (subEff m = .skip ∨ ∃ t, subEff m = .use t ∧ HeldB B s t) ∧
      ∀ k i, replyTo m = some (k, i) → pubSub k = false) : PubConn c B' s ⟨k.calls, k.up, k.down ++ more⟩ := by
  refine ⟨h.req.push fun m hmm => (hm m hmm).2, ?_⟩
  rw [List.map_append]
  refine (h.held he).rep.append (Replays.skips ?_)
  intro e hee
  obtain ⟨m, hmm, rfl⟩ := List.mem_map.1 hee
  rcases (hm m hmm).1 with h | ⟨t, h, h'⟩
  · exact .inl h
  · exact .inr ⟨t, h, (he t).1 h'⟩

theorem PubConn.send {B : List Broker.Op} {s : Int} {k : Conn W} (h : PubConn c B s k) (m : Message)
    (hf : ∀ kd i, requestOf m = some (kd, i) → pubSub kd = true → ¬ Outstanding c k.calls kd i) (b : Bool) :
    PubConn c B s ⟨k.calls ++ [.sendMessage m], if b then k.up ++ [m] else k.up, k.down⟩ := by
  have hf' : ∀ kd i, requestOf m = some (kd, i) → pubSub kd = true → ¬ (WAMPSession.after c k.calls).has kd i := by
    intro kd i h1 h2; rw [WAMPSession.has_after]; exact hf kd i h1 h2
  obtain ⟨h1, h2⟩ := h.req.send c m hf'
  refine ⟨?_, ?_⟩
  · rw [after_send]; cases b
    · exact h2
    · exact h1
  · rw [after_send]
    refine h.rep.send c ?_
    intro r hr e
    obtain ⟨m', hm, e'⟩ := withdraw_sub hr
    exact hf' _ _ e rfl (h.req.has _ _ (mem_inFlight.2 ⟨rfl, .inr ⟨m', hm, e'⟩⟩))

theorem PubConn.deliver {B : List Broker.Op} {s : Int} {k : Conn W} (h : PubConn c B s k) {m : Message} {rest : List Message}
    (hd : k.down = m :: rest) :
    (isPub m = true → ((WAMPSession.after c k.calls).receiveMessage m).2 = .ok m) ∧
    PubConn c B s ⟨k.calls ++ [.receiveMessage m], k.up, rest⟩ := by
  obtain ⟨h1, h2⟩ := h
  rw [hd] at h1 h2
  have ha : isPub m = true → ((WAMPSession.after c k.calls).receiveMessage m).2 = .ok m :=
    fun hm => accept_pub (fun _ h => h) h1 hm h2
  refine ⟨ha, ⟨?_, ?_⟩⟩
  · rw [after_recv]; exact h1.deliver
  · rw [after_recv]
    refine h2.deliver_sub ha ?_
    intro r hr e
    obtain ⟨m', hm, e'⟩ := withdraw_sub hr
    exact (h1.head e rfl).2 (mem_inFlight.2 ⟨rfl, .inr ⟨m', hm, e'⟩⟩)

theorem PubConn.drop {B : List Broker.Op} {s : Int} {k : Conn W} (h : PubConn c B s k) {m : Message} {rest : List Message}
    (hu : k.up = m :: rest) : PubConn c B s { k with up := rest } :=
  ⟨by have := h.req; rw [hu] at this; exact this.drop, h.rep⟩

/-- The requester gets its answer. -/
theorem PubConn.answer {B B' : List Broker.Op} {s : Int} {k : Conn W} (h : PubConn c B s k) {m a : Message} {rest : List Message}
    (hu : k.up = m :: rest) (ha : replyTo a = requestOf m)
    (hr : Replays ((WAMPSession.after c k.calls).names .unsubscribe) [subEff a] (HeldB B s) (HeldB B' s)) :
    PubConn c B' s ⟨k.calls, rest, k.down ++ [a]⟩ := by
  refine ⟨?_, ?_⟩
  · have := h.req; rw [hu] at this; exact this.answer ha
  · rw [List.map_append]; exact h.rep.append hr

/-- What PUBLISH sends. -/
theorem publish_out (B : List Broker.Op) (hl : B.length ≤ 2 ^ 53) (s : Int) (m : Publish)
    (hs : s ∈ (Pub.view (Broker.trace B)).known) :
    ∃ p, Broker.outcome B (.receivePublish s m) = .ok (.publication p) ∧
      (∀ ev, p.event = some ev → ∀ q ∈ p.recipients, HeldB B q ev.subscriptionId.val) ∧
      (PyDict.flag m.options "acknowledge" = false → p.ack = none) ∧
      (PyDict.flag m.options "acknowledge" = true → ∃ i, p.ack = some ⟨.published ⟨m.requestId, .int i⟩, s⟩) := by
  have hc := Broker.C19_no_clash B hl
  obtain ⟨p, hp, -, -, -⟩ := Broker.C19_exact_delivery B hc s m hs
  obtain ⟨h1, h2⟩ := Broker.C27_acknowledge B s m p hp
  rw [← Broker.flag_iff] at h1
  refine ⟨p, hp, ?_, ?_, ?_⟩
  · intro ev hev q hq
    obtain ⟨i, e, h⟩ := (Broker.C20_event_contents B hc s m p ev hp hev).2.2.2 q hq
    rw [e]; exact ⟨m.topic, h⟩
  · intro hf
    cases ha : p.ack with
    | none => rfl
    | some a => rw [ha] at h1; rw [hf] at h1; simp at h1
  · intro hf
    cases ha : p.ack with
    | none => rw [ha, hf] at h1; simp at h1
    | some a =>
      obtain ⟨e1, i, e2, -⟩ := h2 a ha
      refine ⟨i, ?_⟩
      cases a; simp only at e1 e2; rw [e1, e2]

/-- The broker handles a message. -/
theorem pub_routeB {n : Net W} {N : Nat} (hb : Base n N) (hN : N < 2 ^ 53) (h : PubInv c n) {s : Int} {m : Message} {k : Conn W}
    {rest : List Message} {op : Broker.Op} (hk : n.conns s = some k) (hu : k.up = m :: rest) (hop : brokerCall s m = some op) :
    PubInv c (⟨n.broker ++ [op], n.dealer, fun s' => (if s' = s then some { k with up := rest } else n.conns s').map
        fun k => ⟨k.calls, k.up, k.down ++ inbox (brokerOut (Broker.outcome n.broker op)) s'⟩⟩ : Net W) := by
  have hl : n.broker.length ≤ 2 ^ 53 := by have := hb.bl; omega
  have hs : s ∈ (Pub.view (Broker.trace n.broker)).known := by rw [hb.bk, hk]; rfl
  have hks := h s k hk
  -- other clients
  have others : (∀ s', s' ≠ s → ∀ k', n.conns s' = some k' →
      PubConn c (n.broker ++ [op]) s' ⟨k'.calls, k'.up, k'.down ++ inbox (brokerOut (Broker.outcome n.broker op)) s'⟩) →
      PubConn c (n.broker ++ [op]) s ⟨k.calls, rest, k.down ++ inbox (brokerOut (Broker.outcome n.broker op)) s⟩ →
      PubInv c (⟨n.broker ++ [op], n.dealer, fun s' => (if s' = s then some { k with up := rest } else n.conns s').map
        fun k => ⟨k.calls, k.up, k.down ++ inbox (brokerOut (Broker.outcome n.broker op)) s'⟩⟩ : Net W) := by
    intro h1 h2 s' k' hk'
    simp only at hk' ⊢
    split at hk'
    · rename_i e; subst e
      simp only [Option.map_some, Option.some.injEq] at hk'; rw [← hk']; exact h2
    · rename_i e
      cases hc' : n.conns s' with
      | none => rw [hc'] at hk'; cases hk'
      | some k0 =>
        rw [hc'] at hk'
        simp only [Option.map_some, Option.some.injEq] at hk'; rw [← hk']; exact h1 s' e k0 hc'
  cases m <;> simp only [brokerCall, reduceCtorEq, Option.some.injEq] at hop
  case subscribe m =>
    subst hop
    obtain ⟨i, ho, -⟩ := Broker.C22_subscribe_known n.broker s m hs
    refine others ?_ ?_
    · intro s' hne k' hk'
      rw [ho]
      simp only [brokerOut, inbox_single, if_neg (fun e => hne e.symm : ¬ s = s'), List.append_nil]
      refine (h s' k' hk').held (heldB_same hl ?_ ?_)
      · rintro t j ⟨m', r, rec, e, -⟩
        have := congrArg Prod.fst e; simp only [Broker.Op.receiveMessage.injEq] at this; exact hne this.1.symm
      · rintro j (⟨m', out, e, -⟩ | ⟨out, e⟩)
        · have := congrArg Prod.fst e; simp at this
        · have := congrArg Prod.fst e; simp at this
    · rw [ho]
      simp only [brokerOut, inbox_single, if_true]
      refine hks.answer (m := .subscribe m) hu rfl ?_
      intro j
      rw [heldB_snoc n.broker hl, ho]
      simp only [Pub.Subscribes, Pub.Ends]
      constructor
      · rintro (h | rfl)
        · refine .inr ⟨h, ?_⟩
          rintro (⟨m', out, e, -⟩ | ⟨out, e⟩)
          · have := congrArg Prod.fst e; simp at this
          · have := congrArg Prod.fst e; simp at this
        · exact .inl ⟨_, _, _, _, rfl, rfl, rfl⟩
      · rintro (⟨t, m', r, rec, e, -, rfl⟩ | h)
        · have := congrArg Prod.snd e
          simp only [Except.ok.injEq, Broker.Out.reply.injEq, MessageWithRecipient.mk.injEq, Message.subscribed.injEq] at this
          rw [← this.1]; exact .inr rfl
        · exact .inl h.1
  case unsubscribe m =>
    subst hop
    have hother : ∀ s', s' ≠ s → ∀ i, HeldB n.broker s' i ↔ HeldB (n.broker ++ [.receiveMessage s (.unsubscribe m)]) s' i := by
      intro s' hne
      refine heldB_same hl ?_ ?_
      · rintro t j ⟨m', r, rec, e, -⟩
        have := congrArg Prod.fst e; simp at this
      · rintro j (⟨m', out, e, -⟩ | ⟨out, e⟩)
        · have := congrArg Prod.fst e; simp only [Broker.Op.receiveMessage.injEq] at this; exact hne this.1.symm
        · have := congrArg Prod.fst e; simp at this
    by_cases hh : HeldB n.broker s m.subscriptionId.val
    · obtain ⟨t, ht⟩ := hh
      have ho := (Broker.C24_unsubscribe_held n.broker (Broker.C19_no_clash _ hl) s t m ht).1
      refine others ?_ ?_
      · intro s' hne k' hk'
        rw [ho]
        simp only [brokerOut, inbox_single, if_neg (fun e => hne e.symm : ¬ s = s'), List.append_nil]
        exact (h s' k' hk').held (hother s' hne)
      · rw [ho]
        simp only [brokerOut, inbox_single, if_true]
        refine hks.answer (m := .unsubscribe m) hu rfl ?_
        refine ⟨m.subscriptionId.val, hks.req.unsub rfl m (by rw [hu]; exact List.mem_cons_self ..), ⟨t, ht⟩, ?_⟩
        intro j
        simp only
        rw [heldB_snoc n.broker hl, ho]
        simp only [Pub.Subscribes, Pub.Ends]
        constructor
        · rintro ⟨h, hne⟩
          refine .inr ⟨h, ?_⟩
          rintro (⟨m', out, e, e'⟩ | ⟨out, e⟩)
          · have := congrArg Prod.fst e
            simp only [Broker.Op.receiveMessage.injEq, Message.unsubscribe.injEq, true_and] at this
            rw [← this] at e'; exact hne e'.symm
          · have := congrArg Prod.fst e; simp at this
        · rintro (⟨t, m', r, rec, e, -, rfl⟩ | h)
          · have := congrArg Prod.fst e; simp at this
          · refine ⟨h.1, ?_⟩
            rintro rfl; exact h.2 (.inl ⟨m, _, rfl, rfl⟩)
    · obtain ⟨⟨msg, ho⟩, -⟩ := Broker.C24_unsubscribe_not_held n.broker (Broker.C19_no_clash _ hl) s m
        (fun t ht => hh ⟨t, ht⟩)
      refine others ?_ ?_
      · intro s' hne k' hk'
        rw [ho]
        simp only [brokerOut, inbox_nil, List.append_nil]
        exact (h s' k' hk').held (hother s' hne)
      · rw [ho]
        simp only [brokerOut, inbox_nil, List.append_nil]
        refine (hks.drop hu).held (heldB_same hl ?_ ?_)
        · rintro t j ⟨m', r, rec, e, -⟩
          have := congrArg Prod.fst e; simp at this
        · rw [ho]
          rintro j (⟨m', out, e, -⟩ | ⟨out, e⟩)
          · have := congrArg Prod.snd e; simp at this
          · have := congrArg Prod.fst e; simp at this
  case publish m =>
    subst hop
    obtain ⟨p, ho, hev, ha0, ha1⟩ := publish_out n.broker hl s m hs
    have hsame : ∀ s' i, HeldB n.broker s' i ↔ HeldB (n.broker ++ [.receivePublish s m]) s' i := by
      intro s'
      refine heldB_same hl ?_ ?_
      · rintro t j ⟨m', r, rec, e, -⟩
        have := congrArg Prod.fst e; simp at this
      · rintro j (⟨m', out, e, -⟩ | ⟨out, e⟩)
        · have := congrArg Prod.fst e; simp at this
        · have := congrArg Prod.fst e; simp at this
    have hevents : ∀ s', ∀ m' ∈ inbox (eventsOf p) s',
        (subEff m' = .skip ∨ ∃ t, subEff m' = .use t ∧ HeldB n.broker s' t) ∧
          ∀ k i, replyTo m' = some (k, i) → pubSub k = false := by
      intro s' m' hm'
      rw [mem_inbox, eventsOf] at hm'
      split at hm'
      · rename_i ev he
        obtain ⟨q, hq, e⟩ := List.mem_map.1 hm'
        cases e
        exact ⟨.inr ⟨_, rfl, hev ev he _ hq⟩, fun k i e => by cases e⟩
      · cases hm'
    refine others ?_ ?_
    · intro s' hne k' hk'
      rw [ho]
      have e1 : inbox (ackOf p) s' = [] := by
        cases hf : PyDict.flag m.options "acknowledge" with
        | false => rw [ackOf, ha0 hf]; rfl
        | true =>
          obtain ⟨i, e⟩ := ha1 hf
          rw [ackOf, e]; simp only [inbox_single, if_neg (fun e => hne e.symm : ¬ s = s')]
      simp only [brokerOut, inbox_append, e1, List.append_nil]
      exact (h s' k' hk').push (hsame s') (hevents s')
    · rw [ho]
      simp only [brokerOut, inbox_append]
      have hp := hks.push (hsame s) (hevents s)
      cases hf : PyDict.flag m.options "acknowledge" with
      | false =>
        rw [ackOf, ha0 hf]; simp only [inbox_nil, List.append_nil]
        exact hp.drop (m := .publish m) hu
      | true =>
        obtain ⟨i, e⟩ := ha1 hf
        rw [ackOf, e]; simp only [inbox_single, if_true]
        rw [← List.append_assoc]
        refine hp.answer (m := .publish m) (rest := rest) hu ?_ ?_
        · simp [replyTo, requestOf, hf]
        · exact fun _ => .rfl

variable (c)

/-- One action. -/
theorem pub_step {n : Net W} {N : Nat} (hb : Base n N) (hN : N < 2 ^ 53) (h : PubInv c n) (a : Act)
    (hf : ∀ s m, a = .send s m → ∀ k, n.conns s = some k → ∀ kd i, requestOf m = some (kd, i) → pubSub kd = true →
      ¬ Outstanding c k.calls kd i) : PubInv c (n.step c a) := by
  have hs := stepCase c hb hN a
  generalize n.step c a = n' at hs ⊢
  have hl : n.broker.length ≤ 2 ^ 53 := by have := hb.bl; omega
  have addSame : ∀ d s i, HeldB n.broker s i ↔ HeldB (n.broker ++ [.addSession d]) s i := by
    intro d s
    refine heldB_same hl ?_ ?_
    · rintro t j ⟨m', r, rec, e, -⟩
      have := congrArg Prod.fst e; simp at this
    · rintro j (⟨m', out, e, -⟩ | ⟨out, e⟩)
      · have := congrArg Prod.fst e; simp at this
      · have := congrArg Prod.fst e; simp at this
  cases hs with
  | idle => exact h
  | joinFail d eb ed h1 h2 h3 => intro s k hk; exact (h s k hk).held (addSame d s)
  | join d h1 h2 h3 =>
    intro s k hk
    simp only at hk ⊢
    split at hk
    · rename_i e; subst e; cases hk
      refine PubConn.held ⟨reqInv_init _, ?_⟩ (addSame d _)
      intro i
      refine ⟨(fun h => by cases h), fun h => ?_⟩
      have := heldB_known hl h
      rw [hb.bk, h1] at this; cases this
    · exact (h s k hk).held (addSame d s)
  | leaveFail s eb ed h1 h2 h3 =>
    intro s' k hk
    refine (h s' k hk).held (heldB_same hl ?_ ?_)
    · rintro t j ⟨m', r, rec, e, -⟩
      have := congrArg Prod.fst e; simp at this
    · rw [h2]
      rintro j (⟨m', out, e, -⟩ | ⟨out, e⟩)
      · have := congrArg Prod.fst e; simp at this
      · have := congrArg Prod.snd e; simp at this
  | leave s k0 h1 h2 h3 =>
    intro s' k hk
    simp only at hk ⊢
    split at hk
    · cases hk
    · rename_i hne
      refine (h s' k hk).held (heldB_same hl ?_ ?_)
      · rintro t j ⟨m', r, rec, e, -⟩
        have := congrArg Prod.fst e; simp at this
      · rintro j (⟨m', out, e, -⟩ | ⟨out, e⟩)
        · have := congrArg Prod.fst e; simp at this
        · have := congrArg Prod.fst e; simp only [Broker.Op.removeSession.injEq] at this; exact hne this.symm
  | send s m k0 h1 =>
    intro s' k hk
    simp only at hk ⊢
    split at hk
    · rename_i e; subst e; cases hk
      exact (h s' k0 h1).send m (hf _ _ rfl k0 h1) _
    · exact h s' k hk
  | deliver s m k0 rest h1 h2 =>
    intro s' k hk
    simp only at hk ⊢
    split at hk
    · rename_i e; subst e; cases hk
      exact ((h s' k0 h1).deliver h2).2
    · exact h s' k hk
  | routeB s m k0 rest op h1 h2 h3 => exact pub_routeB hb hN h h1 h2 h3
  | routeD s m k0 rest op h1 h2 h3 =>
    intro s' k hk
    simp only at hk ⊢
    have hmsg : ∀ m ∈ inbox (dealerOut (Dealer.outcome n.dealer op)) s', (subEff m = .skip ∨ ∃ t, subEff m = .use t ∧ HeldB n.broker s' t) ∧
        ∀ k i, replyTo m = some (k, i) → pubSub k = false := by
      intro m hm
      have := isRpc_effects (dealerOut_isRpc n.dealer op _ (mem_inbox.1 hm))
      exact ⟨.inl this.1, this.2⟩
    split at hk
    · rename_i e; subst e
      simp only [Option.map_some, Option.some.injEq] at hk; rw [← hk]
      exact ((h s' k0 h1).drop h2).push (fun _ => .rfl) hmsg
    · cases hc' : n.conns s' with
      | none => rw [hc'] at hk; cases hk
      | some k1 =>
        rw [hc'] at hk
        simp only [Option.map_some, Option.some.injEq] at hk; rw [← hk]
        exact (h s' k1 hc').push (fun _ => .rfl) hmsg
  | routeX s m k0 rest h1 h2 =>
    intro s' k hk
    simp only at hk ⊢
    split at hk
    · rename_i e; subst e; cases hk
      exact (h s' k0 h1).drop h2
    · exact h s' k hk

theorem fresh_snoc {K : Kind → Bool} {sched : List Act} {a : Act} (h : FreshRequests c K (sched ++ [a])) :
    FreshRequests c K sched ∧ ∀ s m, a = .send s m → ∀ k, (run c sched).conns s = some k →
      ∀ kd i, requestOf m = some (kd, i) → K kd = true → ¬ Outstanding c k.calls kd i := by
  refine ⟨fun pre s m post e => h pre s m (post ++ [a]) (by simp [e]), ?_⟩
  rintro s m rfl k hk kd i h1 h2
  exact h sched s m [] rfl k hk kd i h1 h2

theorem pub_run (sched : List Act) : sched.length ≤ 2 ^ 53 → FreshRequests c pubSub sched → PubInv c (run c sched) := by
  induction sched using snoc_induction with
  | nil => intro _ _ s k hk; cases hk
  | snoc sched a ih =>
    intro hl hf
    have h1 : sched.length + 1 ≤ 2 ^ 53 := by rw [List.length_append] at hl; exact hl
    obtain ⟨hf1, hf2⟩ := fresh_snoc c hf
    rw [run_snoc]
    exact pub_step c (base_run c sched (by omega)) (by omega) (ih (by omega) hf1) a hf2

theorem routes_snoc (s : Int) (l : List Act) (a : Act) :
    routes s (l ++ [a]) = routes s l + routes s [a] := List.countP_append

/-- The UNSUBSCRIBE on its way to the broker keeps being about a held subscription. -/
theorem carried {n : Net W} {N : Nat} (hb : Base n N) (hN : N < 2 ^ 53) {s i : Int} {u : Unsubscribe} {a : Act} {k : Conn W}
    {pre extra : List Message} (hk : n.conns s = some k) (hu : k.up = pre ++ .unsubscribe u :: extra)
    (hp : ∀ v, .unsubscribe v ∈ pre → v.subscriptionId.val ≠ i) (hh : HeldB n.broker s i) (hleave : a ≠ .leave s)
    (hr : routes s [a] ≤ pre.length) :
    ∃ k' pre' extra', (n.step c a).conns s = some k' ∧ k'.up = pre' ++ .unsubscribe u :: extra' ∧
      pre'.length + routes s [a] = pre.length ∧ (∀ v, .unsubscribe v ∈ pre' → v.subscriptionId.val ≠ i) ∧
      HeldB (n.step c a).broker s i := by
  have hs := stepCase c hb hN a
  generalize n.step c a = n' at hs ⊢
  have hl : n.broker.length ≤ 2 ^ 53 := by have := hb.bl; omega
  have heldOf : ∀ op, ¬ Pub.Ends (op, Broker.outcome n.broker op) s i → HeldB (n.broker ++ [op]) s i := by
    intro op h; exact (heldB_snoc n.broker hl op s i).2 (.inr ⟨hh, h⟩)
  have notEnds : ∀ op r, (∀ m, op ≠ .receiveMessage s (.unsubscribe m)) → op ≠ .removeSession s → ¬ Pub.Ends (op, r) s i := by
    rintro op r h1 h2 (⟨m', out, e, -⟩ | ⟨out, e⟩)
    · exact h1 m' (congrArg Prod.fst e)
    · exact h2 (congrArg Prod.fst e)
  have popped : ∀ m rest, k.up = m :: rest → (0 : Nat) < pre.length →
      m ∈ pre ∧ ∃ pre', pre = m :: pre' ∧ rest = pre' ++ .unsubscribe u :: extra := by
    intro m rest e hpos
    cases pre with
    | nil => simp at hpos
    | cons m' pre' =>
      rw [hu] at e
      simp only [List.cons_append, List.cons.injEq] at e
      rw [e.1]; exact ⟨List.mem_cons_self .., pre', rfl, e.2.symm⟩
  cases hs with
  | idle _ h =>
    by_cases e : a = .route s
    · have := h s k e hk; rw [hu] at this; simp at this
    · have : routes s [a] = 0 := by
        unfold routes
        rw [List.countP_eq_zero]
        intro x hx; rw [List.mem_singleton.1 hx]
        cases a <;> simp
        rintro rfl; exact e rfl
      exact ⟨k, pre, extra, hk, hu, by omega, hp, hh⟩
  | joinFail d eb ed h1 h2 h3 =>
    exact ⟨k, pre, extra, hk, hu, rfl, hp, heldOf _ (notEnds _ _ (by simp) (by simp))⟩
  | join d h1 h2 h3 =>
    have hne : s ≠ d.sessionId.val := by rintro rfl; rw [hk] at h1; cases h1
    exact ⟨k, pre, extra, (if_neg hne).trans hk, hu, rfl, hp, heldOf _ (notEnds _ _ (by simp) (by simp))⟩
  | leaveFail s0 eb ed h1 h2 h3 =>
    have hne : s0 ≠ s := by rintro rfl; exact hleave rfl
    exact ⟨k, pre, extra, hk, hu, rfl, hp, heldOf _ (notEnds _ _ (by simp) (by simpa using hne))⟩
  | leave s0 k0 h1 h2 h3 =>
    have hne : s0 ≠ s := by rintro rfl; exact hleave rfl
    exact ⟨k, pre, extra, (if_neg fun e => hne e.symm).trans hk, hu, rfl, hp,
      heldOf _ (notEnds _ _ (by simp) (by simpa using hne))⟩
  | send s0 m k0 h1 =>
    by_cases e : s = s0
    · subst e
      rw [hk] at h1; cases h1
      cases hret : returned (WAMPSession.outcome c k.calls (.sendMessage m))
      · exact ⟨_, pre, extra, if_pos rfl, by simp only [Bool.false_eq_true, if_false]; exact hu, rfl, hp, hh⟩
      · exact ⟨_, pre, extra ++ [m], if_pos rfl, by simp [hu], rfl, hp, hh⟩
    · exact ⟨k, pre, extra, (if_neg e).trans hk, hu, rfl, hp, hh⟩
  | deliver s0 m k0 rest h1 h2 =>
    by_cases e : s = s0
    · subst e
      rw [hk] at h1; cases h1
      exact ⟨_, pre, extra, if_pos rfl, hu, rfl, hp, hh⟩
    · exact ⟨k, pre, extra, (if_neg e).trans hk, hu, rfl, hp, hh⟩
  | routeB s0 m k0 rest op h1 h2 h3 =>
    by_cases e : s = s0
    · subst e
      rw [hk] at h1; cases h1
      have hone : routes s [.route s] = 1 := by simp [routes]
      rw [hone] at hr ⊢
      obtain ⟨hm, pre', rfl, rfl⟩ := popped m rest h2 (by omega)
      refine ⟨⟨k.calls, _, k.down ++ inbox (brokerOut (Broker.outcome n.broker op)) s⟩, pre', extra,
        by simp only [if_true, Option.map_some], rfl, rfl,
        fun v hv => hp v (List.mem_cons_of_mem _ hv), heldOf _ ?_⟩
      rintro (⟨m', out, e, e'⟩ | ⟨out, e⟩)
      · have e1 : op = .receiveMessage s (.unsubscribe m') := congrArg Prod.fst e
        cases m <;> simp only [brokerCall, reduceCtorEq, Option.some.injEq] at h3 <;>
          rw [← h3] at e1 <;> first | (cases e1; done) | skip
        injection e1 with e1 e2; injection e2 with e2; subst e2; exact hp _ hm e'
      · have e1 : op = .removeSession s := congrArg Prod.fst e
        exact (brokerCall_op h3).2 s e1
    · have hone : routes s [.route s0] = 0 := by simp [routes]; exact fun h => e h.symm
      refine ⟨⟨k.calls, k.up, k.down ++ inbox (brokerOut (Broker.outcome n.broker op)) s⟩, pre, extra,
        by simp only [if_neg e, hk, Option.map_some], hu, by rw [hone]; rfl, hp, heldOf _ ?_⟩
      refine notEnds _ _ ?_ ((brokerCall_op h3).2 s)
      rintro m' rfl
      cases m <;> simp only [brokerCall, reduceCtorEq, Option.some.injEq, Broker.Op.receiveMessage.injEq] at h3 <;>
        exact e h3.1.symm
  | routeD s0 m k0 rest op h1 h2 h3 =>
    by_cases e : s = s0
    · subst e
      rw [hk] at h1; cases h1
      have hone : routes s [.route s] = 1 := by simp [routes]
      rw [hone] at hr ⊢
      obtain ⟨hm, pre', rfl, rfl⟩ := popped m rest h2 (by omega)
      exact ⟨⟨k.calls, _, k.down ++ inbox (dealerOut (Dealer.outcome n.dealer op)) s⟩, pre', extra,
        by simp only [if_true, Option.map_some], rfl, rfl, fun v hv => hp v (List.mem_cons_of_mem _ hv), hh⟩
    · have hone : routes s [.route s0] = 0 := by simp [routes]; exact fun h => e h.symm
      exact ⟨⟨k.calls, k.up, k.down ++ inbox (dealerOut (Dealer.outcome n.dealer op)) s⟩, pre, extra,
        by simp only [if_neg e, hk, Option.map_some], hu, by rw [hone]; rfl, hp, hh⟩
  | routeX s0 m k0 rest h1 h2 =>
    by_cases e : s = s0
    · subst e
      rw [hk] at h1; cases h1
      have hone : routes s [.route s] = 1 := by simp [routes]
      rw [hone] at hr ⊢
      obtain ⟨hm, pre', rfl, rfl⟩ := popped m rest h2 (by omega)
      exact ⟨⟨k.calls, _, k.down⟩, pre', extra, by simp only [if_true], rfl, rfl,
        fun v hv => hp v (List.mem_cons_of_mem _ hv), hh⟩
    · have hone : routes s [.route s0] = 0 := by simp [routes]; exact fun h => e h.symm
      exact ⟨k, pre, extra, by simp only [if_neg e, hk], hu, by rw [hone]; rfl, hp, hh⟩

end Wamp.Spec.Net
