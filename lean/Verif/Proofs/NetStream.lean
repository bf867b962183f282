import Verif.Spec.Stream
import Verif.Props.Network

/-! # The stream of events of each client -/

namespace Wamp.Spec.Net
open Wamp.Spec.Ses

variable {W : Type} (c : Codec W)

theorem feed_fst (q : Int) (sched : List Act) :
    (sched.foldl (fun (x : Net W × List Fed) a => (x.1.step c a, feedStep q x.1 x.2 a)) ({}, [])).1 = run c sched := by
  induction sched using snoc_induction with
  | nil => rfl
  | snoc l a ih => rw [List.foldl_append, run_snoc, ← ih]; rfl

theorem feed_snoc (q : Int) (sched : List Act) (a : Act) :
    feed c q (sched ++ [a]) = feedStep q (run c sched) (feed c q sched) a := by
  simp only [feed]
  rw [List.foldl_append, ← feed_fst c q]; rfl

/-- The id a subscriber holds. -/
theorem subscription_iff {n : Net W} {N : Nat} (hb : Base n N) (hN : N ≤ 2 ^ 53) (q : Int) (t : String) (i : Int) :
    subscription n q t = some i ↔ (⟨q, t, i⟩ : Pub.Holding) ∈ (Pub.view (Broker.trace n.broker)).held := by
  have hc := Broker.C19_no_clash n.broker (Nat.le_trans hb.bl hN)
  simp only [subscription, Option.map_eq_some_iff]
  constructor
  · rintro ⟨⟨s', t', i'⟩, h, rfl⟩
    have h1 := List.find?_some h
    simp only [Bool.and_eq_true, decide_eq_true_eq] at h1
    have h2 := List.mem_of_find?_eq_some h
    rw [← h1.1, ← h1.2]; exact h2
  · intro h
    cases hf : (Pub.view (Broker.trace n.broker)).held.find? (fun x => x.session = q && x.topic = t) with
    | none =>
      rw [List.find?_eq_none] at hf
      exact absurd (hf _ h) (by simp)
    | some x =>
      have h1 := List.find?_some hf
      simp only [Bool.and_eq_true, decide_eq_true_eq] at h1
      have h2 := List.mem_of_find?_eq_some hf
      exact ⟨x, rfl, Broker.C21_topic_determines_id n.broker hc x _ h2 h h1.2⟩

theorem inbox_events_self (ev : Event) (l : List Int) (hn : l.Nodup) (q : Int) :
    inbox (l.map fun x => (x, Message.event ev)) q = if q ∈ l then [.event ev] else [] := by
  induction l with
  | nil => rfl
  | cons x l ih =>
    rw [List.nodup_cons] at hn
    have hi := ih hn.2
    by_cases e : x = q
    · subst e
      rw [if_neg hn.1] at hi
      simp only [List.map_cons, List.mem_cons, true_or, if_true]
      have : inbox ((x, Message.event ev) :: l.map fun x => (x, Message.event ev)) x =
          .event ev :: inbox (l.map fun x => (x, Message.event ev)) x := by simp [inbox]
      rw [this, hi]
    · have : inbox ((x, Message.event ev) :: l.map fun x => (x, Message.event ev)) q =
          inbox (l.map fun x => (x, Message.event ev)) q := by simp [inbox, e]
      rw [List.map_cons, this, hi]
      simp [show q ≠ x from fun h => e h.symm]

/-- The EVENTs a PUBLISH puts onto the channel of `q`. -/
theorem publish_events {n : Net W} {N : Nat} (hb : Base n N) (hN : N < 2 ^ 53) (s : Int) (m : Publish)
    (hs : (n.conns s).isSome) (q : Int) :
    (inbox (brokerOut (Broker.outcome n.broker (.receivePublish s m))) q).filterMap eventOf =
      (match subscription n q m.topic with
       | some i => [⟨.int i, .int ((Pub.view (Broker.trace n.broker)).drawn + 1), m.args, m.kwargs, []⟩]
       | none => []) := by
  have hbl : n.broker.length < 2 ^ 53 := Nat.lt_of_le_of_lt hb.bl hN
  have hc := Broker.C19_no_clash n.broker (by omega)
  have hd : (Pub.view (Broker.trace n.broker)).drawn < 2 ^ 53 := Nat.lt_of_le_of_lt (Broker.drawn_le_length _) hbl
  obtain ⟨p, hp, hrec, hnd, hev⟩ := Broker.C19_exact_delivery n.broker hc s m ((hb.bk s).2 hs)
  have hack : (inbox (ackOf p) q).filterMap eventOf = [] := by
    cases ha : p.ack with
    | none => simp [ackOf, ha, inbox]
    | some a =>
      obtain ⟨-, i, e, -⟩ := (Broker.C27_acknowledge n.broker s m p hp).2 a ha
      simp only [ackOf, ha, e, inbox_single]
      split <;> rfl
  simp only [hp, brokerOut, inbox_append, List.filterMap_append, hack, List.append_nil]
  cases he : p.event with
  | none =>
    have h0 := hev.1 he
    have : subscription n q m.topic = none := by
      cases hq : subscription n q m.topic with
      | none => rfl
      | some i =>
        have := (subscription_iff hb (by omega) q m.topic i).1 hq
        have : q ∈ (Pub.view (Broker.trace n.broker)).subscribers m.topic := Broker.mem_subscribers.2 ⟨_, this, rfl, rfl⟩
        rw [← hrec, h0] at this; cases this
    simp only [eventsOf, he, this]; rfl
  | some ev =>
    obtain ⟨h1, h2, h3, h4⟩ := Broker.C20_event_contents n.broker hc s m p ev hp he
    have hid : ev.publicationId = .int ((Pub.view (Broker.trace n.broker)).drawn + 1) := by
      have hr := Broker.rel_after n.broker hc
      have hk : (Broker.after n.broker).subscriptionsBySession.contains s = true :=
        Dict.contains_iff_get.2 ((hr.known s).1 ((hb.bk s).2 hs))
      simp only [Broker.outcome, Broker.step, Broker.receivePublish, if_pos hk, Except.map] at hp
      have hg : (Broker.after n.broker).idgen.next.2 = ((Pub.view (Broker.trace n.broker)).drawn : Int) + 1 := by
        rw [hr.gen, Broker.idgen_next]; exact Broker.draw_small hd
      rw [← hg]
      cases ht : (Broker.after n.broker).subscriptionsByTopic.get m.topic with
      | none => rw [ht] at hp; dsimp only at hp; split at hp <;> (cases hp; cases he)
      | some r => rw [ht] at hp; dsimp only at hp; split at hp <;> (cases hp; cases he; rfl)
    simp only [eventsOf, he, inbox_events_self ev _ hnd q]
    by_cases hq : q ∈ p.recipients
    · obtain ⟨i, e1, e2⟩ := h4 q hq
      rw [(subscription_iff hb (by omega) q m.topic i).2 e2, if_pos hq]
      cases ev
      simp only at h1 h2 h3 hid e1
      subst h1 h2 h3 hid e1
      rfl
    · rw [if_neg hq]
      cases hs' : subscription n q m.topic with
      | none => rfl
      | some i =>
        have := (subscription_iff hb (by omega) q m.topic i).1 hs'
        have : q ∈ (Pub.view (Broker.trace n.broker)).subscribers m.topic := Broker.mem_subscribers.2 ⟨_, this, rfl, rfl⟩
        rw [← hrec] at this; exact absurd this hq

theorem isRpc_noEvent {m : Message} (h : isRpc m = true) : eventOf m = none := by
  cases m <;> first | rfl | cases h

/-- The dealer sends no EVENTs. -/
theorem dealer_noEvents (ops : List Dealer.Op) (op : Dealer.Op) (q : Int) :
    (inbox (dealerOut (Dealer.outcome ops op)) q).filterMap eventOf = [] := by
  rw [List.filterMap_eq_nil_iff]
  intro m hm
  exact isRpc_noEvent (dealerOut_isRpc ops op _ (mem_inbox.1 hm))

/-- Only PUBLISH causes EVENTs. -/
theorem broker_noEvents (ops : List Broker.Op) {s : Int} {m : Message} {op : Broker.Op} (h : brokerCall s m = some op)
    (hp : ∀ x, m ≠ .publish x) (q : Int) : (inbox (brokerOut (Broker.outcome ops op)) q).filterMap eventOf = [] := by
  rw [List.filterMap_eq_nil_iff]
  intro b hb
  have hb := mem_inbox.1 hb
  cases m <;> simp only [brokerCall, reduceCtorEq, Option.some.injEq] at h
  case publish x => exact absurd rfl (hp x)
  case subscribe x =>
    subst h
    cases hs : (Broker.after ops).subscriptionsBySession.get s with
    | none => simp [Broker.outcome, Broker.step, Broker.receiveMessage, Broker.receiveSubscribe, hs, Except.map, brokerOut] at hb
    | some d =>
      rw [Broker.outcome, Broker.subscribe_reply _ s x d hs] at hb
      simp only [brokerOut, List.mem_singleton, Prod.mk.injEq] at hb; rw [hb.2]; rfl
  case unsubscribe x =>
    subst h
    simp only [Broker.outcome, Broker.step, Broker.receiveMessage, Broker.receiveUnsubscribe] at hb
    split at hb
    · simp [Except.map, brokerOut] at hb
    · split at hb
      · simp [Except.map, brokerOut] at hb
      · split at hb
        · split at hb
          · simp [Except.map, brokerOut] at hb
          · simp only [Except.map, brokerOut, List.mem_singleton, Prod.mk.injEq] at hb; rw [hb.2]; rfl
        · simp [Except.map, brokerOut] at hb

/-- The content of an EVENT. -/
def evContent (e : Event) : Int × Option (List Value) × Option PyDict × PyDict := (e.subscriptionId.val, e.args, e.kwargs, e.details)
/-- The content a publication should have for a subscriber. -/
def fedContent (f : Fed) : Int × Option (List Value) × Option PyDict × PyDict := (f.id, f.publish.args, f.publish.kwargs, [])

/-- The stream of a client is its feed; publication ids increase along it. -/
structure Streams (n : Net W) (fd : Int → List Fed) : Prop where
  eq : ∀ q k, n.conns q = some k → k.events.map evContent = (fd q).map fedContent
  inc : ∀ q k, n.conns q = some k → (k.events.map (·.publicationId.val)).Pairwise (· < ·)
  bound : ∀ q k, n.conns q = some k → ∀ e ∈ k.events, e.publicationId.val ≤ (Pub.view (Broker.trace n.broker)).drawn

theorem drawn_mono (ops : List Broker.Op) (op : Broker.Op) :
    (Pub.view (Broker.trace ops)).drawn ≤ (Pub.view (Broker.trace (ops ++ [op]))).drawn := by
  rw [Broker.trace_snoc, Broker.view_snoc]; exact Broker.drawn_next_le _ _

theorem events_send (k : Conn W) (m : Message) (up : List Message) :
    Conn.events ⟨k.calls ++ [.sendMessage m], up, k.down⟩ = k.events := by
  simp [Conn.events, Conn.received, receivedEvent]

theorem events_deliver (k : Conn W) (m : Message) (rest : List Message) (h : k.down = m :: rest) :
    Conn.events ⟨k.calls ++ [.receiveMessage m], k.up, rest⟩ = k.events := by
  simp only [Conn.events, Conn.received, h, List.filterMap_append, List.filterMap_cons, List.filterMap_nil, receivedEvent]
  cases eventOf m <;> simp

theorem events_push (k : Conn W) (up more : List Message) :
    Conn.events ⟨k.calls, up, k.down ++ more⟩ = k.events ++ more.filterMap eventOf := by
  simp [Conn.events, Conn.received]

theorem streams_step {n : Net W} {N : Nat} (hb : Base n N) (hN : N < 2 ^ 53) {fd : Int → List Fed} (h : Streams n fd) (a : Act) :
    Streams (n.step c a) (fun q => feedStep q n (fd q) a) := by
  have hs := stepCase c hb hN a
  have hpb : ∀ s k x rest, a = .route s → n.conns s = some k → k.up = .publish x :: rest → (n.step c a).broker ≠ n.broker := by
    rintro s k x rest rfl h1 h2 e
    rw [step_route c h1 h2] at e
    simp [Net.handle, brokerCall, Net.setConn, Net.push] at e
  generalize n.step c a = n' at hs hpb ⊢
  -- when every client's stream is the old one, and the feeds do not change
  have same : ∀ {n' : Net W} {f' : Int → List Fed},
      (∀ q k', n'.conns q = some k' → ∃ k, n.conns q = some k ∧ k'.events = k.events ∧ f' q = fd q) →
      (Pub.view (Broker.trace n.broker)).drawn ≤ (Pub.view (Broker.trace n'.broker)).drawn → Streams n' f' := by
    intro n' f' h1 h2
    refine ⟨fun q k' hk' => ?_, fun q k' hk' => ?_, fun q k' hk' => ?_⟩ <;> obtain ⟨k, g1, g2, g3⟩ := h1 q k' hk'
    · rw [g2, g3]; exact h.eq q k g1
    · rw [g2]; exact h.inc q k g1
    · rw [g2]; intro e he; have := h.bound q k g1 e he; omega
  cases hs with
  | idle _ hi =>
    refine same (fun q k' hk' => ⟨k', hk', rfl, ?_⟩) (Nat.le_refl _)
    cases a with
    | join d =>
      simp only [feedStep]
      rw [if_neg]
      intro hc
      rw [hk'] at hc; simp at hc
    | route s =>
      simp only [feedStep, nextPublish]
      cases hc : n.conns s with
      | none => rfl
      | some k =>
        have := hi s k rfl hc
        obtain ⟨kc, ku, kd⟩ := k
        simp only at this; subst this; rfl
    | _ => rfl
  | joinFail d eb ed h1 h2 h3 =>
    refine same (fun q k' hk' => ⟨k', hk', rfl, ?_⟩) (drawn_mono _ _)
    simp only [feedStep]
    rw [if_neg]
    intro hc
    rw [hk'] at hc; simp at hc
  | join d h1 h2 h3 =>
    have hdr := drawn_mono n.broker (.addSession d)
    refine ⟨fun q k' hk' => ?_, fun q k' hk' => ?_, fun q k' hk' => ?_⟩ <;> simp only at hk' <;> split at hk'
    · rename_i e; cases hk'
      simp only [feedStep]; rw [if_pos ⟨e.symm, by rw [e, h1]; rfl⟩]; rfl
    · rename_i e
      simp only [feedStep]; rw [if_neg (fun hh => e hh.1.symm)]; exact h.eq q k' hk'
    · cases hk'; exact List.Pairwise.nil
    · exact h.inc q k' hk'
    · cases hk'; intro e he; cases he
    · intro e he
      have := h.bound q k' hk' e he
      simp only
      omega
  | leaveFail s eb ed h1 h2 h3 => exact same (fun q k' hk' => ⟨k', hk', rfl, rfl⟩) (drawn_mono _ _)
  | leave s k h1 h2 h3 =>
    refine same (fun q k' hk' => ?_) (drawn_mono _ _)
    simp only at hk'; split at hk'
    · cases hk'
    · exact ⟨k', hk', rfl, rfl⟩
  | send s m k h1 =>
    refine same (fun q k' hk' => ?_) (Nat.le_refl _)
    simp only at hk'; split at hk'
    · rename_i e; subst e; cases hk'; exact ⟨k, h1, events_send k m _, rfl⟩
    · exact ⟨k', hk', rfl, rfl⟩
  | deliver s m k rest h1 h2 =>
    refine same (fun q k' hk' => ?_) (Nat.le_refl _)
    simp only at hk'; split at hk'
    · rename_i e; subst e; cases hk'; exact ⟨k, h1, events_deliver k m rest h2, rfl⟩
    · exact ⟨k', hk', rfl, rfl⟩
  | routeX s m k rest h1 h2 h3 h4 h5 =>
    refine same (fun q k' hk' => ?_) (Nat.le_refl _)
    have hf : feedStep q n (fd q) (.route s) = fd q := by
      simp only [feedStep, nextPublish, h1]
      obtain ⟨kc, ku, kd⟩ := k
      simp only at h2; subst h2
      cases m <;> first | rfl | exact absurd rfl (hpb s _ _ _ rfl h1 rfl)
    simp only at hk'; split at hk'
    · rename_i e; subst e; cases hk'; exact ⟨k, h1, rfl, hf⟩
    · exact ⟨k', hk', rfl, hf⟩
  | routeD s m k rest op h1 h2 h3 =>
    refine same (fun q k' hk' => ?_) (Nat.le_refl _)
    have hf : feedStep q n (fd q) (.route s) = fd q := by
      simp only [feedStep, nextPublish, h1]
      obtain ⟨kc, ku, kd⟩ := k
      simp only at h2; subst h2
      cases m <;> first | rfl | cases h3
    simp only [Option.map_eq_some_iff] at hk'
    obtain ⟨k0, h0, rfl⟩ := hk'
    split at h0
    · rename_i e; subst e; cases h0
      refine ⟨k, h1, ?_, hf⟩
      simp only [events_push, dealer_noEvents, List.append_nil]
    · refine ⟨k0, h0, ?_, hf⟩
      simp only [events_push, dealer_noEvents, List.append_nil]
  | routeB s m k rest op h1 h2 h3 =>
    by_cases hp : ∃ x, m = .publish x
    · obtain ⟨x, rfl⟩ := hp
      simp only [brokerCall, Option.some.injEq] at h3
      subst h3
      have hnp : nextPublish n s = some x := by
        obtain ⟨kc, ku, kd⟩ := k
        simp only at h2; subst h2
        simp only [nextPublish, h1]
      have hev := publish_events hb hN s x (by rw [h1]; rfl)
      have hdr : (Pub.view (Broker.trace (n.broker ++ [.receivePublish s x]))).drawn = (Pub.view (Broker.trace n.broker)).drawn + 1 := by
        have hc := Broker.C19_no_clash n.broker (Nat.le_trans hb.bl (Nat.le_of_lt hN))
        obtain ⟨p, hp, -⟩ := Broker.C19_exact_delivery n.broker hc s x ((hb.bk s).2 (by rw [h1]; rfl))
        rw [Broker.trace_snoc, Broker.view_snoc]
        rw [Broker.outcome] at hp; rw [hp]; rfl
      -- the stream after: old plus the new event
      have key : ∀ q k', ((if q = s then some { k with up := rest } else n.conns q).map fun k => (⟨k.calls, k.up, k.down ++
            inbox (brokerOut (Broker.outcome n.broker (.receivePublish s x))) q⟩ : Conn W)) = some k' →
          ∃ k0, n.conns q = some k0 ∧ k'.events = k0.events ++ (match subscription n q x.topic with
            | some i => [⟨.int i, .int ((Pub.view (Broker.trace n.broker)).drawn + 1), x.args, x.kwargs, []⟩]
            | none => []) := by
        intro q k' hk'
        simp only [Option.map_eq_some_iff] at hk'
        obtain ⟨k0, h0, rfl⟩ := hk'
        split at h0
        · rename_i e; subst e; cases h0
          exact ⟨k, h1, by rw [← hev]; exact events_push k rest _⟩
        · exact ⟨k0, h0, by rw [← hev]; exact events_push k0 _ _⟩
      refine ⟨fun q k' hk' => ?_, fun q k' hk' => ?_, fun q k' hk' => ?_⟩ <;> obtain ⟨k0, g1, g2⟩ := key q k' hk' <;> rw [g2]
      · simp only [feedStep, hnp]
        cases subscription n q x.topic with
        | none => simp only [List.append_nil]; exact h.eq q k0 g1
        | some i => simp only [List.map_append, h.eq q k0 g1]; rfl
      · cases subscription n q x.topic with
        | none => simp only [List.append_nil]; exact h.inc q k0 g1
        | some i =>
          rw [List.map_append, List.pairwise_append]
          refine ⟨h.inc q k0 g1, by simp, ?_⟩
          intro a ha b hb'
          obtain ⟨e, he, rfl⟩ := List.mem_map.1 ha
          simp only [List.map_cons, List.map_nil, List.mem_singleton] at hb'
          have := h.bound q k0 g1 e he
          rw [hb']; exact Int.lt_add_one_of_le this
      · intro e he
        change _ ≤ (((Pub.view (Broker.trace (n.broker ++ [.receivePublish s x]))).drawn : Nat) : Int)
        rw [hdr]
        rw [List.mem_append] at he
        rcases he with he | he
        · have := h.bound q k0 g1 e he; omega
        · cases hq : subscription n q x.topic with
          | none => rw [hq] at he; cases he
          | some i => rw [hq] at he; rw [List.mem_singleton.1 he]; simp [PyInt.val]
    · have hp' : ∀ x, m ≠ .publish x := fun x e => hp ⟨x, e⟩
      refine same (fun q k' hk' => ?_) (drawn_mono _ _)
      have hf : feedStep q n (fd q) (.route s) = fd q := by
        simp only [feedStep, nextPublish, h1]
        obtain ⟨kc, ku, kd⟩ := k
        simp only at h2; subst h2
        cases m <;> first | rfl | exact absurd rfl (hp' _)
      simp only [Option.map_eq_some_iff] at hk'
      obtain ⟨k0, h0, rfl⟩ := hk'
      split at h0
      · rename_i e; subst e; cases h0
        refine ⟨k, h1, ?_, hf⟩
        simp only [events_push, broker_noEvents n.broker h3 hp', List.append_nil]
      · refine ⟨k0, h0, ?_, hf⟩
        simp only [events_push, broker_noEvents n.broker h3 hp', List.append_nil]

theorem streams_run (sched : List Act) : sched.length ≤ 2 ^ 53 → Streams (run c sched) (fun q => feed c q sched) := by
  induction sched using snoc_induction with
  | nil =>
    intro _
    exact ⟨fun q k h => by (cases h), fun q k h => by (cases h), fun q k h => by (cases h)⟩
  | snoc sched a ih =>
    intro hl
    rw [List.length_append] at hl
    have hl' : sched.length + 1 ≤ 2 ^ 53 := hl
    have := streams_step c (base_run c sched (by omega)) (by omega) (ih (by omega)) a
    rw [run_snoc]
    simp only [feed_snoc]; exact this

/-! ## The order of one publisher -/

/-- The PUBLISH in a message. -/
def publishOf : Message → Option Publish
  | .publish m => some m
  | _ => none

/-- The PUBLISHes of client `s` that have not been handled yet. -/
def Net.unhandled (n : Net W) (s : Int) : List Publish :=
  match n.conns s with
  | some k => k.up.filterMap publishOf
  | none => []

/-- The part of a feed that comes from one publisher. -/
def feedFrom (s : Int) (l : List Fed) : List Publish := (l.filter (·.publisher = s)).map (·.publish)

theorem publishes_snoc (s : Int) (sched : List Act) (a : Act) : publishes s (sched ++ [a]) = publishes s sched ++ publishes s [a] := by
  simp [publishes]

theorem feedFrom_append (s : Int) (l l' : List Fed) : feedFrom s (l ++ l') = feedFrom s l ++ feedFrom s l' := by simp [feedFrom]

theorem unhandled_some {n : Net W} {s : Int} {k : Conn W} (h : n.conns s = some k) : n.unhandled s = k.up.filterMap publishOf := by
  simp only [Net.unhandled, h]

theorem order_step {n : Net W} {N : Nat} (hb : Base n N) (hN : N < 2 ^ 53) (s q : Int) (fd : List Fed) (ps : List Publish)
    (h : (feedFrom s fd ++ n.unhandled s).Sublist ps) (a : Act) :
    (feedFrom s (feedStep q n fd a) ++ (n.step c a).unhandled s).Sublist (ps ++ publishes s [a]) := by
  have hs := stepCase c hb hN a
  have hpb : ∀ s k x rest, a = .route s → n.conns s = some k → k.up = .publish x :: rest → (n.step c a).broker ≠ n.broker := by
    rintro s k x rest rfl h1 h2 e
    rw [step_route c h1 h2] at e
    simp [Net.handle, brokerCall, Net.setConn, Net.push] at e
  generalize n.step c a = n' at hs hpb ⊢
  have feedSub : (∀ s', a ≠ .route s') → (feedFrom s (feedStep q n fd a)).Sublist (feedFrom s fd) := by
    intro hr
    cases a with
    | join d => simp only [feedStep]; split <;> first | exact List.nil_sublist _ | exact List.Sublist.refl _
    | route s' => exact absurd rfl (hr s')
    | _ => exact List.Sublist.refl _
  -- no new publication, nothing new unhandled
  have less : (feedFrom s (feedStep q n fd a)).Sublist (feedFrom s fd) → (n'.unhandled s).Sublist (n.unhandled s) →
      (feedFrom s (feedStep q n fd a) ++ n'.unhandled s).Sublist (ps ++ publishes s [a]) := by
    intro h1 h2
    exact ((h1.append h2).trans h).trans (List.sublist_append_left _ _)
  -- the router handles a message that is no PUBLISH
  have other : ∀ s' k rest m, a = .route s' → n.conns s' = some k → k.up = m :: rest → (∀ x, m ≠ .publish x) →
      (∀ s'', n'.unhandled s'' = if s'' = s' then rest.filterMap publishOf else n.unhandled s'') →
      (feedFrom s (feedStep q n fd a) ++ n'.unhandled s).Sublist (ps ++ publishes s [a]) := by
    intro s' k rest m ha h1 h2 h3 h4
    have hf : feedStep q n fd a = fd := by
      rw [ha]; simp only [feedStep, nextPublish, h1]
      obtain ⟨kc, ku, kd⟩ := k
      simp only at h2; subst h2
      cases m <;> first | rfl | exact absurd rfl (h3 _)
    rw [hf]
    have : n'.unhandled s = n.unhandled s := by
      rw [h4]; split
      · rename_i e; subst e
        rw [unhandled_some h1, h2]
        cases m <;> first | rfl | exact absurd rfl (h3 _)
      · rfl
    rw [this]
    exact h.trans (List.sublist_append_left _ _)
  cases hs with
  | idle _ hi =>
    refine less ?_ (List.Sublist.refl _)
    cases a with
    | route s' =>
      have : feedStep q n fd (.route s') = fd := by
        simp only [feedStep, nextPublish]
        cases hc : n.conns s' with
        | none => rfl
        | some k =>
          have := hi s' k rfl hc
          obtain ⟨kc, ku, kd⟩ := k
          simp only at this; subst this; rfl
      rw [this]; exact List.Sublist.refl _
    | _ => exact feedSub (fun _ e => by cases e)
  | joinFail d eb ed h1 h2 h3 => exact less (feedSub (fun _ e => by cases e)) (List.Sublist.refl _)
  | join d h1 h2 h3 =>
    refine less (feedSub (fun _ e => by cases e)) ?_
    simp only [Net.unhandled]
    split
    · rename_i k hk
      split at hk
      · cases hk; exact List.nil_sublist _
      · rw [hk]; exact List.Sublist.refl _
    · exact List.nil_sublist _
  | leaveFail s' eb ed h1 h2 h3 => exact less (feedSub (fun _ e => by cases e)) (List.Sublist.refl _)
  | leave s' k h1 h2 h3 =>
    refine less (feedSub (fun _ e => by cases e)) ?_
    simp only [Net.unhandled]
    split
    · rename_i k hk
      split at hk
      · cases hk
      · rw [hk]; exact List.Sublist.refl _
    · exact List.nil_sublist _
  | deliver s' m k rest h1 h2 =>
    refine less (feedSub (fun _ e => by cases e)) ?_
    simp only [Net.unhandled]
    by_cases e : s = s'
    · subst e; simp only [if_true, h1]; exact List.Sublist.refl _
    · simp only [if_neg e]; exact List.Sublist.refl _
  | send s' m k h1 =>
    by_cases e : s = s'
    · subst e
      rw [show feedStep q n fd (.send s m) = fd from rfl]
      have h2 : Net.unhandled (⟨n.broker, n.dealer, fun s' => if s' = s then some ⟨k.calls ++ [.sendMessage m],
          if returned (WAMPSession.outcome c k.calls (.sendMessage m)) then k.up ++ [m] else k.up, k.down⟩ else n.conns s'⟩ : Net W) s =
          (if returned (WAMPSession.outcome c k.calls (.sendMessage m)) then k.up ++ [m] else k.up).filterMap publishOf := by
        simp only [Net.unhandled, if_true]
      rw [unhandled_some h1] at h
      rw [h2]
      split
      · rw [List.filterMap_append, ← List.append_assoc]
        refine h.append ?_
        cases m <;> simp [publishOf, publishes]
      · exact h.trans (List.sublist_append_left _ _)
    · refine less (List.Sublist.refl _) ?_
      simp only [Net.unhandled, if_neg e]; exact List.Sublist.refl _
  | routeX s' m k rest h1 h2 h3 h4 h5 =>
    refine other s' k rest m rfl h1 h2 (fun x e => by subst e; exact hpb s' k x rest rfl h1 h2 rfl) (fun s'' => ?_)
    simp only [Net.unhandled]
    by_cases e : s'' = s'
    · subst e; simp only [if_true]
    · simp only [if_neg e]
  | routeD s' m k rest op h1 h2 h3 =>
    refine other s' k rest m rfl h1 h2 (fun x e => by subst e; cases h3) (fun s'' => ?_)
    simp only [Net.unhandled]
    by_cases e : s'' = s'
    · subst e; simp only [if_true, Option.map_some]
    · simp only [if_neg e]; cases n.conns s'' <;> rfl
  | routeB s' m k rest op h1 h2 h3 =>
    have h4 : ∀ s'', Net.unhandled (⟨n.broker ++ [op], n.dealer, fun s'' => (if s'' = s' then some { k with up := rest } else n.conns s'').map
        fun k => ⟨k.calls, k.up, k.down ++ inbox (brokerOut (Broker.outcome n.broker op)) s''⟩⟩ : Net W) s'' =
        if s'' = s' then rest.filterMap publishOf else n.unhandled s'' := by
      intro s''
      simp only [Net.unhandled]
      by_cases e : s'' = s'
      · subst e; simp only [if_true, Option.map_some]
      · simp only [if_neg e]; cases n.conns s'' <;> rfl
    by_cases hp : ∃ x, m = .publish x
    · obtain ⟨x, rfl⟩ := hp
      have hnp : nextPublish n s' = some x := by
        obtain ⟨kc, ku, kd⟩ := k
        simp only at h2; subst h2
        simp only [nextPublish, h1]
      rw [h4]
      refine List.Sublist.trans ?_ (List.sublist_append_left _ _)
      refine List.Sublist.trans ?_ h
      by_cases e : s = s'
      · subst e
        rw [unhandled_some h1, h2]
        simp only [feedStep, hnp, if_true, List.filterMap_cons, publishOf]
        cases subscription n q x.topic with
        | none => exact (List.Sublist.refl _).append (List.sublist_cons_self _ _)
        | some i =>
          simp only [feedFrom_append, List.append_assoc]
          simp [feedFrom]
      · simp only [feedStep, hnp, if_neg e]
        cases subscription n q x.topic with
        | none => exact List.Sublist.refl _
        | some i =>
          simp only [feedFrom_append]
          have : feedFrom s [⟨s', i, x⟩] = [] := by simp [feedFrom, show s' ≠ s from fun h => e h.symm]
          rw [this, List.append_nil]; exact List.Sublist.refl _
    · exact other s' k rest m rfl h1 h2 (fun x e => hp ⟨x, e⟩) h4

theorem order_run (s q : Int) (sched : List Act) : sched.length ≤ 2 ^ 53 →
    (feedFrom s (feed c q sched) ++ (run c sched).unhandled s).Sublist (publishes s sched) := by
  induction sched using snoc_induction with
  | nil => intro _; exact List.Sublist.refl _
  | snoc sched a ih =>
    intro hl
    rw [List.length_append] at hl
    have hl' : sched.length + 1 ≤ 2 ^ 53 := hl
    rw [run_snoc, feed_snoc, publishes_snoc]
    exact order_step c (base_run c sched (by omega)) (by omega) s q _ _ (ih (by omega)) a

end Wamp.Spec.Net
