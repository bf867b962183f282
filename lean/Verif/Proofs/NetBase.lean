import Verif.Proofs.NetConn
import Verif.Props.Broker
import Verif.Props.Dealer

/-! # The network: who is connected, what the router puts onto the channels -/

namespace Wamp.Spec.Net
open Wamp.Spec.Ses

variable {W : Type} (c : Codec W)

/-! ## The steps in closed form -/

theorem run_nil : run c [] = ({} : Net W) := rfl
theorem run_snoc (sched : List Act) (a : Act) : run c (sched ++ [a]) = (run c sched).step c a := by simp [run]

theorem setConn_conns (n : Net W) (s : Int) (k : Option (Conn W)) (s' : Int) :
    (n.setConn s k).conns s' = if s' = s then k else n.conns s' := rfl

theorem step_send {n : Net W} {s : Int} {m : Message} {k : Conn W} (h : n.conns s = some k) :
    n.step c (.send s m) = n.setConn s (some ⟨k.calls ++ [.sendMessage m],
      if returned (WAMPSession.outcome c k.calls (.sendMessage m)) then k.up ++ [m] else k.up, k.down⟩) := by
  simp only [Net.step, h]

theorem step_send_none {n : Net W} {s : Int} {m : Message} (h : n.conns s = none) : n.step c (.send s m) = n := by
  simp only [Net.step, h]

theorem step_deliver {n : Net W} {s : Int} {k : Conn W} {m : Message} {rest : List Message} (h : n.conns s = some k)
    (hd : k.down = m :: rest) : n.step c (.deliver s) = n.setConn s (some ⟨k.calls ++ [.receiveMessage m], k.up, rest⟩) := by
  simp only [Net.step, h, hd]

theorem step_route {n : Net W} {s : Int} {k : Conn W} {m : Message} {rest : List Message} (h : n.conns s = some k)
    (hd : k.up = m :: rest) : n.step c (.route s) = (n.setConn s (some { k with up := rest })).handle s m := by
  simp only [Net.step, h, hd]

/-- What handling a message does to a client. -/
theorem conns_push (n : Net W) (out : List (Int × Message)) (s : Int) :
    (n.push out).conns s = (n.conns s).map fun k => ⟨k.calls, k.up, k.down ++ inbox out s⟩ := rfl

theorem after_send (calls : List (WAMPSession.Op W)) (m : Message) :
    WAMPSession.after c (calls ++ [.sendMessage m]) = ((WAMPSession.after c calls).sendMessage c m).1 := by
  rw [WAMPSession.after_snoc]; rfl

theorem after_recv (calls : List (WAMPSession.Op W)) (m : Message) :
    WAMPSession.after c (calls ++ [.receiveMessage m]) = ((WAMPSession.after c calls).receiveMessage m).1 := by
  rw [WAMPSession.after_snoc]; rfl

theorem inbox_nil (s : Int) : inbox [] s = [] := rfl
theorem inbox_single (s q : Int) (m : Message) : inbox [(q, m)] s = if q = s then [m] else [] := by
  unfold inbox; by_cases h : q = s <;> simp [h]
theorem inbox_append (a b : List (Int × Message)) (s : Int) : inbox (a ++ b) s = inbox a s ++ inbox b s := by simp [inbox]
theorem mem_inbox {out : List (Int × Message)} {s : Int} {m : Message} : m ∈ inbox out s ↔ (s, m) ∈ out := by
  simp [inbox]

/-! ## How the router's knowledge of sessions changes -/

theorem bknown_snoc (ops : List Broker.Op) (op : Broker.Op) (s : Int) :
    s ∈ (Pub.view (Broker.trace (ops ++ [op]))).known ↔
      Pub.Joins (op, Broker.outcome ops op) s ∨
        (s ∈ (Pub.view (Broker.trace ops)).known ∧ ¬ Pub.Leaves (op, Broker.outcome ops op) s) := by
  rw [Broker.known_iff, Broker.trace_snoc,
    split_snoc (P := fun e => Pub.Joins e s) (Q := fun e' => ¬ Pub.Leaves e' s), ← Broker.known_iff]
  rfl

theorem dknown_snoc (ops : List Dealer.Op) (op : Dealer.Op) (s : Int) :
    s ∈ (Rpc.view (Dealer.trace (ops ++ [op]))).known ↔
      Rpc.Joins (op, Dealer.outcome ops op) s ∨
        (s ∈ (Rpc.view (Dealer.trace ops)).known ∧ ¬ Rpc.Leaves (op, Dealer.outcome ops op) s) := by
  rw [Dealer.known_iff, Dealer.trace_snoc,
    split_snoc (P := fun e => Rpc.Joins e s) (Q := fun e' => ¬ Rpc.Leaves e' s), ← Dealer.known_iff]
  rfl

theorem bknown_message (ops : List Broker.Op) {op : Broker.Op} (h1 : ∀ d, op ≠ .addSession d) (h2 : ∀ s, op ≠ .removeSession s)
    (s : Int) : s ∈ (Pub.view (Broker.trace (ops ++ [op]))).known ↔ s ∈ (Pub.view (Broker.trace ops)).known := by
  rw [bknown_snoc]
  constructor
  · rintro (⟨d, out, e, -⟩ | h)
    · cases congrArg Prod.fst e; exact absurd rfl (h1 d)
    · exact h.1
  · intro h; exact .inr ⟨h, fun ⟨out, e⟩ => h2 s (congrArg Prod.fst e)⟩

theorem dknown_message (ops : List Dealer.Op) {op : Dealer.Op} (h1 : ∀ d, op ≠ .addSession d) (h2 : ∀ s, op ≠ .removeSession s)
    (s : Int) : s ∈ (Rpc.view (Dealer.trace (ops ++ [op]))).known ↔ s ∈ (Rpc.view (Dealer.trace ops)).known := by
  rw [dknown_snoc]
  constructor
  · rintro (⟨d, out, e, -⟩ | h)
    · cases congrArg Prod.fst e; exact absurd rfl (h1 d)
    · exact h.1
  · intro h; exact .inr ⟨h, fun ⟨out, e⟩ => h2 s (congrArg Prod.fst e)⟩

theorem badd_outcome (ops : List Broker.Op) (d : SessionDetails) :
    (d.sessionId.val ∉ (Pub.view (Broker.trace ops)).known → Broker.outcome ops (.addSession d) = .ok .unit) ∧
    (d.sessionId.val ∈ (Pub.view (Broker.trace ops)).known → ∃ e, Broker.outcome ops (.addSession d) = .error e) := by
  have hk := Broker.known_after ops d.sessionId.val
  rw [hk, ← Dict.contains_iff_get]
  constructor
  · intro h
    rw [Broker.outcome, Broker.step, Broker.addSession, if_neg h]; rfl
  · intro h
    rw [Broker.outcome, Broker.step, Broker.addSession, if_pos h]; exact ⟨_, rfl⟩

theorem dadd_outcome (ops : List Dealer.Op) (hd : ops.length < 2 ^ 53) (d : SessionDetails) :
    (d.sessionId.val ∉ (Rpc.view (Dealer.trace ops)).known → Dealer.outcome ops (.addSession d) = .ok .unit) ∧
    (d.sessionId.val ∈ (Rpc.view (Dealer.trace ops)).known → ∃ e, Dealer.outcome ops (.addSession d) = .error e) := by
  have hk := (Dealer.rel_after ops (Dealer.C30_ids_not_exhausted ops hd)).1.known d.sessionId.val
  rw [hk, ← Dict.contains_iff_get]
  constructor
  · intro h
    rw [Dealer.outcome, Dealer.step, Dealer.addSession, if_neg h]; rfl
  · intro h
    rw [Dealer.outcome, Dealer.step, Dealer.addSession, if_pos h]; exact ⟨_, rfl⟩

theorem dremove_outcome (ops : List Dealer.Op) (hd : ops.length < 2 ^ 53) (s : Int) :
    (s ∈ (Rpc.view (Dealer.trace ops)).known → Dealer.outcome ops (.removeSession s) = .ok .unit) ∧
    (s ∉ (Rpc.view (Dealer.trace ops)).known → ∃ e, Dealer.outcome ops (.removeSession s) = .error e) := by
  have hk := (Dealer.rel_after ops (Dealer.C30_ids_not_exhausted ops hd)).1.known s
  rw [hk]
  constructor
  · rintro ⟨d, h⟩
    obtain ⟨b', k1, -⟩ := Dealer.removeSession_ok _ (Dealer.wf_after ops) s d h
    simp only [Dealer.outcome, Dealer.step, k1]; rfl
  · intro h
    have : (Dealer.after ops).registrationsBySession.get s = none := by
      cases h' : (Dealer.after ops).registrationsBySession.get s with
      | none => rfl
      | some d => exact absurd ⟨d, h'⟩ h
    simp only [Dealer.outcome, Dealer.step, Dealer.removeSession, this]; exact ⟨_, rfl⟩

/-! ## Who is connected -/

/-- The router knows exactly the connected clients. -/
structure Base (n : Net W) (N : Nat) : Prop where
  bk : ∀ s, s ∈ (Pub.view (Broker.trace n.broker)).known ↔ (n.conns s).isSome
  dk : ∀ s, s ∈ (Rpc.view (Dealer.trace n.dealer)).known ↔ (n.conns s).isSome
  bl : n.broker.length ≤ N
  dl : n.dealer.length ≤ N

/-- The cases of one action, given that the router knows exactly the connected clients. -/
inductive StepCase (n : Net W) : Act → Net W → Prop
  | idle (a) : (∀ s k, a = .route s → n.conns s = some k → k.up = []) → StepCase n a n
  | joinFail (d) (eb ed) : (n.conns d.sessionId.val).isSome → Broker.outcome n.broker (.addSession d) = .error eb →
      Dealer.outcome n.dealer (.addSession d) = .error ed →
      StepCase n (.join d) ⟨n.broker ++ [.addSession d], n.dealer ++ [.addSession d], n.conns⟩
  | join (d) : n.conns d.sessionId.val = none → Broker.outcome n.broker (.addSession d) = .ok .unit →
      Dealer.outcome n.dealer (.addSession d) = .ok .unit →
      StepCase n (.join d) ⟨n.broker ++ [.addSession d], n.dealer ++ [.addSession d],
        fun s => if s = d.sessionId.val then some {} else n.conns s⟩
  | leaveFail (s) (eb ed) : n.conns s = none → Broker.outcome n.broker (.removeSession s) = .error eb →
      Dealer.outcome n.dealer (.removeSession s) = .error ed →
      StepCase n (.leave s) ⟨n.broker ++ [.removeSession s], n.dealer ++ [.removeSession s], n.conns⟩
  | leave (s) (k) : n.conns s = some k → Broker.outcome n.broker (.removeSession s) = .ok .unit →
      Dealer.outcome n.dealer (.removeSession s) = .ok .unit →
      StepCase n (.leave s) ⟨n.broker ++ [.removeSession s], n.dealer ++ [.removeSession s],
        fun s' => if s' = s then none else n.conns s'⟩
  | send (s m k) : n.conns s = some k →
      StepCase n (.send s m) ⟨n.broker, n.dealer, fun s' => if s' = s then some ⟨k.calls ++ [.sendMessage m],
        if returned (WAMPSession.outcome c k.calls (.sendMessage m)) then k.up ++ [m] else k.up, k.down⟩ else n.conns s'⟩
  | deliver (s m k rest) : n.conns s = some k → k.down = m :: rest →
      StepCase n (.deliver s) ⟨n.broker, n.dealer,
        fun s' => if s' = s then some ⟨k.calls ++ [.receiveMessage m], k.up, rest⟩ else n.conns s'⟩
  | routeB (s m k rest op) : n.conns s = some k → k.up = m :: rest → brokerCall s m = some op →
      StepCase n (.route s) ⟨n.broker ++ [op], n.dealer, fun s' => (if s' = s then some { k with up := rest } else n.conns s').map
        fun k => ⟨k.calls, k.up, k.down ++ inbox (brokerOut (Broker.outcome n.broker op)) s'⟩⟩
  | routeD (s m k rest op) : n.conns s = some k → k.up = m :: rest → dealerCall s m = some op →
      StepCase n (.route s) ⟨n.broker, n.dealer ++ [op], fun s' => (if s' = s then some { k with up := rest } else n.conns s').map
        fun k => ⟨k.calls, k.up, k.down ++ inbox (dealerOut (Dealer.outcome n.dealer op)) s'⟩⟩
  | routeX (s m k rest) : n.conns s = some k → k.up = m :: rest → requestOf m = none → (∀ x, m ≠ .yield_ x) →
      (∀ x, m ≠ .error x) →
      StepCase n (.route s) ⟨n.broker, n.dealer, fun s' => if s' = s then some { k with up := rest } else n.conns s'⟩

theorem stepCase {n : Net W} {N : Nat} (h : Base n N) (hN : N < 2 ^ 53) (a : Act) : StepCase c n a (n.step c a) := by
  have hd : n.dealer.length < 2 ^ 53 := Nat.lt_of_le_of_lt h.dl hN
  cases a with
  | join d =>
    cases hc : n.conns d.sessionId.val with
    | none =>
      have h1 := (badd_outcome n.broker d).1 (by rw [h.bk, hc]; simp)
      have h2 := (dadd_outcome n.dealer hd d).1 (by rw [h.dk, hc]; simp)
      have : n.step c (.join d) = ⟨n.broker ++ [.addSession d], n.dealer ++ [.addSession d],
        fun s => if s = d.sessionId.val then some {} else n.conns s⟩ := by
        simp only [Net.step, h1, h2, returned, and_self, if_true]; rfl
      rw [this]; exact .join d hc h1 h2
    | some k =>
      obtain ⟨eb, h1⟩ := (badd_outcome n.broker d).2 (by rw [h.bk, hc]; simp)
      obtain ⟨ed, h2⟩ := (dadd_outcome n.dealer hd d).2 (by rw [h.dk, hc]; simp)
      have : n.step c (.join d) = ⟨n.broker ++ [.addSession d], n.dealer ++ [.addSession d], n.conns⟩ := by
        simp only [Net.step, h1, returned, Bool.false_eq_true, false_and, if_false]
      rw [this]; exact .joinFail d eb ed (by rw [hc]; rfl) h1 h2
  | leave s =>
    cases hc : n.conns s with
    | none =>
      obtain ⟨⟨msg, h1⟩, -⟩ := Broker.C25_remove_unknown n.broker s (by rw [h.bk, hc]; simp)
      obtain ⟨ed, h2⟩ := (dremove_outcome n.dealer hd s).2 (by rw [h.dk, hc]; simp)
      have : n.step c (.leave s) = ⟨n.broker ++ [.removeSession s], n.dealer ++ [.removeSession s], n.conns⟩ := by
        simp only [Net.step, Net.setConn]
        congr 1
        funext s'; split
        · rename_i e; rw [e, hc]
        · rfl
      rw [this]; exact .leaveFail s _ ed hc h1 h2
    | some k =>
      have h1 := (Broker.C25_remove_known n.broker s (by rw [h.bk, hc]; simp)).1
      have h2 := (dremove_outcome n.dealer hd s).1 (by rw [h.dk, hc]; simp)
      exact .leave s k hc h1 h2
  | send s m =>
    cases hc : n.conns s with
    | none => rw [step_send_none c hc]; exact .idle _ (fun _ _ e => by cases e)
    | some k => rw [step_send c hc]; exact .send s m k hc
  | deliver s =>
    cases hc : n.conns s with
    | none => simp only [Net.step, hc]; exact .idle _ (fun _ _ e => by cases e)
    | some k =>
      cases hm : k.down with
      | nil => simp only [Net.step, hc, hm]; exact .idle _ (fun _ _ e => by cases e)
      | cons m rest => rw [step_deliver c hc hm]; exact .deliver s m k rest hc hm
  | route s =>
    cases hc : n.conns s with
    | none => simp only [Net.step, hc]; exact .idle _ (fun _ _ e h => by cases e; rw [hc] at h; cases h)
    | some k =>
      cases hm : k.up with
      | nil => simp only [Net.step, hc, hm]; exact .idle _ (fun _ _ e h => by cases e; rw [hc] at h; cases h; exact hm)
      | cons m rest =>
        rw [step_route c hc hm]
        simp only [Net.handle]
        cases hb : brokerCall s m with
        | some op => exact .routeB s m k rest op hc hm hb
        | none =>
          cases hd : dealerCall s m with
          | some op => exact .routeD s m k rest op hc hm hd
          | none =>
            refine .routeX s m k rest hc hm ?_ ?_ ?_
            · cases m <;> first | rfl | (exfalso; simp [brokerCall, dealerCall] at hb hd; done)
            · rintro x rfl; cases hd
            · rintro x rfl; cases hd

theorem brokerCall_op {s : Int} {m : Message} {op : Broker.Op} (h : brokerCall s m = some op) :
    (∀ d, op ≠ .addSession d) ∧ (∀ s, op ≠ .removeSession s) := by
  cases m <;> simp only [brokerCall, reduceCtorEq, Option.some.injEq] at h <;> subst h <;> simp

theorem dealerCall_op {s : Int} {m : Message} {op : Dealer.Op} (h : dealerCall s m = some op) :
    (∀ d, op ≠ .addSession d) ∧ (∀ s, op ≠ .removeSession s) := by
  cases m <;> simp only [dealerCall, reduceCtorEq, Option.some.injEq] at h <;> subst h <;> simp

theorem base_step {n : Net W} {N : Nat} (h : Base n N) (hN : N < 2 ^ 53) (a : Act) : Base (n.step c a) (N + 1) := by
  have hs := stepCase c h hN a
  generalize n.step c a = n' at hs ⊢
  have hb := h.bl; have hd := h.dl
  cases hs with
  | idle => exact ⟨h.bk, h.dk, by omega, by omega⟩
  | joinFail d eb ed h1 h2 h3 =>
    refine ⟨fun s => ?_, fun s => ?_, by simp; omega, by simp; omega⟩
    · rw [bknown_snoc, h2, ← h.bk]; simp [Pub.Joins, Pub.Leaves]
    · rw [dknown_snoc, h3, ← h.dk]; simp [Rpc.Joins, Rpc.Leaves]
  | join d h1 h2 h3 =>
    refine ⟨fun s => ?_, fun s => ?_, by simp; omega, by simp; omega⟩
    · simp only [bknown_snoc, h2, h.bk]
      have e' : d.sessionId.val = s ↔ s = d.sessionId.val := eq_comm
      by_cases e : s = d.sessionId.val <;> simp [Pub.Joins, Pub.Leaves, e, e']
    · simp only [dknown_snoc, h3, h.dk]
      have e' : d.sessionId.val = s ↔ s = d.sessionId.val := eq_comm
      by_cases e : s = d.sessionId.val <;> simp [Rpc.Joins, Rpc.Leaves, e, e']
  | leaveFail s eb ed h1 h2 h3 =>
    refine ⟨fun s => ?_, fun s => ?_, by simp; omega, by simp; omega⟩
    · rw [bknown_snoc, h2, ← h.bk]; simp [Pub.Joins, Pub.Leaves]
    · rw [dknown_snoc, h3, ← h.dk]; simp [Rpc.Joins, Rpc.Leaves]
  | leave s k h1 h2 h3 =>
    refine ⟨fun s' => ?_, fun s' => ?_, by simp; omega, by simp; omega⟩
    · simp only [bknown_snoc, h2, h.bk]
      have e' : s = s' ↔ s' = s := eq_comm
      by_cases e : s' = s <;> simp [Pub.Joins, Pub.Leaves, e, e']
    · simp only [dknown_snoc, h3, h.dk]
      have e' : s = s' ↔ s' = s := eq_comm
      by_cases e : s' = s <;> simp [Rpc.Joins, Rpc.Leaves, e, e']
  | send s m k h1 =>
    refine ⟨fun s' => ?_, fun s' => ?_, by simp; omega, by simp; omega⟩
    · rw [h.bk]; by_cases e : s' = s <;> simp [e, h1]
    · rw [h.dk]; by_cases e : s' = s <;> simp [e, h1]
  | deliver s m k rest h1 =>
    refine ⟨fun s' => ?_, fun s' => ?_, by simp; omega, by simp; omega⟩
    · rw [h.bk]; by_cases e : s' = s <;> simp [e, h1]
    · rw [h.dk]; by_cases e : s' = s <;> simp [e, h1]
  | routeB s m k rest op h1 h2 h3 =>
    refine ⟨fun s' => ?_, fun s' => ?_, by simp; omega, by simp; omega⟩
    · rw [bknown_message _ (brokerCall_op h3).1 (brokerCall_op h3).2, h.bk]; by_cases e : s' = s <;> simp [e, h1]
    · rw [h.dk]; by_cases e : s' = s <;> simp [e, h1]
  | routeD s m k rest op h1 h2 h3 =>
    refine ⟨fun s' => ?_, fun s' => ?_, by simp; omega, by simp; omega⟩
    · rw [h.bk]; by_cases e : s' = s <;> simp [e, h1]
    · rw [dknown_message _ (dealerCall_op h3).1 (dealerCall_op h3).2, h.dk]; by_cases e : s' = s <;> simp [e, h1]
  | routeX s m k rest h1 =>
    refine ⟨fun s' => ?_, fun s' => ?_, by simp; omega, by simp; omega⟩
    · rw [h.bk]; by_cases e : s' = s <;> simp [e, h1]
    · rw [h.dk]; by_cases e : s' = s <;> simp [e, h1]

theorem base_run (sched : List Act) : sched.length ≤ 2 ^ 53 → Base (run c sched) sched.length := by
  induction sched using snoc_induction with
  | nil =>
    intro _
    refine ⟨fun s => ?_, fun s => ?_, Nat.le_refl _, Nat.le_refl _⟩
    · simp [run, Broker.trace, Broker.runFrom, Pub.view]
    · simp [run, Dealer.trace, Dealer.runFrom, Rpc.view]
  | snoc sched a ih =>
    intro h
    rw [List.length_append] at h ⊢
    rw [run_snoc]
    have h1 : sched.length + 1 ≤ 2 ^ 53 := h
    exact base_step c (ih (by omega)) (by omega) a

/-! ## What the router sends -/

/-- Every message the dealer sends is about registrations or calls. -/
theorem dealerOut_isRpc (ops : List Dealer.Op) (op : Dealer.Op) : ∀ x ∈ dealerOut (Dealer.outcome ops op), isRpc x.2 = true := by
  have hk := Dealer.kind (Dealer.after ops) (Dealer.wf_after ops) op
  rw [Dealer.outcome]
  generalize (Dealer.after ops).step op = res at hk
  cases hk <;> simp [dealerOut, isRpc, Call.TYPE, Register.TYPE, PyInt.val]

/-- Every message the broker sends is about subscriptions or publications. -/
theorem brokerOut_isPub (ops : List Broker.Op) (op : Broker.Op) : ∀ x ∈ brokerOut (Broker.outcome ops op), isPub x.2 = true := by
  intro x hx
  cases op with
  | addSession d =>
    simp only [Broker.outcome, Broker.step] at hx
    generalize ((Broker.after ops).addSession d).2 = r at hx
    cases r <;> simp [Except.map, brokerOut] at hx
  | removeSession d =>
    simp only [Broker.outcome, Broker.step] at hx
    generalize ((Broker.after ops).removeSession d).2 = r at hx
    cases r <;> simp [Except.map, brokerOut] at hx
  | hasSubscription t => simp [Broker.outcome, Broker.step, brokerOut] at hx
  | receivePublish s m =>
    simp only [Broker.outcome, Broker.step, Broker.receivePublish] at hx
    split at hx
    · simp only [Except.map, brokerOut, eventsOf, ackOf, List.mem_append] at hx
      rcases hx with hx | hx
      · split at hx
        · obtain ⟨q, -, rfl⟩ := List.mem_map.1 hx; rfl
        · cases hx
      · by_cases hf : PyDict.flag m.options "acknowledge" = true
        · simp only [hf, if_true, List.mem_singleton] at hx; rw [hx]; rfl
        · simp only [hf] at hx
          split at hx
          · rename_i r hr
            split at hr
            · rename_i h; cases h
            · cases h : (Broker.after ops).subscriptionsByTopic.get m.topic <;> rw [h] at hr <;> cases hr
          · cases hx
    · simp [Except.map, brokerOut] at hx
  | receiveMessage s m =>
    cases m <;> try (simp [Broker.outcome, Broker.step, Broker.receiveMessage, Except.map, brokerOut] at hx; done)
    case subscribe m =>
      cases hs : (Broker.after ops).subscriptionsBySession.get s with
      | none => simp [Broker.outcome, Broker.step, Broker.receiveMessage, Broker.receiveSubscribe, hs, Except.map, brokerOut] at hx
      | some d =>
        rw [Broker.outcome, Broker.subscribe_reply _ s m d hs] at hx
        simp only [brokerOut, List.mem_singleton] at hx; rw [hx]; rfl
    case unsubscribe m =>
      simp only [Broker.outcome, Broker.step, Broker.receiveMessage, Broker.receiveUnsubscribe] at hx
      split at hx
      · simp [Except.map, brokerOut] at hx
      · split at hx
        · simp [Except.map, brokerOut] at hx
        · split at hx
          · split at hx
            · simp [Except.map, brokerOut] at hx
            · simp only [Except.map, brokerOut, List.mem_singleton] at hx; rw [hx]; rfl
          · simp [Except.map, brokerOut] at hx

theorem isRpc_effects {m : Message} (h : isRpc m = true) : subEff m = .skip ∧ ∀ k i, replyTo m = some (k, i) → pubSub k = false := by
  cases m <;> simp only [isRpc, Bool.false_eq_true] at h <;>
    refine ⟨rfl, ?_⟩ <;> intro k i e <;> simp only [replyTo, reduceCtorEq, Option.some.injEq, Prod.mk.injEq] at e
  case error m =>
    simp only [Bool.or_eq_true, decide_eq_true_eq] at h
    rcases h with h | h <;> simp [kindOfCode, h] at e <;> rw [← e.1] <;> rfl
  all_goals (rw [← e.1]; rfl)

theorem isPub_effects {m : Message} (h : isPub m = true) : regEff m = .skip ∧ ∀ k i, replyTo m = some (k, i) → rpc k = false := by
  cases m <;> simp only [isPub, Bool.false_eq_true] at h <;>
    refine ⟨rfl, ?_⟩ <;> intro k i e <;> simp only [replyTo, reduceCtorEq, Option.some.injEq, Prod.mk.injEq] at e
  all_goals (rw [← e.1]; rfl)

end Wamp.Spec.Net
