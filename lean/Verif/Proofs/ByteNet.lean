import Verif.Spec.ByteNet
import Verif.Props.BrokerTable
import Verif.Props.DealerTable
import Verif.Props.Handshake
import Verif.Proofs.NetBase

/-! # Helper lemmas about the network on bytes -/

namespace Wamp.Spec.Net
open Wamp.Spec.Ses

/-! ## What a receiver sees -/

theorem seenArgs_seenArgs (a : Option (List Value)) (k : Option PyDict) : seenArgs (seenArgs a k) k = seenArgs a k := by
  cases a <;> cases k <;> rfl

theorem received_received (m : Message) : received (received m) = received m := by
  cases m <;> simp only [received, seen, seenArgs_seenArgs] <;> rfl

theorem payloadTail_seenArgs (a : Option (List Value)) (k : Option PyDict) : payloadTail (seenArgs a k) k = payloadTail a k := by
  cases a <;> cases k <;> rfl

theorem marshal_received (m : Message) : (received m).marshal = m.marshal := by
  cases m <;> simp only [received, seen, Message.marshal, payloadTail_seenArgs] <;> rfl

theorem valid_received (m : Message) : Valid (received m) ↔ Valid m := by
  cases m <;> rfl

theorem requestOf_received (m : Message) : requestOf (received m) = requestOf m := by
  cases m <;> rfl

/-- A message as it arrives: valid, in the form receivers see, made of data. -/
structure Good (D : Value → Prop) (m : Message) : Prop where
  valid : Valid m
  same : received m = m
  data : D (.list m.marshal)

theorem good_received {D : Value → Prop} {m : Message} (h : Valid m ∧ D (.list m.marshal)) : Good D (received m) :=
  ⟨(valid_received m).2 h.1, received_received m, by rw [marshal_received]; exact h.2⟩

variable {W : Type}

theorem Good.carried {D : Value → Prop} {c : Codec W} (hc : Restores c D) {m : Message} (h : Good D m) :
    ∃ w, c.serialize m = .ok w ∧ c.deserialize w = .ok m := Wamp.carried (hc _ h.data) h.valid h.same

/-- Sending a valid message, in any form. -/
theorem sent_carried {D : Value → Prop} {c : Codec W} (hc : Restores c D) {m : Message} (h : Valid m ∧ D (.list m.marshal)) :
    ∃ w, c.serialize m = .ok w ∧ c.deserialize w = .ok (received m) := by
  obtain ⟨w, h1, h2⟩ := hc _ h.2
  exact ⟨w, h1, C10_serializer_received c m h.1 (fun w' h' => by rw [h1] at h'; cases h'; exact h2) w h1⟩

/-! ## The session -/

theorem serialize_objects (m : Message) : objects.serialize m = .ok (.list m.marshal) := rfl

theorem send_rel {c : Codec W} {m : Message} {w : W} (h : c.serialize m = .ok w) (s : WAMPSession) :
    (s.sendMessage c m).1 = (s.sendMessage objects (received m)).1 ∧
    ((s.sendMessage c m).2 = .ok w ∧ (∃ v, (s.sendMessage objects (received m)).2 = .ok v) ∨
     (∃ e, (s.sendMessage c m).2 = .error e) ∧ ∃ e, (s.sendMessage objects (received m)).2 = .error e) := by
  cases m <;> simp only [WAMPSession.sendMessage, received, seen, serialize_objects, h]
  case yield_ m =>
    by_cases h' : m.requestId.val ∈ s.invocationRequests
    · simp only [if_pos h']; exact ⟨trivial, .inl ⟨trivial, _, rfl⟩⟩
    · simp only [if_neg h']; exact ⟨trivial, .inr ⟨⟨_, rfl⟩, _, rfl⟩⟩
  case error m =>
    by_cases h' : m.messageType.val ≠ Invocation.TYPE
    · simp only [if_pos h']; exact ⟨trivial, .inr ⟨⟨_, rfl⟩, _, rfl⟩⟩
    · simp only [if_neg h']; exact ⟨trivial, .inl ⟨trivial, _, rfl⟩⟩
  case publish m =>
    by_cases h' : PyDict.flag m.options "acknowledge" = true
    · simp only [if_pos h']; exact ⟨trivial, .inl ⟨trivial, _, rfl⟩⟩
    · simp only [if_neg h']; exact ⟨trivial, .inl ⟨trivial, _, rfl⟩⟩
  all_goals first
    | exact ⟨trivial, .inl ⟨trivial, _, rfl⟩⟩
    | exact ⟨rfl, .inl ⟨rfl, _, rfl⟩⟩
    | exact ⟨trivial, .inr ⟨⟨_, rfl⟩, _, rfl⟩⟩
    | exact ⟨rfl, .inr ⟨⟨_, rfl⟩, _, rfl⟩⟩

/-! ## The router's answers are good -/

section
variable {D : Value → Prop} (hD : DataSet D)
include hD

theorem data_id {n : PyInt} (h : IdOk n) : D n.toValue := by
  cases n with
  | int n => exact hD.int n (by have := h.1; simp only [PyInt.val] at this; omega) h.2
  | bool b =>
    cases b with
    | true => exact hD.true_
    | false => exact absurd h.1 (by decide)

theorem data_nil : D (.dict []) := hD.dict [] (by simp) (by simp) (by intro kv h; cases h)

theorem data_code {n : Int} (h : 0 ≤ n ∧ n ≤ 100) : D (.int n) := hD.int n h.1 (by omega)

/-- Every element is in the set. -/
def All (D : Value → Prop) (l : List Value) : Prop := ∀ v ∈ l, D v

omit hD in
theorem all_append {a b : List Value} : All D (a ++ b) ↔ All D a ∧ All D b := by
  simp only [All, List.mem_append]
  exact ⟨fun h => ⟨fun v hv => h v (.inl hv), fun v hv => h v (.inr hv)⟩, fun h v hv => hv.elim (h.1 v) (h.2 v)⟩

omit hD in
theorem all_cons {a : Value} {b : List Value} : All D (a :: b) ↔ D a ∧ All D b := by
  simp [All]

omit hD in
theorem all_nil : All D [] := by simp [All]

omit hD in
theorem payloadTail_short (a : Option (List Value)) (k : Option PyDict) : (payloadTail a k).length ≤ 2 := by
  cases a <;> cases k <;> simp [payloadTail]

omit hD in
theorem marshal_short (m : Message) : m.marshal.length ≤ 8 := by
  have := payloadTail_short
  cases m <;> simp only [Message.marshal, List.length_append, List.length_cons, List.length_nil]
  all_goals first
    | omega
    | exact Nat.le_trans (Nat.add_le_add_left (this _ _) _) (by omega)

theorem data_marshal (m : Message) : D (.list m.marshal) ↔ All D m.marshal :=
  ⟨hD.elem _, hD.list _ (marshal_short m)⟩

/-- What the broker is asked. -/
def GoodB (D : Value → Prop) : Broker.Op → Prop
  | .receiveMessage _ m => Good D m
  | .receivePublish _ m => Good D (.publish m)
  | _ => True

/-- What the dealer is asked. -/
def GoodD (D : Value → Prop) : Dealer.Op → Prop
  | .receiveMessage _ m => Good D m
  | _ => True

omit hD in
theorem bheld_range (ops : List Broker.Op) (hl : ops.length ≤ 2 ^ 53) (x : Pub.Holding)
    (hx : x ∈ (Pub.view (Broker.trace ops)).held) : IdOk (.int x.id) := by
  have hd : (Pub.view (Broker.trace ops)).drawn ≤ 2 ^ 53 := Nat.le_trans (Broker.drawn_le_length ops) hl
  obtain ⟨hn, hf⟩ := Broker.fresh_after ops hd
  obtain ⟨r, d, h1, h2, -⟩ := (Broker.rel_after ops hn).ids x hx
  have := hf.sub _ (hf.live _ _ h1)
  rw [h2] at this
  exact ⟨this.1, by show x.id ≤ 2 ^ 53; omega⟩

theorem brokerOut_good (ops : List Broker.Op) (hl : ops.length < 2 ^ 53) (op : Broker.Op) (hop : GoodB D op) :
    ∀ x ∈ brokerOut (Broker.outcome ops op), Good D x.2 := by
  have ht := (Broker.table_step ops hl op).1
  have hd : (Pub.view (Broker.trace ops)).drawn < 2 ^ 53 := Nat.lt_of_le_of_lt (Broker.drawn_le_length ops) hl
  have hnext : IdOk (.int ((Pub.view (Broker.trace ops)).drawn + 1)) := by
    constructor <;> simp only [PyInt.val] <;> omega
  cases ho : Broker.outcome ops op with
  | error e => intro x hx; simp [brokerOut] at hx
  | ok out =>
    rw [ho] at ht
    simp only [Except.toOption] at ht
    cases op with
    | addSession d => 
      simp only [Pub.Table.step] at ht
      split at ht <;> cases ht; intro x hx; simp [brokerOut] at hx
    | removeSession s =>
      simp only [Pub.Table.step] at ht
      split at ht <;> cases ht; intro x hx; simp [brokerOut] at hx
    | hasSubscription t =>
      simp only [Pub.Table.step] at ht
      cases ht; intro x hx; simp [brokerOut] at hx
    | receivePublish s m =>
      obtain ⟨h1, h2, h3⟩ := hop
      simp only [Pub.Table.step] at ht
      split at ht <;> cases ht
      intro x hx
      simp only [brokerOut, List.mem_append, eventsOf, ackOf] at hx
      rcases hx with hx | hx
      · split at hx
        · rename_i ev hev
          simp only [List.mem_map] at hx
          obtain ⟨r, -, rfl⟩ := hx
          simp only [Option.map_eq_some_iff] at hev
          obtain ⟨y, hy, rfl⟩ := hev
          have hid := bheld_range ops (Nat.le_of_lt hl) y (List.mem_of_find?_eq_some hy)
          refine ⟨⟨hid, hnext⟩, ?_, ?_⟩
          · simp only [received, seen, Message.publish.injEq, Message.event.injEq] at h2 ⊢
            have e := congrArg Publish.args h2
            simp only at e
            rw [e]
          · rw [data_marshal hD] at h3 ⊢
            simp only [Message.marshal, List.cons_append, List.nil_append, all_cons] at h3 ⊢
            exact ⟨data_code hD (by decide), data_id hD hid, data_id hD hnext, data_nil hD, h3.2.2.2.2⟩
        · cases hx
      · split at hx
        · rename_i r hr
          split at hr <;> cases hr
          rw [List.mem_singleton.1 hx]
          refine ⟨⟨h1, hnext⟩, rfl, ?_⟩
          rw [data_marshal hD]
          simp only [Message.marshal, all_cons]
          exact ⟨data_code hD (by decide), data_id hD h1, data_id hD hnext, all_nil⟩
        · cases hx
    | receiveMessage s m =>
      obtain ⟨h1, h2, h3⟩ := hop
      cases m with
      | subscribe m =>
        simp only [Pub.Table.step] at ht
        split at ht
        · split at ht <;> cases ht
          · intro x hx
            simp only [brokerOut, List.mem_singleton] at hx
            subst hx
            refine ⟨⟨h1, hnext⟩, rfl, ?_⟩
            rw [data_marshal hD]
            simp only [Message.marshal, all_cons]
            exact ⟨data_code hD (by decide), data_id hD h1, data_id hD hnext, all_nil⟩
          · rename_i y hy
            have hid := bheld_range ops (Nat.le_of_lt hl) y (List.mem_of_find?_eq_some hy)
            intro x hx
            simp only [brokerOut, List.mem_singleton] at hx
            subst hx
            refine ⟨⟨h1, hid⟩, rfl, ?_⟩
            rw [data_marshal hD]
            simp only [Message.marshal, all_cons]
            exact ⟨data_code hD (by decide), data_id hD h1, data_id hD hid, all_nil⟩
        · cases ht
      | unsubscribe m =>
        simp only [Pub.Table.step] at ht
        split at ht <;> cases ht
        intro x hx
        simp only [brokerOut, List.mem_singleton] at hx
        subst hx
        refine ⟨h1.1, rfl, ?_⟩
        rw [data_marshal hD]
        simp only [Message.marshal, all_cons]
        exact ⟨data_code hD (by decide), data_id hD h1.1, all_nil⟩
      | _ => cases ht

theorem data_flagged (d : PyDict) : D (.dict (Rpc.flagged d "receive_progress" ++ Rpc.flagged d "progress")) := by
  unfold Rpc.flagged
  apply hD.dict
  · split <;> split <;> simp
  · split <;> split <;> simp
  · intro kv hkv
    rcases List.mem_append.1 hkv with h | h <;> split at h <;> simp at h <;> subst h <;> exact ⟨⟨_, rfl, by decide⟩, hD.true_⟩

omit hD in
/-- Everything pending was asked for with a valid request id. -/
theorem pending_good (ops : List Dealer.Op) (hl : ops.length < 2 ^ 53) (hg : ∀ op ∈ ops, GoodD D op) (x : Rpc.Pending)
    (hx : x ∈ (Rpc.view (Dealer.trace ops)).pending) : IdOk x.request := by
  obtain ⟨pre, e, post, he, ⟨⟨m, i, h1, -, h2, -⟩, -⟩, -⟩ := (Dealer.pending_iff _ x).1 hx
  have hm : e.1 ∈ (Dealer.trace ops).map (·.1) := List.mem_map.2 ⟨e, by simp [he], rfl⟩
  rw [(Dealer.C80_dealer_is_table ops (Nat.le_of_lt hl)).1, h1] at hm
  have := (hg _ hm).valid
  rw [← h2]; exact this

omit hD in
theorem same_args {D : Value → Prop} {a : Option (List Value)} {k : Option PyDict} {l : List Value}
    (h : All D (l ++ payloadTail a k)) : All D (payloadTail a k) := (all_append.1 h).2

omit hD in
theorem data_get {d : PyDict} {key : String} {v : Value} (h : PyDict.get? d key = some v) :
    ∃ kv ∈ d, kv.2 = v := by
  induction d with
  | nil => cases h
  | cons p rest ih =>
    obtain ⟨k, w⟩ := p
    cases k with
    | str k =>
      simp only [PyDict.get?] at h
      split at h
      · cases h; exact ⟨_, List.mem_cons_self, rfl⟩
      · obtain ⟨kv, h1, h2⟩ := ih h
        exact ⟨kv, List.mem_cons_of_mem _ h1, h2⟩
    | _ =>
      obtain ⟨kv, h1, h2⟩ := ih h
      exact ⟨kv, List.mem_cons_of_mem _ h1, h2⟩

theorem dealerOut_good (ops : List Dealer.Op) (hl : ops.length < 2 ^ 53) (hg : ∀ op ∈ ops, GoodD D op) (op : Dealer.Op)
    (hop : GoodD D op) : ∀ x ∈ dealerOut (Dealer.outcome ops op), Good D x.2 := by
  have hd := Dealer.C30_ids_not_exhausted ops hl
  obtain ⟨hr, hc⟩ := Dealer.rel_after ops hd
  have hs := Dealer.sim_after ops (Nat.le_of_lt hl)
  have ht := (Dealer.sim_step (Dealer.wf_after ops) hr hc hd hs op).1
  change Dealer.graded (Dealer.outcome ops op) = _ at ht
  have hp : ∀ x ∈ (Dealer.tableAfter ops).pending, IdOk x.request := by
    rw [hs.pending]; exact pending_good ops hl hg
  have hh : ∀ x ∈ (Dealer.tableAfter ops).held, IdOk (.int x.id) := by
    rw [hs.held]
    intro x hx
    have := hr.ids x hx
    constructor <;> simp only [PyInt.val] <;> omega
  have hm : ∀ s q k, (Dealer.tableAfter ops).mark s q = some k → IdOk (.int k.inv) := by
    intro s q k hk
    have h1 := hs.marks s q
    rw [hk] at h1
    obtain ⟨x, hx, h2, -⟩ := hc.map _ _ h1.symm
    have := hc.range x hx
    rw [h2] at this
    change 1 ≤ k.inv ∧ k.inv ≤ _ at this
    constructor <;> simp only [PyInt.val] <;> omega
  have hn : IdOk (.int (Dealer.tableAfter ops).next) := by
    rw [hs.next]
    constructor <;> simp only [PyInt.val] <;> omega
  generalize Dealer.tableAfter ops = t at ht hp hh hm hn
  cases ho : Dealer.outcome ops op with
  | error e => intro x hx; simp [dealerOut] at hx
  | ok out =>
    rw [ho] at ht
    simp only [Dealer.graded, Option.some.injEq] at ht
    cases op with
    | addSession d =>
      simp only [Rpc.Table.step] at ht
      split at ht <;> cases ht; intro x hx; simp [dealerOut] at hx
    | removeSession s =>
      simp only [Rpc.Table.step] at ht
      split at ht <;> cases ht; intro x hx; simp [dealerOut] at hx
    | hasRegistration p =>
      simp only [Rpc.Table.step] at ht
      cases ht; intro x hx; simp [dealerOut] at hx
    | receiveMessage s m =>
      obtain ⟨h1, h2, h3⟩ := hop
      cases m with
      | register m =>
        simp only [Rpc.Table.step] at ht
        split at ht
        · split at ht <;> cases ht <;> intro x hx <;> simp only [dealerOut, List.mem_singleton] at hx <;> subst hx
          · refine ⟨h1, rfl, ?_⟩
            rw [data_marshal hD]
            simp only [Message.marshal, payloadTail, List.cons_append, List.nil_append, all_cons]
            exact ⟨data_code hD (by decide), data_code hD (by decide), data_id hD h1, data_nil hD, hD.str _ (by decide), all_nil⟩
          · refine ⟨⟨h1, hn⟩, rfl, ?_⟩
            rw [data_marshal hD]
            simp only [Message.marshal, all_cons]
            exact ⟨data_code hD (by decide), data_id hD h1, data_id hD hn, all_nil⟩
        · cases ht
      | unregister m =>
        simp only [Rpc.Table.step] at ht
        split at ht <;> cases ht
        intro x hx; simp only [dealerOut, List.mem_singleton] at hx; subst hx
        refine ⟨h1.1, rfl, ?_⟩
        rw [data_marshal hD]
        simp only [Message.marshal, all_cons]
        exact ⟨data_code hD (by decide), data_id hD h1.1, all_nil⟩
      | call m =>
        have key : ∀ i r q, IdOk (.int i) → IdOk (.int r) → ∀ x ∈ dealerOut (.ok (.reply ⟨Rpc.invocation m i r, q⟩)),
            Good D x.2 := by
          intro i r q hi hr x hx
          simp only [dealerOut, List.mem_singleton] at hx; subst hx
          simp only [received, Message.call.injEq] at h2
          have e1 := congrArg Call.args h2
          have e2 := congrArg Call.payload h2
          have e3 := congrArg Call.serializer h2
          simp only at e1 e2 e3
          refine ⟨⟨hi, hr⟩, ?_, ?_⟩
          · simp only [Rpc.invocation, received, e1, ← e2, ← e3]; rfl
          · rw [data_marshal hD] at h3 ⊢
            simp only [Rpc.invocation, Message.marshal, Invocation.details, ← e3, withSerializer, List.cons_append,
              List.nil_append, all_cons] at h3 ⊢
            exact ⟨data_code hD (by decide), data_id hD hi, data_id hD hr, data_flagged hD _, h3.2.2.2.2⟩
        simp only [Rpc.Table.step] at ht
        split at ht
        · cases ht
          intro x hx; simp only [dealerOut, List.mem_singleton] at hx; subst hx
          refine ⟨h1, rfl, ?_⟩
          rw [data_marshal hD]
          simp only [Message.marshal, payloadTail, List.cons_append, List.nil_append, all_cons]
          exact ⟨data_code hD (by decide), data_code hD (by decide), data_id hD h1, data_nil hD, hD.str _ (by decide), all_nil⟩
        · rename_i y hy
          have hy' := hh y (List.mem_of_find?_eq_some hy)
          split at ht <;> cases ht
          · rename_i k hk
            split at hk
            · exact key _ _ _ (hm _ _ _ hk) hy'
            · cases hk
          · exact key _ _ _ hn hy'
      | yield_ m =>
        simp only [received, Message.yield_.injEq] at h2
        have e1 := congrArg Yield.args h2
        simp only at e1
        have htail : All D (payloadTail m.args m.kwargs) := by
          have h3 := hD.elem _ h3
          simp only [Message.marshal] at h3; exact same_args h3
        simp only [Rpc.Table.step] at ht
        split at ht
        · cases ht
        · rename_i y hy
          have hy' := hp y (List.mem_of_find?_eq_some hy)
          split at ht
          · cases ht
          · split at ht
            · cases ht
              intro x hx; simp only [dealerOut, List.mem_singleton] at hx; subst hx
              refine ⟨hy', ?_, ?_⟩
              · simp only [received, e1]; rfl
              · rw [data_marshal hD]
                simp only [Message.marshal, Result.details, withSerializer, List.cons_append, List.nil_append, all_cons]
                refine ⟨data_code hD (by decide), data_id hD hy', ?_, htail⟩
                apply hD.dict
                · simp
                · simp
                · intro kv hkv
                  rw [List.mem_singleton.1 hkv]
                  refine ⟨⟨_, rfl, by decide⟩, ?_⟩
                  rename_i hf
                  simp only [Bool.and_eq_true, PyDict.flag] at hf
                  split at hf
                  · rename_i v hv
                    obtain ⟨kv, h4, h5⟩ := data_get hv
                    rw [data_marshal hD] at h3
                    simp only [hv, Option.getD_some]
                    simp only [Message.marshal, List.cons_append, all_cons] at h3
                    rw [← h5]
                    exact hD.val _ h3.2.2.1 kv h4
                  · exact absurd hf.1 (by simp)
            · split at ht <;> cases ht
              intro x hx; simp only [dealerOut, List.mem_singleton] at hx; subst hx
              refine ⟨hy', ?_, ?_⟩
              · simp only [received, e1]; rfl
              · rw [data_marshal hD]
                simp only [Message.marshal, Result.details, withSerializer, List.cons_append, List.nil_append, all_cons]
                exact ⟨data_code hD (by decide), data_id hD hy', data_nil hD, htail⟩
      | error m =>
        simp only [received, seen, Message.error.injEq] at h2
        have e1 := congrArg ErrorMsg.args h2
        simp only at e1
        simp only [Rpc.Table.step] at ht
        split at ht
        · cases ht
        · rename_i y hy
          have hy' : IdOk y.request := by
            split at hy
            · exact hp y (List.mem_of_find?_eq_some hy)
            · cases hy
          cases ht
          intro x hx; simp only [dealerOut, List.mem_singleton] at hx; subst hx
          refine ⟨hy', ?_, ?_⟩
          · simp only [received, seen, e1]
          · rw [data_marshal hD] at h3 ⊢
            simp only [Message.marshal, List.cons_append, List.nil_append, all_cons] at h3 ⊢
            exact ⟨data_code hD (by decide), data_code hD (by decide), data_id hD hy', h3.2.2.2⟩
      | _ => cases ht
end

/-! ## The simulation -/

/-- Two clients correspond, their sessions are in the same state, and the messages on their way are good. -/
structure ConnRel (D : Value → Prop) (c : Codec W) (b : BConn W) (k : Conn Value) : Prop where
  cor : Corresponds c b k
  after : WAMPSession.after c b.calls = WAMPSession.after objects k.calls
  up : ∀ m ∈ k.up, Good D m
  down : ∀ m ∈ k.down, Good D m

/-- Both gone, or both there and related. -/
def OptRel (D : Value → Prop) (c : Codec W) : Option (BConn W) → Option (Conn Value) → Prop
  | none, none => True
  | some b, some k => ConnRel D c b k
  | _, _ => False

structure BInv (D : Value → Prop) (cs : Int → Codec W) (b : BNet W) (n : Net Value) (N : Nat) : Prop where
  broker : b.broker = n.broker
  dealer : b.dealer = n.dealer
  bl : n.broker.length ≤ N
  dl : n.dealer.length ≤ N
  gd : ∀ op ∈ n.dealer, GoodD D op
  conn : ∀ s, OptRel D (cs s) (b.conns s) (n.conns s)

theorem ConnRel.empty {D : Value → Prop} {c : Codec W} : ConnRel D c {} {} :=
  ⟨⟨rfl, rfl, rfl⟩, rfl, (by intro m h; cases h), (by intro m h; cases h)⟩

/-- Serializing good messages for a client. -/
theorem push_map {D : Value → Prop} {c : Codec W} (hc : Restores c D) : ∀ l : List Message, (∀ m ∈ l, Good D m) →
    (l.filterMap fun m => (c.serialize m).toOption).map c.deserialize = l.map .ok
  | [], _ => rfl
  | m :: l, h => by
    obtain ⟨w, h1, h2⟩ := (h m List.mem_cons_self).carried hc
    rw [List.filterMap_cons_some (b := w) (by rw [h1]; rfl), List.map_cons, List.map_cons, h2,
      push_map hc l (fun m' h' => h m' (List.mem_cons_of_mem _ h'))]

theorem OptRel.push {D : Value → Prop} {c : Codec W} (hc : Restores c D) {out : List (Int × Message)} (hg : ∀ x ∈ out, Good D x.2)
    (s : Int) {b : Option (BConn W)} {k : Option (Conn Value)} (h : OptRel D c b k) :
    OptRel D c (b.map fun k => { k with down := k.down ++ (inbox out s).filterMap fun m => (c.serialize m).toOption })
      (k.map fun k => { k with down := k.down ++ inbox out s }) := by
  cases b <;> cases k
  · trivial
  · cases h
  · cases h
  · obtain ⟨⟨h1, h2, h3⟩, h4, h5, h6⟩ := h
    have hi : ∀ m ∈ inbox out s, Good D m := fun m hm => hg _ (mem_inbox.1 hm)
    refine ⟨⟨h1, ?_, h3⟩, h4, h5, ?_⟩
    · show List.map _ (_ ++ _) = List.map _ (_ ++ _)
      rw [List.map_append, List.map_append, h2, push_map hc _ hi]
    · intro m hm
      exact (List.mem_append.1 hm).elim (h6 m) (hi m)

/-- The router handles a good message. -/
theorem BInv.handle {D : Value → Prop} (hD : DataSet D) {cs : Int → Codec W} (hc : ∀ s, Restores (cs s) D) {b : BNet W}
    {n : Net Value} {N : Nat} (hN : N < 2 ^ 53) (h : BInv D cs b n N) (s : Int) {m : Message} (hm : Good D m) :
    BInv D cs (b.handle cs s m) (n.handle s m) (N + 1) := by
  obtain ⟨h1, h2, h3, h4, h5, h6⟩ := h
  unfold BNet.handle Net.handle
  cases hb : brokerCall s m with
  | some op =>
    have hop : GoodB D op := by cases m <;> cases hb <;> exact hm
    dsimp only
    rw [h1]
    refine ⟨rfl, h2, ?_, Nat.le_succ_of_le h4, h5, fun s' => (h6 s').push (hc s') ?_ s'⟩
    · show (n.broker ++ [op]).length ≤ _
      rw [List.length_append]; exact Nat.succ_le_succ h3
    · exact brokerOut_good hD _ (Nat.lt_of_le_of_lt h3 hN) _ hop
  | none =>
    cases hd : dealerCall s m with
    | some op =>
      have hop : GoodD D op := by cases m <;> cases hd <;> exact hm
      dsimp only
      rw [h2]
      refine ⟨h1, rfl, Nat.le_succ_of_le h3, ?_, ?_, fun s' => (h6 s').push (hc s') ?_ s'⟩
      · show (n.dealer ++ [op]).length ≤ _
        rw [List.length_append]; exact Nat.succ_le_succ h4
      · intro o ho
        rcases List.mem_append.1 ho with ho | ho
        · exact h5 o ho
        · rw [List.mem_singleton.1 ho]; exact hop
      · exact dealerOut_good hD _ (Nat.lt_of_le_of_lt h4 hN) h5 _ hop
    | none => exact ⟨h1, h2, Nat.le_succ_of_le h3, Nat.le_succ_of_le h4, h5, h6⟩

theorem BInv.setConn {D : Value → Prop} {cs : Int → Codec W} {b : BNet W} {n : Net Value} {N : Nat} (h : BInv D cs b n N)
    (s : Int) {kb : Option (BConn W)} {k : Option (Conn Value)} (hk : OptRel D (cs s) kb k) :
    BInv D cs (b.setConn s kb) (n.setConn s k) N := by
  refine ⟨h.broker, h.dealer, h.bl, h.dl, h.gd, fun s' => ?_⟩
  by_cases e : s' = s
  · subst e; simpa [BNet.setConn, Net.setConn] using hk
  · simpa [BNet.setConn, Net.setConn, e] using h.conn s'

theorem BInv.mono {D : Value → Prop} {cs : Int → Codec W} {b : BNet W} {n : Net Value} {N : Nat} (h : BInv D cs b n N) :
    BInv D cs b n (N + 1) := ⟨h.broker, h.dealer, Nat.le_succ_of_le h.bl, Nat.le_succ_of_le h.dl, h.gd, h.conn⟩

theorem brun_snoc (cs : Int → Codec W) (sched : List Act) (a : Act) : brun cs (sched ++ [a]) = (brun cs sched).step cs a := by
  simp [brun]

theorem ConnRel.send {D : Value → Prop} {c : Codec W} (hc : Restores c D) {kb : BConn W} {k : Conn Value}
    (h : ConnRel D c kb k) {m : Message} (hm : Valid m ∧ D (.list m.marshal)) :
    ConnRel D c
      { kb with
        calls := kb.calls ++ [.sendMessage m]
        up := match WAMPSession.outcome c kb.calls (.sendMessage m) with
          | .ok (.data w) => kb.up ++ [w]
          | _ => kb.up }
      { k with
        calls := k.calls ++ [.sendMessage (received m)]
        up := if returned (WAMPSession.outcome objects k.calls (.sendMessage (received m))) then k.up ++ [received m] else k.up } := by
  obtain ⟨⟨h1, h2, h3⟩, h4, h5, h6⟩ := h
  obtain ⟨w, hw, hw'⟩ := sent_carried hc hm
  have hs := send_rel hw (WAMPSession.after objects k.calls)
  obtain ⟨e1, ⟨e2, v, e3⟩ | ⟨⟨x, e2⟩, y, e3⟩⟩ := hs
  · have o1 : WAMPSession.outcome c kb.calls (.sendMessage m) = .ok (.data w) := by
      simp only [WAMPSession.outcome, WAMPSession.step, h4, e2]; rfl
    have o2 : WAMPSession.outcome objects k.calls (.sendMessage (received m)) = .ok (.data v) := by
      simp only [WAMPSession.outcome, WAMPSession.step, e3]; rfl
    simp only [o1, o2]
    refine ⟨⟨?_, h2, ?_⟩, ?_, ?_, h6⟩
    · show List.map _ (_ ++ _) = List.map _ (_ ++ _)
      rw [List.map_append, List.map_append, h1, List.map_singleton, List.map_singleton, hw']
    · rw [WAMPSession.trace_snoc, WAMPSession.trace_snoc, List.map_append, List.map_append, h3, o1, o2]; rfl
    · rw [after_send, after_send, h4, e1]
    · intro m' hm'
      rcases List.mem_append.1 hm' with hm' | hm'
      · exact h5 m' hm'
      · rw [List.mem_singleton.1 hm']; exact good_received hm
  · have o1 : WAMPSession.outcome c kb.calls (.sendMessage m) = .error x := by
      simp only [WAMPSession.outcome, WAMPSession.step, h4, e2]; rfl
    have o2 : WAMPSession.outcome objects k.calls (.sendMessage (received m)) = .error y := by
      simp only [WAMPSession.outcome, WAMPSession.step, e3]; rfl
    simp only [o1, o2]
    refine ⟨⟨h1, h2, ?_⟩, ?_, h5, h6⟩
    · rw [WAMPSession.trace_snoc, WAMPSession.trace_snoc, List.map_append, List.map_append, h3, o1, o2]; rfl
    · rw [after_send, after_send, h4, e1]

theorem ConnRel.deliver {D : Value → Prop} {c : Codec W} {kb : BConn W} {k : Conn Value} (h : ConnRel D c kb k) {w : W}
    {ws : List W} {m : Message} {ms : List Message} (hw : kb.down = w :: ws) (hm : k.down = m :: ms) :
    ConnRel D c { kb with calls := kb.calls ++ [.receive w], down := ws }
      { k with calls := k.calls ++ [.receiveMessage m], down := ms } := by
  obtain ⟨⟨h1, h2, h3⟩, h4, h5, h6⟩ := h
  rw [hw, hm, List.map_cons, List.map_cons, List.cons.injEq] at h2
  have ea : WAMPSession.after c (kb.calls ++ [.receive w]) = WAMPSession.after objects (k.calls ++ [.receiveMessage m]) := by
    rw [after_recv, WAMPSession.after_snoc, ← h4]
    simp only [WAMPSession.step, WAMPSession.receive, h2.1]
  have eo : appSees (.receive w, WAMPSession.outcome c kb.calls (.receive w)) =
      appSees (.receiveMessage m, WAMPSession.outcome objects k.calls (.receiveMessage m)) := by
    simp only [WAMPSession.outcome, WAMPSession.step, WAMPSession.receive, h2.1, h4]
    cases ((WAMPSession.after objects k.calls).receiveMessage m).2 <;> rfl
  refine ⟨⟨h1, h2.2, ?_⟩, ea, h5, fun m' h' => h6 m' (by rw [hm]; exact List.mem_cons_of_mem _ h')⟩
  rw [WAMPSession.trace_snoc, WAMPSession.trace_snoc, List.map_append, List.map_append, h3, List.map_singleton,
    List.map_singleton, eo]

theorem binv_run {D : Value → Prop} (hD : DataSet D) {cs : Int → Codec W} (hc : ∀ s, Restores (cs s) D) (sched : List Act)
    (hs : SendsData D sched) (hl : sched.length ≤ 2 ^ 53) :
    BInv D cs (brun cs sched) (run objects (sched.map arriving)) sched.length := by
  induction sched using snoc_induction with
  | nil => exact ⟨rfl, rfl, Nat.zero_le _, Nat.zero_le _, (by intro o h; cases h), fun s => trivial⟩
  | snoc sched a ih =>
    have hN : sched.length + 1 ≤ 2 ^ 53 := by rw [List.length_append] at hl; exact hl
    have hi := ih (fun s m h => hs s m (List.mem_append_left _ h)) (Nat.le_of_lt hN)
    rw [brun_snoc, List.map_append, List.map_singleton, run_snoc, List.length_append]
    show BInv D cs _ _ (sched.length + 1)
    generalize brun cs sched = b at hi ⊢
    generalize run objects (sched.map arriving) = n at hi ⊢
    cases a with
    | join d =>
      have key : BInv D cs { b with broker := b.broker ++ [.addSession d], dealer := b.dealer ++ [.addSession d] }
          { n with broker := n.broker ++ [.addSession d], dealer := n.dealer ++ [.addSession d] } (sched.length + 1) := by
        refine ⟨by rw [hi.broker], by rw [hi.dealer], ?_, ?_, ?_, hi.conn⟩
        · show List.length (_ ++ _) ≤ _
          rw [List.length_append]; exact Nat.succ_le_succ hi.bl
        · show List.length (_ ++ _) ≤ _
          rw [List.length_append]; exact Nat.succ_le_succ hi.dl
        · intro o ho
          rcases List.mem_append.1 ho with ho | ho
          · exact hi.gd o ho
          · rw [List.mem_singleton.1 ho]; trivial
      simp only [BNet.step, Net.step, arriving, hi.broker, hi.dealer]
      rw [hi.broker, hi.dealer] at key
      split
      · exact key.setConn _ ConnRel.empty
      · exact key
    | leave s =>
      have key : BInv D cs { b with broker := b.broker ++ [.removeSession s], dealer := b.dealer ++ [.removeSession s] }
          { n with broker := n.broker ++ [.removeSession s], dealer := n.dealer ++ [.removeSession s] } (sched.length + 1) := by
        refine ⟨by rw [hi.broker], by rw [hi.dealer], ?_, ?_, ?_, hi.conn⟩
        · show List.length (_ ++ _) ≤ _
          rw [List.length_append]; exact Nat.succ_le_succ hi.bl
        · show List.length (_ ++ _) ≤ _
          rw [List.length_append]; exact Nat.succ_le_succ hi.dl
        · intro o ho
          rcases List.mem_append.1 ho with ho | ho
          · exact hi.gd o ho
          · rw [List.mem_singleton.1 ho]; trivial
      exact key.setConn _ trivial
    | send s m =>
      have hm := hs s m (List.mem_append_right _ (List.mem_singleton.2 rfl))
      have hk := hi.conn s
      simp only [BNet.step, Net.step, arriving]
      cases hb : b.conns s <;> cases hn : n.conns s <;> rw [hb, hn] at hk
      · exact hi.mono
      · cases hk
      · cases hk
      · exact hi.mono.setConn s (ConnRel.send (hc s) hk hm)
    | route s =>
      have hk := hi.conn s
      simp only [BNet.step, Net.step, arriving]
      cases hb : b.conns s <;> cases hn : n.conns s <;> rw [hb, hn] at hk
      · exact hi.mono
      · cases hk
      · cases hk
      · rename_i kb k
        obtain ⟨⟨h1, h2, h3⟩, h4, h5, h6⟩ := hk
        dsimp only
        cases hu : kb.up <;> cases hv : k.up <;> rw [hu, hv] at h1
        · exact hi.mono
        · cases h1
        · cases h1
        · rename_i w ws m ms
          rw [List.map_cons, List.map_cons, List.cons.injEq] at h1
          simp only [h1.1]
          rw [hv] at h5
          exact (hi.setConn s (kb := some { kb with up := ws }) (k := some { k with up := ms })
            ⟨⟨h1.2, h2, h3⟩, h4, fun m' h' => h5 m' (List.mem_cons_of_mem _ h'), h6⟩).handle hD hc hN s (h5 m List.mem_cons_self)
    | deliver s =>
      have hk := hi.conn s
      simp only [BNet.step, Net.step, arriving]
      cases hb : b.conns s <;> cases hn : n.conns s <;> rw [hb, hn] at hk
      · exact hi.mono
      · cases hk
      · cases hk
      · rename_i kb k
        dsimp only
        have h2 := hk.cor.down
        cases hu : kb.down <;> cases hv : k.down <;> rw [hu, hv] at h2
        · exact hi.mono
        · cases h2
        · cases h2
        · exact hi.mono.setConn s (hk.deliver hu hv)

end Wamp.Spec.Net
