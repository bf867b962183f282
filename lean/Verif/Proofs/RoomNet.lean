import Verif.Proofs.Room
import Verif.Proofs.ByteNet
import Verif.Props.Stack

/-! # Helper lemmas: what the router may add -/

set_option linter.unusedSimpArgs false

namespace Wamp.Spec.Room
open Net

theorem roomList_append (a b : List Value) : roomList (a ++ b) = roomList a + roomList b := by
  induction a with
  | nil => simp [roomList]
  | cons v l ih => rw [List.cons_append, roomList, roomList, ih]; omega

theorem room_id (n : PyInt) : room n.toValue ≤ 20 := by
  cases n <;> simp [PyInt.toValue, room]

theorem str_room {s : String} {n : Nat} (h : s.utf8ByteSize = n) : room (.str s) = 9 + 6 * n := by rw [room, h]

theorem room_mem {kv : Value × Value} : ∀ {d : PyDict}, kv ∈ d → room kv.2 ≤ roomDict d
  | (k, w) :: d, h => by
    rw [roomDict]
    rcases List.mem_cons.1 h with rfl | h
    · dsimp only; omega
    · have := room_mem h; omega

theorem room_get {d : PyDict} {key : String} {v : Value} (h : PyDict.get? d key = some v) : room v ≤ roomDict d := by
  obtain ⟨kv, h1, rfl⟩ := data_get h
  exact room_mem h1

theorem room_flagged (d : PyDict) : roomDict (Rpc.flagged d "receive_progress" ++ Rpc.flagged d "progress") ≤ 180 := by
  have e1 : "receive_progress".utf8ByteSize = 16 := by decide
  have e2 : "progress".utf8ByteSize = 8 := by decide
  unfold Rpc.flagged
  split <;> split <;> simp only [List.nil_append, List.append_nil, List.cons_append, roomDict, room, e1, e2] <;> omega

theorem broker_room (ops : List Broker.Op) (hl : ops.length < 2 ^ 53) (s : Int) (m : Message) (op : Broker.Op)
    (hop : brokerCall s m = some op) : ∀ x ∈ brokerOut (Broker.outcome ops op), roomOf x.2 ≤ roomOf m + routerAdds := by
  have ht := (Broker.table_step ops hl op).1
  have hid := room_id
  cases ho : Broker.outcome ops op with
  | error e => intro x hx; simp [brokerOut] at hx
  | ok out =>
    rw [ho] at ht
    simp only [Except.toOption] at ht
    cases m <;> simp only [brokerCall, Option.some.injEq, reduceCtorEq] at hop <;> subst hop
    case publish m =>
      simp only [Pub.Table.step] at ht
      split at ht <;> cases ht
      intro x hx
      simp only [brokerOut, List.mem_append, eventsOf, ackOf] at hx
      rcases hx with hx | hx
      · split at hx
        · rename_i ev hev
          simp only [List.mem_map] at hx
          obtain ⟨r, -, rfl⟩ := hx
          simp only [Option.map_eq_some_iff] at hev
          obtain ⟨y, hy, rfl⟩ := hev
          simp only [roomOf, routerAdds, Message.marshal, room, roomList, roomDict, roomList_append, List.cons_append, List.nil_append,
            PyInt.toValue]
          omega
        · cases hx
      · split at hx
        · rename_i r hr
          split at hr <;> cases hr
          rw [List.mem_singleton.1 hx]
          have := hid m.requestId
          simp only [roomOf, routerAdds, Message.marshal, room, roomList, roomDict, roomList_append, List.cons_append, List.nil_append,
            PyInt.toValue]
          omega
        · cases hx
    case subscribe m =>
      have := hid m.requestId
      simp only [Pub.Table.step] at ht
      split at ht
      · split at ht <;> cases ht <;>
        · intro x hx
          simp only [brokerOut, List.mem_singleton] at hx
          subst hx
          simp only [roomOf, routerAdds, Message.marshal, room, roomList, roomDict, roomList_append, List.cons_append, List.nil_append]
          simp only [PyInt.toValue, room] at this ⊢
          omega
      · cases ht
    case unsubscribe m =>
      have := hid m.requestId
      simp only [Pub.Table.step] at ht
      split at ht <;> cases ht
      intro x hx
      simp only [brokerOut, List.mem_singleton] at hx
      subst hx
      simp only [roomOf, routerAdds, Message.marshal, room, roomList, roomDict, roomList_append, List.cons_append, List.nil_append]
      omega

theorem dealer_room (ops : List Dealer.Op) (hl : ops.length < 2 ^ 53) (s : Int) (m : Message) (op : Dealer.Op)
    (hm : received m = m) (hop : dealerCall s m = some op) :
    ∀ x ∈ dealerOut (Dealer.outcome ops op), roomOf x.2 ≤ roomOf m + routerAdds := by
  have hd := Dealer.C30_ids_not_exhausted ops hl
  obtain ⟨hr, hc⟩ := Dealer.rel_after ops hd
  have hs := Dealer.sim_after ops (Nat.le_of_lt hl)
  have ht := (Dealer.sim_step (Dealer.wf_after ops) hr hc hd hs op).1
  change Dealer.graded (Dealer.outcome ops op) = _ at ht
  generalize Dealer.tableAfter ops = t at ht
  have hid := room_id
  have e1 : "wamp.error.procedure_already_exists".utf8ByteSize = 35 := by decide
  have e2 : "wamp.error.no_such_procedure".utf8ByteSize = 28 := by decide
  have e3 : "progress".utf8ByteSize = 8 := by decide
  cases ho : Dealer.outcome ops op with
  | error e => intro x hx; simp [dealerOut] at hx
  | ok out =>
    rw [ho] at ht
    simp only [Dealer.graded, Option.some.injEq] at ht
    cases m <;> simp only [dealerCall, Option.some.injEq, reduceCtorEq] at hop <;> subst hop
    case register m =>
      have := hid m.requestId
      simp only [Rpc.Table.step] at ht
      split at ht
      · split at ht <;> cases ht <;>
        · intro x hx
          simp only [dealerOut, List.mem_singleton] at hx
          subst hx
          simp only [roomOf, routerAdds, Message.marshal, payloadTail, room, roomList, roomDict, roomList_append, List.cons_append,
            List.nil_append, e1, PyInt.toValue]
          omega
      · cases ht
    case unregister m =>
      have := hid m.requestId
      simp only [Rpc.Table.step] at ht
      split at ht <;> cases ht
      intro x hx; simp only [dealerOut, List.mem_singleton] at hx; subst hx
      simp only [roomOf, routerAdds, Message.marshal, room, roomList, roomDict, roomList_append, List.cons_append, List.nil_append]
      omega
    case call m =>
      have h0 := hid m.requestId
      have key : ∀ i r q, ∀ x ∈ dealerOut (.ok (.reply ⟨Rpc.invocation m i r, q⟩)), roomOf x.2 ≤ roomOf (.call m) + routerAdds := by
        intro i r q x hx
        simp only [dealerOut, List.mem_singleton] at hx; subst hx
        simp only [received, Message.call.injEq] at hm
        have e3 := congrArg Call.serializer hm
        simp only at e3
        have := room_flagged m.options
        simp only [Rpc.invocation, roomOf, routerAdds, Message.marshal, Invocation.details, ← e3, withSerializer, room, roomList,
          roomList_append, List.cons_append, List.nil_append, PyInt.toValue]
        omega
      simp only [Rpc.Table.step] at ht
      split at ht
      · cases ht
        intro x hx; simp only [dealerOut, List.mem_singleton] at hx; subst hx
        simp only [roomOf, routerAdds, Message.marshal, payloadTail, room, roomList, roomDict, roomList_append, List.cons_append,
          List.nil_append, e2, PyInt.toValue]
        omega
      · split at ht <;> cases ht <;> exact key _ _ _
    case yield_ m =>
      simp only [Rpc.Table.step] at ht
      split at ht
      · cases ht
      · rename_i y hy
        have := hid y.request
        split at ht
        · cases ht
        · split at ht
          · rename_i hf
            cases ht
            intro x hx; simp only [dealerOut, List.mem_singleton] at hx; subst hx
            have hv : room ((PyDict.get? m.options "progress").getD (.bool false)) ≤ roomDict m.options + 5 := by
              cases hg : PyDict.get? m.options "progress" with
              | none => simp [room]
              | some v => have := room_get hg; simp only [Option.getD_some]; omega
            simp only [received, Message.yield_.injEq] at hm
            have e4 := congrArg Yield.serializer hm
            simp only at e4
            simp only [roomOf, routerAdds, Message.marshal, Result.details, Yield.options, ← e4, withSerializer, room, roomList,
              roomDict, roomList_append, List.cons_append, List.nil_append, e3] at hv ⊢
            omega
          · split at ht <;> cases ht
            intro x hx; simp only [dealerOut, List.mem_singleton] at hx; subst hx
            simp only [roomOf, routerAdds, Message.marshal, Result.details, withSerializer, room, roomList,
              roomDict, roomList_append, List.cons_append, List.nil_append]
            omega
    case error m =>
      simp only [Rpc.Table.step] at ht
      split at ht
      · cases ht
      · rename_i y hy
        have := hid y.request
        cases ht
        intro x hx; simp only [dealerOut, List.mem_singleton] at hx; subst hx
        simp only [roomOf, routerAdds, Message.marshal, room, roomList, roomList_append, List.cons_append, List.nil_append]
        have h2 : room (PyInt.int 48).toValue = 20 := rfl
        omega

/-! ## Everything on its way -/

variable {W : Type}

/-- Data that is a message made of `D`, valid, with at most that much room -/
def Comes (D : Value → Prop) (c : Codec W) (R : Nat) (w : W) : Prop :=
  ∃ m, c.serialize m = .ok w ∧ Valid m ∧ D (.list m.marshal) ∧ roomOf m ≤ R

/-- All of a client's data is. -/
def Fine (D : Value → Prop) (cs : Int → Codec W) (R : Nat) (b : BNet W) : Prop :=
  ∀ s k, b.conns s = some k → (∀ w ∈ k.up, Comes D (cs s) R w) ∧ ∀ w ∈ k.down, Comes D (cs s) (R + routerAdds) w

theorem Fine.set {D : Value → Prop} {cs : Int → Codec W} {R : Nat} {b : BNet W} (h : Fine D cs R b) (s : Int) (k : Option (BConn W))
    (hk : ∀ k', k = some k' → (∀ w ∈ k'.up, Comes D (cs s) R w) ∧ ∀ w ∈ k'.down, Comes D (cs s) (R + routerAdds) w) :
    Fine D cs R (b.setConn s k) := by
  intro s' k' h'
  simp only [BNet.setConn] at h'
  split at h'
  · rename_i e; subst e; exact hk k' h'
  · exact h s' k' h'

theorem Fine.push {D : Value → Prop} {cs : Int → Codec W} {R : Nat} {b : BNet W} (h : Fine D cs R b) (out : List (Int × Message))
    (ho : ∀ x ∈ out, Good D x.2 ∧ roomOf x.2 ≤ R + routerAdds) : Fine D cs R (b.push cs out) := by
  intro s k hk
  simp only [BNet.push, Option.map_eq_some_iff] at hk
  obtain ⟨k', h', rfl⟩ := hk
  refine ⟨(h s k' h').1, fun w hw => ?_⟩
  rcases List.mem_append.1 hw with hw | hw
  · exact (h s k' h').2 w hw
  · obtain ⟨m, hm, hw⟩ := List.mem_filterMap.1 hw
    simp only [inbox, List.mem_map, List.mem_filter] at hm
    obtain ⟨x, ⟨hx, -⟩, rfl⟩ := hm
    refine ⟨x.2, ?_, (ho x hx).1.valid, (ho x hx).1.data, (ho x hx).2⟩
    cases e : (cs s).serialize x.2 with
    | error _ => rw [e] at hw; cases hw
    | ok w' => rw [e] at hw; cases hw; rfl

theorem roomOf_received (m : Message) : roomOf (received m) = roomOf m := by
  rw [roomOf, roomOf, marshal_received]

theorem fine_run {D : Value → Prop} (hD : DataSet D) {cs : Int → Codec W} (hc : ∀ s, Net.Restores (cs s) D) {R : Nat} (sched : List Act)
    (hs : SendsData D sched) (hl : sched.length ≤ 2 ^ 53) (hR : ∀ s m, .send s m ∈ sched → roomOf m ≤ R) :
    Fine D cs R (brun cs sched) := by
  induction sched using snoc_induction with
  | nil => intro s k h; cases h
  | snoc sched a ih =>
    have hN : sched.length < 2 ^ 53 := by rw [List.length_append] at hl; exact hl
    have hs' : SendsData D sched := fun s m h => hs s m (List.mem_append_left _ h)
    have hi := ih hs' (Nat.le_of_lt hN) (fun s m h => hR s m (List.mem_append_left _ h))
    have hb := binv_run hD hc sched hs' (Nat.le_of_lt hN)
    rw [brun_snoc]
    generalize brun cs sched = b at hi hb ⊢
    generalize run objects (sched.map arriving) = n at hb
    cases a with
    | join d =>
      simp only [BNet.step]
      split
      · exact Fine.set (b := { b with broker := _, dealer := _ }) hi _ _ (by
          rintro k' ⟨⟩
          exact ⟨(by intro w h; cases h), (by intro w h; cases h)⟩)
      · exact hi
    | leave s => exact Fine.set (b := { b with broker := _, dealer := _ }) hi _ _ (by intro k' h; cases h)
    | send s m =>
      have hm := hs s m (List.mem_append_right _ (List.mem_singleton.2 rfl))
      have hr := hR s m (List.mem_append_right _ (List.mem_singleton.2 rfl))
      simp only [BNet.step]
      cases hk : b.conns s with
      | none => exact hi
      | some k =>
        refine hi.set s _ ?_
        rintro k' ⟨⟩
        refine ⟨fun w hw => ?_, (hi s k hk).2⟩
        dsimp only at hw
        split at hw
        · rename_i w' ho
          rcases List.mem_append.1 hw with hw | hw
          · exact (hi s k hk).1 w hw
          · rw [List.mem_singleton.1 hw]
            obtain ⟨v, hv, -⟩ := sent_carried (hc s) hm
            obtain ⟨-, ⟨e2, -⟩ | ⟨⟨x, e2⟩, -⟩⟩ := send_rel hv (WAMPSession.after (cs s) k.calls)
            · have o1 : WAMPSession.outcome (cs s) k.calls (.sendMessage m) = .ok (.data v) := by
                simp only [WAMPSession.outcome, WAMPSession.step, e2]; rfl
              rw [o1] at ho
              cases ho
              exact ⟨m, hv, hm.1, hm.2, hr⟩
            · have o1 : WAMPSession.outcome (cs s) k.calls (.sendMessage m) = .error x := by
                simp only [WAMPSession.outcome, WAMPSession.step, e2]; rfl
              rw [o1] at ho
              cases ho
        · exact (hi s k hk).1 w hw
    | deliver s =>
      simp only [BNet.step]
      cases hk : b.conns s with
      | none => exact hi
      | some k =>
        dsimp only
        split
        · exact hi
        · rename_i w ws hd
          refine hi.set s _ ?_
          rintro k' ⟨⟩
          exact ⟨(hi s k hk).1, fun w' h' => (hi s k hk).2 w' (by rw [hd]; exact List.mem_cons_of_mem _ h')⟩
    | route s =>
      simp only [BNet.step]
      cases hk : b.conns s with
      | none => exact hi
      | some k =>
        dsimp only
        split
        · exact hi
        · rename_i w ws hu
          have hset : Fine D cs R (b.setConn s (some { k with up := ws })) := by
            refine hi.set s _ ?_
            rintro k' ⟨⟩
            exact ⟨fun w' h' => (hi s k hk).1 w' (by rw [hu]; exact List.mem_cons_of_mem _ h'), (hi s k hk).2⟩
          obtain ⟨m0, h1, h2, h3, h4⟩ := (hi s k hk).1 w (by rw [hu]; exact List.mem_cons_self)
          obtain ⟨w', e1, e2⟩ := sent_carried (hc s) ⟨h2, h3⟩
          rw [h1] at e1
          cases e1
          rw [e2]
          dsimp only
          have hg := good_received ⟨h2, h3⟩
          have hr : roomOf (received m0) ≤ R := by rw [roomOf_received]; exact h4
          generalize received m0 = m at hg hr
          simp only [BNet.handle]
          have hbl : b.broker.length < 2 ^ 53 := by rw [hb.broker]; exact Nat.lt_of_le_of_lt hb.bl hN
          have hdl : b.dealer.length < 2 ^ 53 := by rw [hb.dealer]; exact Nat.lt_of_le_of_lt hb.dl hN
          split
          · rename_i op hop
            refine Fine.push (b := { b.setConn s _ with broker := _ }) hset _ fun x hx => ⟨?_, ?_⟩
            · refine brokerOut_good hD _ hbl op ?_ x hx
              cases m <;> simp only [brokerCall, Option.some.injEq, reduceCtorEq] at hop <;> subst hop <;> exact hg
            · exact Nat.le_trans (broker_room _ hbl s m op hop x hx) (Nat.add_le_add_right hr _)
          · rename_i op hop' hop
            refine Fine.push (b := { b.setConn s _ with dealer := _ }) hset _ fun x hx => ⟨?_, ?_⟩
            · refine dealerOut_good hD _ hdl (by show ∀ op ∈ b.dealer, _; rw [hb.dealer]; exact hb.gd) op ?_ x hx
              cases m <;> simp only [dealerCall, Option.some.injEq, reduceCtorEq] at hop <;> subst hop <;> exact hg
            · exact Nat.le_trans (dealer_room _ hdl s m op hg.same hop x hx) (Nat.add_le_add_right hr _)
          · exact hset

end Wamp.Spec.Room
