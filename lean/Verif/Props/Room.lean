import Verif.Proofs.RoomNet
import Verif.Props.StackRest

/-! # C137: what is short enough when it is sent is short enough for everybody -/

namespace Wamp.Spec.Stack
open RawSocket Net Ses Room

/-- Whichever serializer is used, a value does not take more than the room computed from its contents. -/
theorem C137_room (f : Format) (v : Value) (h : Fits commonLimits v) (w : Bytes) (hw : f.wire.dumps v = .ok w) : w.length ≤ room v := by
  cases f with
  | json =>
    change (Json.dumps v).map utf8 = .ok w at hw
    rw [Json.dumps] at hw
    cases hx : Json.writable v with
    | error e => rw [hx] at hw; cases hw
    | ok u =>
      rw [hx] at hw
      cases hw
      rw [utf8_weight]; exact json_room v h
  | msgpack =>
    change MsgPack.dumps v = .ok w at hw
    rw [MsgPack.dumps] at hw
    cases hx : MsgPack.packable v with
    | error e => rw [hx] at hw; cases hw
    | ok u =>
      rw [hx] at hw
      cases hw
      exact mp_room v h
  | cbor =>
    change Cbor.dumps v = .ok w at hw
    rw [Cbor.dumps] at hw
    cases hx : Cbor.encodable v with
    | error e => rw [hx] at hw; cases hw
    | ok u =>
      rw [hx] at hw
      cases hw
      exact cbor_room v h

/-- A message the broker sends because of a message needs no more room than that message and what the router may add. -/
theorem C137_broker_adds (ops : List Broker.Op) (hl : ops.length < 2 ^ 53) (s : Int) (m : Message) (op : Broker.Op)
    (hop : brokerCall s m = some op) : ∀ x ∈ brokerOut (Broker.outcome ops op), roomOf x.2 ≤ roomOf m + routerAdds :=
  broker_room ops hl s m op hop

/-- So for the dealer, for messages as they arrive. -/
theorem C137_dealer_adds (ops : List Dealer.Op) (hl : ops.length < 2 ^ 53) (s : Int) (m : Message) (op : Dealer.Op)
    (hop : dealerCall s (received m) = some op) :
    ∀ x ∈ dealerOut (Dealer.outcome ops op), roomOf x.2 ≤ roomOf m + routerAdds := by
  rw [← roomOf_received m]
  exact dealer_room ops hl s (received m) op (received_received m) hop

/-- If the applications send only messages whose room leaves some for the router, nothing is ever on its way that is too long for a
frame, whatever serializers the clients use. -/
theorem C137_nothing_too_long (fmt : Int → Format) (r : Setup) (sched : List SAct) (hs : SendsCommon sched) (hr : SendsShort sched)
    (hl : sched.length ≤ 2 ^ 53) : NothingTooLong fmt (sessions r sched) := by
  intro pre hp s k hk w hw
  have hpl : pre.length ≤ 2 ^ 53 := Nat.le_trans hp.length_le (Nat.le_trans (sessions_length r sched) hl)
  have hd : SendsData (Fits commonLimits) pre := fun s m h => sends_data hs s m (hp.subset h)
  have hR : ∀ s m, .send s m ∈ pre → roomOf m ≤ 2 ^ 24 - routerAdds - 1 := by
    intro s m h
    obtain ⟨c, hc⟩ := sessions_send (hp.subset h)
    have := hr c m hc
    omega
  have := fine_run (cs := codecs fmt) common_dataSet (fun s => wire_common (fmt s)) pre hd hpl hR s k hk
  have hadd : routerAdds = 256 := rfl
  rcases List.mem_append.1 hw with h | h
  · obtain ⟨m, h1, -, h3, h4⟩ := this.1 w h
    have := C137_room (fmt s) _ h3 w h1
    simp only [roomOf] at h4
    omega
  · obtain ⟨m, h1, -, h3, h4⟩ := this.2 w h
    have := C137_room (fmt s) _ h3 w h1
    simp only [roomOf] at h4
    omega

/-- So C120 holds on a condition on what the applications do alone. -/
theorem C137_stack (fmt : Int → Format) (r : Setup) (sched : List SAct) (hc : Consistent fmt sched) (hs : SendsCommon sched)
    (hr : SendsShort sched) (hl : sched.length ≤ 2 ^ 53) : Matches (srun r sched) (brun (codecs fmt) (sessions r sched)) :=
  C120_stack fmt r sched hc (C137_nothing_too_long fmt r sched hs hr hl)

/-- So do C122 and what else assumes `Tame`. -/
theorem C137_tame (fmt : Int → Format) (r : Setup) (sched : List SAct) (hc : Consistent fmt sched) (hs : SendsCommon sched)
    (hr : SendsShort sched) (hl : sched.length ≤ 2 ^ 53) : Tame fmt r sched :=
  ⟨hc, C137_nothing_too_long fmt r sched hs hr hl, hs⟩

/-! ## What a sender measures with its own serializer does not tell -/

/-- A PUBLISH of so many control characters -/
def controls (n : Nat) : Message :=
  .publish { requestId := .int 1, topic := "t", args := some [.str (String.ofList (List.replicate n '\x01'))] }

theorem weight_controls (n : Nat) : Room.weight (List.replicate n '\x01') = n := by
  rw [weight_ascii]
  · simp
  · intro c h; rw [(List.mem_replicate.1 h).2]; decide

theorem size_controls (n : Nat) : (String.ofList (List.replicate n '\x01')).utf8ByteSize = n := by
  rw [← utf8_length, utf8_weight, weight_controls]

theorem escaped_controls (n : Nat) : Room.weight ((List.replicate n '\x01').flatMap Json.escape) = 6 * n := by
  induction n with
  | zero => rfl
  | succ n ih =>
    have : Room.weight (Json.escape '\x01') = 6 := by decide
    rw [List.replicate_succ, List.flatMap_cons, weight_append, ih, this]; omega

theorem controls_carried (n : Nat) (hn : n < 2 ^ 32) : ∃ w w', Valid (controls n) ∧ Fits commonLimits (.list (controls n).marshal) ∧
    MsgPack.codec.serialize (controls n) = .ok w ∧ w.length ≤ n + 100 ∧
    Format.json.wire.serialize (controls n) = .ok w' ∧ 6 * n ≤ w'.length := by
  have hsz := size_controls n
  have hesc := escaped_controls n
  have hm : (controls n).marshal =
      [.int 16, .int 1, .dict [], .str "t", .list [.str (String.ofList (List.replicate n '\x01'))]] := rfl
  have e : "t".utf8ByteSize = 1 := by decide
  have hf : Fits commonLimits (.list (controls n).marshal) := by
    rw [hm]
    simp only [Fits, FitsList, FitsDict, commonLimits, hsz, e, List.length_cons, List.length_nil, List.map_nil, List.nodup_nil]
    simp only [and_true]
    refine ⟨by omega, ⟨by omega, by omega⟩, ⟨by omega, by omega⟩, by omega, by omega, by omega, hn⟩
  refine ⟨MsgPack.pack (.list (controls n).marshal), utf8 (String.ofList (Json.text (.list (controls n).marshal))),
    (show (1 : Int) ≤ 1 ∧ (1 : Int) ≤ 2 ^ 53 by decide), hf, ?_, ?_, ?_, ?_⟩
  · show MsgPack.dumps (.list (controls n).marshal) = _
    have : MsgPack.packable (.list (controls n).marshal) = .ok () := by
      rw [hm]
      simp only [MsgPack.packable, MsgPack.packableList, MsgPack.packableDict, utf8_length, hsz, if_pos hn]
      rfl
    rw [MsgPack.dumps, this]; rfl
  · rw [hm]
    have h1 := (mp_head n).1
    have h2 := (mp_head 5).2.2.1
    have h3 := (mp_head 1).2.2.1
    have h4 := (mp_head 0).2.2.2
    have h5 := mp_int 16
    have h6 := mp_int 1
    have h7 := (mp_head 1).1
    simp only [MsgPack.pack, MsgPack.packList, MsgPack.packDict, List.length_append, List.length_cons, List.length_nil, Nat.zero_add,
      Nat.reduceAdd, utf8_length, hsz, e]
    omega
  · show (Json.dumps (.list (controls n).marshal)).map utf8 = _
    have : Json.writable (.list (controls n).marshal) = .ok () := by
      rw [hm]; rfl
    rw [Json.dumps, this]; rfl
  · rw [hm, utf8_weight]
    simp only [Json.text, Json.textTail, weight_append, Room.weight, List.cons_append, List.append_assoc, Json.quote, String.toList_ofList, hesc]
    omega

/-- A message may fit a frame twice over when its sender serializes it as MessagePack, and not fit for a recipient whose serializer
is JSON: what the sender measures with its own serializer is not what counts. -/
theorem C137_sender_cannot_tell : ∃ m w w', Valid m ∧ Fits commonLimits (.list m.marshal) ∧
    MsgPack.codec.serialize m = .ok w ∧ 2 * w.length < 2 ^ 24 ∧ Format.json.wire.serialize m = .ok w' ∧ 2 ^ 24 < w'.length := by
  obtain ⟨n, hn⟩ : ∃ n : Nat, n = 2 ^ 22 := ⟨_, rfl⟩
  obtain ⟨w, w', h1, h2, h3, h4, h5, h6⟩ := controls_carried n (by omega)
  exact ⟨controls n, w, w', h1, h2, h3, by omega, h5, by omega⟩

/-! ## The hypotheses can be met -/

theorem demo_room : SendsShort demo := by
  intro c m h
  simp only [demo, comeIn, List.cons_append, List.nil_append, List.mem_cons, SAct.send.injEq, reduceCtorEq,
    List.not_mem_nil, or_false, false_or] at h
  rcases h with ⟨-, rfl⟩ | ⟨-, rfl⟩ <;> decide

example : Matches (srun demoSetup demo) (brun (codecs demoFmt) (sessions demoSetup demo)) :=
  C137_stack demoFmt demoSetup demo demo_consistent demo_sends demo_room (by decide)

example : NothingTooLong (fun _ => .json) (sessions demoSetup demo) :=
  C137_nothing_too_long _ demoSetup demo demo_sends demo_room (by decide)

end Wamp.Spec.Stack
