import Verif.Proofs.Encodings
import Verif.Proofs.Refuses
import Verif.Proofs.Truncated
import Verif.Proofs.TruncatedJson
import Verif.Props.ByteNet
import Verif.Props.Payload
import Verif.Props.Wire

/-! # C88–C92: the three serialization formats themselves -/

namespace Wamp.Spec

/-! ## C88 -/

/-- What fits a format is written, and what was written is read as the same value. -/
theorem C88_restores (f : Format) (v : Value) (h : Fits f.limits v) :
    ∃ w, f.codec.dumps v = .ok w ∧ f.codec.loads w = .ok v := by
  cases f
  · exact ⟨.inl (String.ofList (Json.text v)), by simp [Format.codec, Json.dumps_fits v h, Except.map], Json.loads_text v h⟩
  · exact ⟨.inr (MsgPack.pack v), by simp [Format.codec, MsgPack.dumps_fits v h, Except.map], MsgPack.loads_pack v h⟩
  · have := Cbor.loads_encode v h []
    rw [List.append_nil] at this
    exact ⟨.inr (Cbor.encode v), by simp [Format.codec, Cbor.dumps_fits v h, Except.map], this⟩

/-- A message whose fields fit the format arrives: it is serialized, and deserialized to the message the receiver is to
see. -/
theorem C88_messages (f : Format) (m : Message) (hv : Valid m) (h : Fits f.limits (.list m.marshal)) :
    ∃ w, f.codec.serialize m = .ok w ∧ f.codec.deserialize w = .ok (received m) := by
  obtain ⟨w, h1, h2⟩ := C88_restores f _ h
  refine ⟨w, h1, ?_⟩
  rw [Codec.deserialize, h2]
  exact C01_received m hv

/-- Binary payloads: arguments that fit the format survive `serialize_payload` and `deserialize_payload`. -/
theorem C88_payloads (id : Int) (f : Format) (hf : formatOf id = some f) (args : Option (List Value)) (kwargs : Option PyDict)
    (h : Fits f.limits (payloadValue args kwargs)) :
    ∃ b, serializePayload payloadCodecs id args kwargs = .ok (some b) ∧
      deserializePayload payloadCodecs id b = .ok (seenArgs args kwargs, kwargs) := by
  have key : ∀ c : Codec Bytes, codecFor payloadCodecs id = some c → (∀ e, c.loads [] ≠ .ok e) →
      (∃ b, c.dumps (payloadValue args kwargs) = .ok b ∧ c.loads b = .ok (payloadValue args kwargs)) →
      ∃ b, serializePayload payloadCodecs id args kwargs = .ok (some b) ∧
        deserializePayload payloadCodecs id b = .ok (seenArgs args kwargs, kwargs) := by
    rintro c hc hnil ⟨b, h1, h2⟩
    exact ⟨b, C11_payload_round_trip payloadCodecs id c hc args kwargs b h1 (by rintro rfl; exact hnil _ h2) h2⟩
  unfold formatOf at hf
  split at hf
  · rename_i hi; cases hf; subst hi
    refine key Json.payloadCodec rfl (fun e he => by cases he) ⟨utf8 (String.ofList (Json.text (payloadValue args kwargs))), ?_, ?_⟩
    · simp [Json.payloadCodec, Json.dumpsBytes, Json.dumps_fits _ h, Except.map]
    · exact Json.loadsBytes_text h
  · split at hf
    · rename_i hi; cases hf; subst hi
      exact key MsgPack.codec rfl (fun e he => by cases he) ⟨_, MsgPack.dumps_fits _ h, MsgPack.loads_pack _ h⟩
    · split at hf
      · rename_i hi; cases hf; subst hi
        have := Cbor.loads_encode _ h []
        rw [List.append_nil] at this
        exact key Cbor.codec rfl (fun e he => by cases he) ⟨_, Cbor.dumps_fits _ h, this⟩
      · cases hf

/-- A call with nested arguments, a big integer, the float 0.1 and a string that needs escapes -/
def sample : Message :=
  .call { requestId := 9007199254740992
          procedure := "a.\"é\n𝄞"
          args := some [.int (-129), .float ⟨0x3fb999999999999a#64⟩, .list [.none, .bool true]]
          kwargs := some [(.str "k", .str "v"), (.str "", .dict [])] }

theorem sample_fits (f : Format) : Valid sample ∧ Fits f.limits (.list sample.marshal) := by
  refine ⟨by show IdOk _; decide, ?_⟩
  cases f <;>
    simp [sample, Message.marshal, payloadTail, Call.options, withSerializer, PyInt.toValue, Fits, FitsList, FitsDict, Format.limits,
      jsonLimits, msgpackLimits, cborLimits, PlainFloat] <;> decide

example (f : Format) : ∃ w, f.codec.serialize sample = .ok w ∧ f.codec.deserialize w = .ok (received sample) :=
  C88_messages f _ (sample_fits f).1 (sample_fits f).2

example (id : Int) (f : Format) (hf : formatOf id = some f) :
    ∃ b, serializePayload payloadCodecs id none (some [(.str "a", .int 7)]) = .ok (some b) ∧
      deserializePayload payloadCodecs id b = .ok (some [], some [(.str "a", .int 7)]) :=
  C88_payloads id f hf _ _ (by
    cases f <;> simp [payloadValue, Fits, FitsList, FitsDict, Format.limits, jsonLimits, msgpackLimits, cborLimits] <;> decide)

/-! ## C89 -/

theorem utf8Size_le (s : String) : s.utf8ByteSize ≤ 4 * s.length := by
  have : ∀ l : List Char, (String.ofList l).utf8ByteSize ≤ 4 * l.length := by
    intro l
    induction l with
    | nil => simp
    | cons c l ih =>
      have e : String.ofList (c :: l) = String.singleton c ++ String.ofList l := by simp
      rw [e, String.utf8ByteSize_append, String.utf8ByteSize_singleton, List.length_cons]
      have := Char.utf8Size_le_four c
      omega
  have h := this s.toList
  rwa [String.ofList_toList, String.length_toList] at h

/-- What all three formats carry is enough to make messages of. -/
theorem common_dataSet : Net.DataSet (Fits commonLimits) := by
  refine ⟨fun s h => ?_, fun n h1 h2 => ?_, by rw [Fits]; trivial, fun l hl h => ?_, fun d hl h1 h2 => ?_, fun l h => ?_,
    fun d h kv hkv => ?_⟩
  · have := utf8Size_le s
    rw [Fits]; show _ < 2 ^ 32; omega
  · rw [Fits]; exact ⟨by omega, by omega⟩
  · rw [Fits]; exact ⟨by show _ < 2 ^ 32; omega, (fitsList_iff l).2 h⟩
  · rw [Fits]
    refine ⟨by show _ < 2 ^ 32; omega, h1, (fitsDict_iff d).2 fun kv hkv => ⟨?_, (h2 kv hkv).2⟩⟩
    obtain ⟨s, e, hs⟩ := (h2 kv hkv).1
    have := utf8Size_le s
    exact ⟨s, e, by show _ < 2 ^ 32; omega⟩
  · rw [Fits] at h; exact (fitsList_iff l).1 h.2
  · rw [Fits] at h; exact ((fitsDict_iff d).1 h.2.2 kv hkv).2

theorem common_le (f : Format) : commonLimits.Le f.limits := by
  cases f
  · exact ⟨fun _ _ => trivial, fun _ h => h, fun h => h.elim, fun _ _ => trivial⟩
  · exact ⟨fun _ h => h, fun _ _ => trivial, fun h => h.elim, fun _ h => h⟩
  · refine ⟨fun n h => ?_, fun _ h => h, fun h => h.elim, fun n h => ?_⟩
    · show n.natAbs.log2 < 2 ^ 63
      have h1 : n.natAbs < 2 ^ 64 := by have := h.1; have := h.2; omega
      have : n.natAbs.log2 < 64 := by
        rcases Nat.eq_zero_or_pos n.natAbs with e | e
        · rw [e]; decide
        · exact (Nat.log2_lt (by omega)).2 h1
      omega
    · have : n < 2 ^ 32 := h
      show n < 2 ^ 64
      omega

theorem common_restores (f : Format) : Net.Restores f.codec (Fits commonLimits) :=
  fun v h => C88_restores f v (Fits.mono (common_le f) v h)

namespace Net

variable (fmt : Int → Format)

/-- Clients that use JSON, MessagePack or CBOR, each as it likes, in one network: whatever they do, as long as what they send
is made of values all three formats carry, the network does what it would do if the messages were handed over as objects. -/
theorem C89_formats_refine_messages (sched : List Act) (hs : SendsData (Fits commonLimits) sched) (hl : sched.length ≤ 2 ^ 53) :
    Refines (fun s => (fmt s).codec) (brun (fun s => (fmt s).codec) sched) (run objects (sched.map arriving)) :=
  C81_bytes_refine_messages common_dataSet (fun s => common_restores (fmt s)) sched hs hl

/-- The router can read all that clients send. -/
theorem C89_router_reads (sched : List Act) (hs : SendsData (Fits commonLimits) sched) (hl : sched.length ≤ 2 ^ 53) (s : Int)
    (k : BConn (String ⊕ Bytes)) (hk : (brun (fun s => (fmt s).codec) sched).conns s = some k) (w : String ⊕ Bytes)
    (rest : List (String ⊕ Bytes)) (hu : k.up = w :: rest) :
    ∃ m, .send s m ∈ sched ∧ (fmt s).codec.deserialize w = .ok (received m) :=
  C81_router_reads common_dataSet (fun s => common_restores (fmt s)) sched hs hl s k hk w rest hu

/-- No client ever fails on data from the router. -/
theorem C89_client_never_rejects (sched : List Act) (hs : SendsData (Fits commonLimits) sched) (hl : sched.length ≤ 2 ^ 53)
    (hf : FreshRequestsB (fun s => (fmt s).codec) pubSub sched) (hg : GoodClientsB (fun s => (fmt s).codec) sched) (s : Int)
    (k : BConn (String ⊕ Bytes)) (hk : (brun (fun s => (fmt s).codec) sched).conns s = some k) (w : String ⊕ Bytes)
    (rest : List (String ⊕ Bytes)) (hd : k.down = w :: rest) :
    ∃ m, (fmt s).codec.deserialize w = .ok m ∧ WAMPSession.outcome (fmt s).codec k.calls (.receive w) = .ok (.msg m) :=
  C81_client_never_rejects common_dataSet (fun s => common_restores (fmt s)) sched hs hl hf hg s k hk w rest hd

/-- When nothing is on its way to a client, it and the router agree on its subscriptions and registrations. -/
theorem C89_agreement (sched : List Act) (hs : SendsData (Fits commonLimits) sched) (hl : sched.length ≤ 2 ^ 53)
    (hf : FreshRequestsB (fun s => (fmt s).codec) pubSub sched) (hg : GoodClientsB (fun s => (fmt s).codec) sched) (s : Int)
    (k : BConn (String ⊕ Bytes)) (hk : (brun (fun s => (fmt s).codec) sched).conns s = some k) (hd : k.down = []) (i : Int) :
    (Ses.Granted (fmt s).codec (WAMPSession.trace (fmt s).codec k.calls) .subscribe i ↔
      ∃ t, (⟨s, t, i⟩ : Pub.Holding) ∈ (Pub.view (Broker.trace (brun (fun s => (fmt s).codec) sched).broker)).held) ∧
    (Ses.Granted (fmt s).codec (WAMPSession.trace (fmt s).codec k.calls) .register i ↔
      ∃ p, (⟨s, p, i⟩ : Rpc.Reg) ∈ (Rpc.view (Dealer.trace (brun (fun s => (fmt s).codec) sched).dealer)).held) :=
  C81_agreement common_dataSet (fun s => common_restores (fmt s)) sched hs hl hf hg s k hk hd i

/-- Client 1 uses CBOR, client 2 JSON, everyone else MessagePack. -/
def three (s : Int) : Format := if s = 1 then .cbor else if s = 2 then .json else .msgpack

theorem demoB_common : SendsData (Fits commonLimits) demoB := by
  intro s m h
  simp only [demoB, joins, callP, List.mem_cons, Act.send.injEq, reduceCtorEq, false_or, List.not_mem_nil, or_false] at h
  rcases h with ⟨rfl, rfl⟩ | ⟨rfl, rfl⟩ | ⟨rfl, rfl⟩ | ⟨rfl, rfl⟩ <;>
    simp [Valid, IdOk, PyInt.val, Message.marshal, payloadTail, Fits, FitsList, FitsDict, PyInt.toValue, Call.options, withSerializer,
      commonLimits] <;> decide

theorem demoB_formats : FreshRequestsB (fun s => (three s).codec) pubSub demoB ∧ GoodClientsB (fun s => (three s).codec) demoB := by
  have hf := fun K h => fresh_to_bytes (cs := fun s => (three s).codec) common_dataSet (fun s => common_restores (three s)) demoB
    demoB_common (by decide) K (fresh_of_freshB objects K (demoB.map arriving) h)
  refine ⟨hf _ (by decide), hf _ (by decide), ?_, ?_, distinct_of_nodup (by decide)⟩
  · intro s m h
    simp [demoB, joins, callP] at h
    rw [h.2]; rfl
  · intro pre s m post e
    have : Act.send s (.error m) ∈ demoB := by rw [e]; simp
    simp [demoB, joins, callP] at this

/-- The EVENT, with the keyword arguments client 2 wrote as JSON, is on its way to client 1 as CBOR. -/
example : ∃ k w rest, (brun (fun s => (three s).codec) demoB).conns 1 = some k ∧ k.down = w :: rest ∧
    Format.cbor.codec.deserialize w = .ok (.event
      { subscriptionId := 1, publicationId := 2, args := some [], kwargs := some [(.str "k", .int 5)], details := [] }) := by
  have h := C89_formats_refine_messages three demoB demoB_common (by decide)
  cases hk : (brun (fun s => (three s).codec) demoB).conns 1 with
  | none => have := (h.gone 1).1 hk; cases this
  | some kb =>
    have hd := (h.conn 1 kb _ hk rfl).down
    cases hb : kb.down with
    | nil => rw [hb] at hd; cases hd
    | cons w rest =>
      rw [hb] at hd
      exact ⟨kb, w, rest, rfl, hb, (List.cons.inj hd).1⟩

end Net

/-! ## C90 -/

/-- The claim without the restriction to string keys: what a serializer writes is read as the same value. -/
def WritesTruly (f : Format) (v : Value) : Prop :=
  ∀ w, f.codec.dumps v = .ok w → f.codec.loads w = .ok v

theorem text_int_key : Json.text (.dict [(.int 1, .none)]) = "{\"1\": null}".toList := by
  simp [Json.text, Json.textMembers, Json.keyText, Json.quote, Json.integer, Json.decimal, Json.digits, Json.escape]

theorem text_two_keys :
    Json.text (.dict [(.int 1, .str "a"), (.str "1", .str "b")]) = "{\"1\": \"a\", \"1\": \"b\"}".toList := by
  simp [Json.text, Json.textMembers, Json.keyText, Json.quote, Json.integer, Json.decimal, Json.digits, Json.escape]

/-- It is false: `{1: None}` arrives as `{"1": None}` with JSON. -/
theorem C90_writes_truly_false : ¬ ∀ f v, WritesTruly f v := by
  intro h
  have := h .json (.dict [(.int 1, .none)]) _ rfl
  rw [text_int_key] at this
  revert this; decide +kernel

/-- With MessagePack the receiver fails on data the sender wrote. -/
theorem C90_msgpack_unreadable :
    ∃ v w e, Format.msgpack.codec.dumps v = .ok w ∧ Format.msgpack.codec.loads w = .error e :=
  ⟨.dict [(.int 1, .none)], _, _, rfl, rfl⟩

/-- With JSON two keys become one: an entry is lost. -/
theorem C90_json_loses_entry :
    ∃ w, Format.json.codec.dumps (.dict [(.int 1, .str "a"), (.str "1", .str "b")]) = .ok w ∧
      Format.json.codec.loads w = .ok (.dict [(.str "1", .str "b")]) :=
  ⟨_, rfl, by rw [text_two_keys]; decide +kernel⟩

/-- A value whose dicts have string keys is refused, or written and read as the same value; it is refused exactly if it does
not fit the format. -/
theorem C90_writes_truly_partial (f : Format) (v : Value) (hk : Keyed f v) :
    WritesTruly f v ∧ ((∃ w, f.codec.dumps v = .ok w) ↔ Fits f.limits v) := by
  have fits : ∀ w, f.codec.dumps v = .ok w → Fits f.limits v := by
    intro w hw
    cases f
    · refine Json.fits_writable v hk ?_
      cases h : Json.writable v with
      | ok _ => rfl
      | error e => simp [Format.codec, Json.dumps, h, Except.map, bind, Except.bind] at hw
    · refine MsgPack.fits_packable v hk ?_
      cases h : MsgPack.packable v with
      | ok _ => rfl
      | error e => simp [Format.codec, MsgPack.dumps, h, Except.map, bind, Except.bind] at hw
    · exact Cbor.fits_keyed v hk
  refine ⟨fun w hw => ?_, fun ⟨w, hw⟩ => fits w hw, fun h => ?_⟩
  · obtain ⟨w', h1, h2⟩ := C88_restores f v (fits w hw)
    rw [hw] at h1; cases h1; exact h2
  · obtain ⟨w, h1, _⟩ := C88_restores f v h
    exact ⟨w, h1⟩

example : Keyed .json (.dict [(.str "a", .bytes [1])]) ∧ ¬ ∃ w, Format.json.codec.dumps (.dict [(.str "a", .bytes [1])]) = .ok w := by
  have hk : Keyed .json (.dict [(.str "a", .bytes [1])]) := by simp [Keyed, KeyedDict]; decide
  refine ⟨hk, fun h => ?_⟩
  have := (C90_writes_truly_partial .json _ hk).2.1 h
  simp [Fits, FitsDict, Format.limits, jsonLimits] at this

example : ¬ ∃ w, Format.msgpack.codec.dumps (.int (2 ^ 64)) = .ok w := by
  intro h
  have := (C90_writes_truly_partial .msgpack (.int (2 ^ 64)) (by rw [Keyed]; decide)).2.1 h
  simp [Fits, Format.limits, msgpackLimits] at this

/-! ## C91 -/

/-- The claim: what holds more than one message is refused. -/
def OneMessage (f : Format) : Prop :=
  ∀ m m' w w', Valid m → Valid m' → f.codec.serialize m = .ok w → f.codec.serialize m' = .ok w' →
    Fits f.limits (.list m.marshal) → Fits f.limits (.list m'.marshal) → ∃ e, f.codec.deserialize (glue w w') = .error e

/-- It is false: with CBOR, the second message is silently lost. -/
theorem C91_one_message_false : ¬ ∀ f, OneMessage f := by
  intro h
  have hs := sample_fits .cbor
  obtain ⟨w, h1, h2⟩ := C88_messages .cbor sample hs.1 hs.2
  obtain ⟨e, he⟩ := h .cbor sample sample w w hs.1 hs.1 h1 h1 hs.2 hs.2
  have hw : w = .inr (Cbor.encode (.list sample.marshal)) := by
    simp only [Codec.serialize, Format.codec, Cbor.dumps_fits _ hs.2, Except.map, Except.ok.injEq] at h1
    exact h1.symm
  subst hw
  simp [Codec.deserialize, Format.codec, glue, Cbor.loads_encode _ hs.2, bind, Except.bind, C01_received _ hs.1] at he

/-- JSON: after a message there may be white space only. -/
theorem C91_json (m : Message) (hv : Valid m) (h : Fits jsonLimits (.list m.marshal)) (w : String) (x : String)
    (hw : Json.codec.serialize m = .ok w) :
    Json.codec.deserialize (w ++ x) =
      if x.toList.all (fun c => c = ' ' || c = '\t' || c = '\n' || c = '\r') then .ok (received m) else .error (.valueError "json") := by
  have e : w = String.ofList (Json.text (.list m.marshal)) := by
    simp only [Codec.serialize, Json.codec, Json.dumps_fits _ h, Except.ok.injEq] at hw; exact hw.symm
  have := Json.loads_list m.marshal h x.toList
  rw [String.ofList_append, String.ofList_toList, ← e] at this
  show (Json.loads (w ++ x) >>= toMessage) = _
  rw [this]
  have hs : x.toList.all Json.isSpace = x.toList.all (fun c => c = ' ' || c = '\t' || c = '\n' || c = '\r') := rfl
  rw [hs]
  split
  · exact C01_received m hv
  · rfl

/-- MessagePack: nothing may follow. -/
theorem C91_msgpack (m : Message) (h : Fits msgpackLimits (.list m.marshal)) (w x : Bytes) (hw : MsgPack.codec.serialize m = .ok w)
    (hx : x ≠ []) : MsgPack.codec.deserialize (w ++ x) = .error (.valueError "unpack(b) received extra data.") := by
  have e : w = MsgPack.pack (.list m.marshal) := by
    simp only [Codec.serialize, MsgPack.codec, MsgPack.dumps_fits _ h, Except.ok.injEq] at hw; exact hw.symm
  subst e
  have := MsgPack.unpack_pack ((MsgPack.pack (.list m.marshal) ++ x).length + 1) _ h (by simp; omega) x
  show (MsgPack.loads _ >>= toMessage) = _
  rw [MsgPack.loads, this]
  cases x with
  | nil => exact absurd rfl hx
  | cons b x => rfl

/-- CBOR: whatever follows is ignored. -/
theorem C91_cbor (m : Message) (hv : Valid m) (h : Fits cborLimits (.list m.marshal)) (w x : Bytes) (hw : Cbor.codec.serialize m = .ok w) :
    Cbor.codec.deserialize (w ++ x) = .ok (received m) := by
  have e : w = Cbor.encode (.list m.marshal) := by
    simp only [Codec.serialize, Cbor.codec, Cbor.dumps_fits _ h, Except.ok.injEq] at hw; exact hw.symm
  subst e
  show (Cbor.loads _ >>= toMessage) = _
  rw [Cbor.loads_encode _ h]
  exact C01_received m hv

/-- For JSON and MessagePack it holds. -/
theorem C91_one_message_partial (f : Format) (hf : f ≠ .cbor) : OneMessage f := by
  intro m m' w w' hv hv' hw hw' h h'
  cases f with
  | json =>
    have e := Json.dumps_fits _ h
    have e' := Json.dumps_fits _ h'
    simp only [Codec.serialize, Format.codec, e, e', Except.map, Except.ok.injEq] at hw hw'
    subst hw; subst hw'
    have := C91_json m hv h (String.ofList (Json.text (.list m.marshal))) (String.ofList (Json.text (.list m'.marshal))) e
    obtain ⟨t, ht⟩ := Json.text_list m'.marshal
    have hx : (String.ofList (Json.text (.list m'.marshal))).toList = '[' :: t := by rw [String.toList_ofList, ht]
    rw [hx] at this
    exact ⟨_, this⟩
  | msgpack =>
    have e := MsgPack.dumps_fits _ h
    have e' := MsgPack.dumps_fits _ h'
    simp only [Codec.serialize, Format.codec, e, e', Except.map, Except.ok.injEq] at hw hw'
    subst hw; subst hw'
    refine ⟨_, C91_msgpack m h _ _ e ?_⟩
    intro hn
    have := MsgPack.loads_pack _ h'
    rw [hn] at this; cases this
  | cbor => exact absurd rfl hf

/-! ## C92 -/

/-- A part of a message is not a message: whatever is cut off at the end, the rest is refused. -/
theorem C92_truncated (f : Format) (m : Message) (h : Fits f.limits (.list m.marshal)) (w p : String ⊕ Bytes)
    (hw : f.codec.serialize m = .ok w) (hp : PartOf p w) : ∃ e, f.codec.deserialize p = .error e := by
  have key : ∀ {e : Exc}, f.codec.loads p = .error e → ∃ e, f.codec.deserialize p = .error e := by
    intro e he; exact ⟨e, by rw [Codec.deserialize, he]; rfl⟩
  cases f with
  | json =>
    simp only [Codec.serialize, Format.codec, Json.dumps_fits _ h, Except.map, Except.ok.injEq] at hw
    subst hw
    cases p with
    | inr p => exact hp.elim
    | inl p =>
      obtain ⟨x, hx, he⟩ := hp
      obtain ⟨e, he⟩ := Json.loads_prefix (b := p.toList) (x := x.toList) h
        (by rw [← String.toList_append, ← he, String.toList_ofList]) (by simpa using hx)
      rw [String.ofList_toList] at he
      exact key he
  | msgpack =>
    simp only [Codec.serialize, Format.codec, MsgPack.dumps_fits _ h, Except.map, Except.ok.injEq] at hw
    subst hw
    cases p with
    | inl p => exact hp.elim
    | inr p =>
      obtain ⟨x, hx, he⟩ := hp
      have := MsgPack.loads_pack _ h
      rw [he] at this
      obtain ⟨e, he⟩ := MsgPack.loads_prefix this hx
      exact key he
  | cbor =>
    simp only [Codec.serialize, Format.codec, Cbor.dumps_fits _ h, Except.map, Except.ok.injEq] at hw
    subst hw
    cases p with
    | inl p => exact hp.elim
    | inr p =>
      obtain ⟨x, hx, he⟩ := hp
      obtain ⟨e, he⟩ := Cbor.loads_prefix h he hx
      exact key he

/-- So of all the parts of the data, only the whole of it is read. -/
example (f : Format) : ∃ w, f.codec.serialize sample = .ok w ∧ (∃ p, PartOf p w) ∧ ∀ p, PartOf p w → ∃ e, f.codec.deserialize p = .error e := by
  obtain ⟨w, h1, h2⟩ := C88_messages f _ (sample_fits f).1 (sample_fits f).2
  refine ⟨w, h1, ?_, fun p hp => C92_truncated f _ (sample_fits f).2 w p h1 hp⟩
  cases f
  · cases w with
    | inl w =>
      refine ⟨.inl "", w, ?_, by simp⟩
      rintro rfl; cases h2
    | inr w => cases h2
  · cases w with
    | inr w =>
      refine ⟨.inr [], w, ?_, by simp⟩
      rintro rfl; cases h2
    | inl w => cases h2
  · cases w with
    | inr w =>
      refine ⟨.inr [], w, ?_, by simp⟩
      rintro rfl; cases h2
    | inl w => cases h2

end Wamp.Spec
