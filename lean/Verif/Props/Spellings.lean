import Verif.Proofs.Conforms
import Verif.Props.Numbers

/-! # C103, C104: other programs' JSON, MessagePack and CBOR -/

namespace Wamp.Spec

/-! ## C103 -/

/-- However a value is written, it is read as that value. -/
theorem C103_read (f : Format) (v : Value) (w : String ⊕ Bytes) (h : f.Spells v w) : f.codec.loads w = .ok v := by
  match f, w, h with
  | .json, .inl s, h => exact Json.loads_spelled h
  | .msgpack, .inr b, h => exact MsgPack.loads_spelled h
  | .cbor, .inr b, h =>
    have := Cbor.loads_spelled h []
    rw [List.append_nil] at this
    exact this

/-- However a message is written, it arrives. -/
theorem C103_message (f : Format) (m : Message) (hv : Valid m) (w : String ⊕ Bytes) (h : f.Spells (.list m.marshal) w) :
    f.codec.deserialize w = .ok (received m) := by
  rw [Codec.deserialize, C103_read f _ w h]
  exact C01_received m hv

/-- Two ways to write the same list are taken alike, messages or not. -/
theorem C103_same (f : Format) (l : List Value) (w w' : String ⊕ Bytes) (h : f.Spells (.list l) w) (h' : f.Spells (.list l) w') :
    f.codec.deserialize w = f.codec.deserialize w' := by
  rw [Codec.deserialize, Codec.deserialize, C103_read f _ w h, C103_read f _ w' h']

/-- What is written stands for one value only. -/
theorem C103_one_value (f : Format) (v v' : Value) (w : String ⊕ Bytes) (h : f.Spells v w) (h' : f.Spells v' w) : v = v' :=
  Except.ok.inj ((C103_read f v w h).symm.trans (C103_read f v' w h'))

/-- Binary payloads -/
theorem C103_payload (id : Int) (f : Format) (hf : formatOf id = some f) (args : Option (List Value)) (kwargs : Option PyDict) (b : Bytes)
    (h : f.SpellsBytes (payloadValue args kwargs) b) :
    deserializePayload payloadCodecs id b = .ok (seenArgs args kwargs, kwargs) := by
  have key : ∀ c : Codec Bytes, (∀ e, c.loads [] ≠ .ok e) → c.loads b = .ok (payloadValue args kwargs) →
      decodePayloadBytes c b = .ok (seenArgs args kwargs, kwargs) := by
    intro c hnil hb
    have hl : b.length ≠ 0 := by
      intro h0
      rw [List.length_eq_zero_iff.1 h0] at hb
      exact hnil _ hb
    rw [decodePayloadBytes, if_neg hl, hb]
    show decodePayload _ = _
    cases args <;> cases kwargs <;> rfl
  unfold formatOf at hf
  split at hf
  · rename_i hi; cases hf; subst hi
    obtain ⟨s, rfl, hs⟩ := h
    refine key Json.payloadCodec (fun e he => by cases he) ?_
    exact Json.loadsBytes_utf8 hs
  · split at hf
    · rename_i hi; cases hf; subst hi
      exact key MsgPack.codec (fun e he => by cases he) (MsgPack.loads_spelled h)
    · split at hf
      · rename_i hi; cases hf; subst hi
        have := Cbor.loads_spelled h []
        rw [List.append_nil] at this
        exact key Cbor.codec (fun e he => by cases he) this
      · cases hf

/-- JSON payloads, in UTF-8, UTF-16 or UTF-32, with or without a byte order mark -/
theorem C103_encodings (e : Charset) (mark : Bool) (args : Option (List Value)) (kwargs : Option PyDict) (s : String)
    (h : JsonText (payloadValue args kwargs) s) :
    deserializePayload payloadCodecs 1 (e.encode mark s) = .ok (seenArgs args kwargs, kwargs) := by
  have hb := Json.loadsBytes_encode e mark h
  have hl : (e.encode mark s).length ≠ 0 := by
    intro h0
    rw [List.length_eq_zero_iff.1 h0] at hb
    cases hb
  show decodePayloadBytes Json.payloadCodec _ = _
  rw [decodePayloadBytes, if_neg hl]
  show (do let v ← Json.loadsBytes _; decodePayload v) = _
  rw [hb]
  show decodePayload _ = _
  cases args <;> cases kwargs <;> rfl

/-- `[["𝄞"]]` in UTF-16, the less significant byte first, after a mark; and in UTF-32, the most significant byte first -/
example : (Charset.utf16 false).encode true "[[\"𝄞\"]]" =
      [0xff, 0xfe, 0x5b, 0, 0x5b, 0, 0x22, 0, 0x34, 0xd8, 0x1e, 0xdd, 0x22, 0, 0x5d, 0, 0x5d, 0] ∧
    deserializePayload payloadCodecs 1 [0xff, 0xfe, 0x5b, 0, 0x5b, 0, 0x22, 0, 0x34, 0xd8, 0x1e, 0xdd, 0x22, 0, 0x5d, 0, 0x5d, 0] =
      .ok (some [.str "𝄞"], none) ∧
    deserializePayload payloadCodecs 1 [0, 0, 0, 0x5b, 0, 0, 0, 0x5b, 0, 0, 0, 0x22, 0, 1, 0xd1, 0x1e, 0, 0, 0, 0x22, 0, 0, 0, 0x5d, 0, 0, 0, 0x5d] =
      .ok (some [.str "𝄞"], none) := by
  decide +kernel

/-! The same call, `[48, 7, {}, "é", [-1, 0.5]]`, in unusual ways -/

/-- The values of the call -/
def odd : List Value := [.int 48, .int 7, .dict [], .str "é", .list [.int (-1), .float ⟨0x3fe0000000000000#64⟩]]

/-- CBOR with lists and strings in pieces, heads longer than needed, and a float of 16 bits -/
theorem odd_cbor : CborItem (.list odd) [0x9f, 0x18, 0x30, 0x19, 0x00, 0x07, 0xbf, 0xff, 0x7f, 0x62, 0xc3, 0xa9, 0x60, 0xff,
    0x98, 0x02, 0x38, 0x00, 0xf9, 0x38, 0x00, 0xff] := by
  have hs : CborStr "é" [0x7f, 0x62, 0xc3, 0xa9, 0x60, 0xff] :=
    .pieces [("é", [0x62]), ("", [0x60])] (by
      intro p hp
      simp only [List.mem_cons, List.not_mem_nil, or_false] at hp
      rcases hp with rfl | rfl <;> exact .short (by decide))
  have hf : SameFloat 5 10 (bigEndian [0x38, 0x00]) ⟨0x3fe0000000000000#64⟩ := by
    rw [show bigEndian [0x38, 0x00] = 0x3800 from rfl]
    refine .inl ⟨by unfold ShortFinite; decide, by unfold IsFinite; decide, ?_, by decide⟩
    rw [real, shortReal]
    norm_num
  have hl : CborItem (.list [.int (-1), .float ⟨0x3fe0000000000000#64⟩]) [0x98, 0x02, 0x38, 0x00, 0xf9, 0x38, 0x00] :=
    .list _ [0x98, 0x02] [0x38, 0x00, 0xf9, 0x38, 0x00] (.long 0 [2] (by decide) rfl rfl)
      (.cons _ _ [0x38, 0x00] _ (.negative 0 _ (.long 0 [0] (by decide) rfl rfl))
        (.cons _ _ [0xf9, 0x38, 0x00] _ (.float _ _ (.half _ rfl hf)) .nil))
  exact .openList odd [0x18, 0x30, 0x19, 0x00, 0x07, 0xbf, 0xff, 0x7f, 0x62, 0xc3, 0xa9, 0x60, 0xff, 0x98, 0x02, 0x38, 0x00, 0xf9, 0x38, 0x00]
    (.cons _ _ [0x18, 0x30] _ (.unsigned 48 _ (.long 0 [48] (by decide) rfl rfl))
      (.cons _ _ [0x19, 0x00, 0x07] _ (.unsigned 7 _ (.long 1 [0, 7] (by decide) rfl rfl))
        (.cons _ _ [0xbf, 0xff] _ (.openDict [] [] List.nodup_nil .nil)
          (.cons _ _ [0x7f, 0x62, 0xc3, 0xa9, 0x60, 0xff] _ (.str _ _ hs)
            (.cons _ _ [0x98, 0x02, 0x38, 0x00, 0xf9, 0x38, 0x00] _ hl .nil)))))

/-- MessagePack with every number wider than needed, and a float of 32 bits -/
theorem odd_msgpack : MsgPackItem (.list odd) [0xdc, 0x00, 0x05, 0xcd, 0x00, 0x30, 0xd1, 0x00, 0x07, 0xde, 0x00, 0x00, 0xd9, 0x02, 0xc3, 0xa9,
    0x92, 0xd1, 0xff, 0xff, 0xca, 0x3f, 0x00, 0x00, 0x00] := by
  have hf : SameFloat 8 23 (bigEndian [0x3f, 0x00, 0x00, 0x00]) ⟨0x3fe0000000000000#64⟩ := by
    rw [show bigEndian [0x3f, 0x00, 0x00, 0x00] = 0x3f000000 from rfl]
    refine .inl ⟨by unfold ShortFinite; decide, by unfold IsFinite; decide, ?_, by decide⟩
    rw [real, shortReal]
    norm_num
  have hm : MsgPackInt (-1) [0xd1, 0xff, 0xff] := by
    have := MsgPackInt.signed 1 [0xff, 0xff] (by decide) rfl
    rw [show (if bigEndian [0xff, 0xff] < 2 ^ (8 * 2 ^ 1 - 1) then ((bigEndian [0xff, 0xff] : Nat) : Int)
      else (bigEndian [0xff, 0xff] : Int) - 2 ^ (8 * 2 ^ 1)) = -1 by decide] at this
    exact this
  have h7 : MsgPackInt 7 [0xd1, 0x00, 0x07] := by
    have := MsgPackInt.signed 1 [0, 7] (by decide) rfl
    rw [show (if bigEndian [0, 7] < 2 ^ (8 * 2 ^ 1 - 1) then ((bigEndian [0, 7] : Nat) : Int)
      else (bigEndian [0, 7] : Int) - 2 ^ (8 * 2 ^ 1)) = 7 by decide] at this
    exact this
  have hl : MsgPackItem (.list [.int (-1), .float ⟨0x3fe0000000000000#64⟩]) [0x92, 0xd1, 0xff, 0xff, 0xca, 0x3f, 0x00, 0x00, 0x00] :=
    .list _ [0x92] [0xd1, 0xff, 0xff, 0xca, 0x3f, 0x00, 0x00, 0x00] (.short (by decide))
      (.cons _ _ [0xd1, 0xff, 0xff] _ (.int _ _ hm)
        (.cons _ _ [0xca, 0x3f, 0x00, 0x00, 0x00] _ (.single _ _ rfl hf) .nil))
  exact .list odd [0xdc, 0x00, 0x05] _ (.long 0xdc 2 [0, 5] (by decide) rfl rfl)
    (.cons _ _ [0xcd, 0x00, 0x30] _ (.int _ _ (.unsigned 1 [0, 0x30] (by decide) rfl))
      (.cons _ _ [0xd1, 0x00, 0x07] _ (.int _ _ h7)
        (.cons _ _ [0xde, 0x00, 0x00] _ (.dict [] [0xde, 0, 0] [] List.nodup_nil (.long 0xde 2 [0, 0] (by decide) rfl rfl) .nil)
          (.cons _ _ [0xd9, 0x02, 0xc3, 0xa9] _ (.str _ _ ⟨[0xd9, 2], .long 0xd9 1 [2] (by decide) rfl rfl, rfl⟩)
            (.cons _ _ [0x92, 0xd1, 0xff, 0xff, 0xca, 0x3f, 0x00, 0x00, 0x00] _ hl .nil)))))

/-- JSON with white space, a code instead of a character, and an exponent -/
theorem odd_json : JsonText (.list odd) " [48,7 ,{ }, \"\\u00E9\",[-1,5E-1]]\n" := by
  have b0 : Blank [] := by intro c hc; cases hc
  have b1 : Blank [' '] := by intro c hc; left; simpa using hc
  have bn : Blank ['\n'] := by intro c hc; right; right; left; simpa using hc
  have hs : JsonStr "é" "\"\\u00E9\"".toList :=
    ⟨"\\u00E9".toList, .cons 'é' [] ['\\', 'u', '0', '0', 'E', '9'] [] (.code _ (.mk _ 0 0 14 9 '0' '0' 'E' '9' ⟨by decide, by decide⟩ ⟨by decide, by decide⟩
      ⟨by decide, by decide⟩ ⟨by decide, by decide⟩ (by decide))) .nil, rfl⟩
  have hf : ReadAs ⟨false, 5, [], some ⟨true, some true, 1, []⟩⟩ ⟨0x3fe0000000000000#64⟩ := by
    have h1 := (Json.number_numeral ⟨false, 5, [], some ⟨true, some true, 1, []⟩⟩ (.inr (by simp)) (r := []) (by intro c hc; cases hc)).1
    have h2 : Json.number (Numeral.text ⟨false, 5, [], some ⟨true, some true, 1, []⟩⟩ ++ []) = .ok (.float ⟨0x3fe0000000000000#64⟩, []) := by
      decide +kernel
    rw [h2] at h1
    have h3 := Value.float.inj (Prod.mk.inj (Except.ok.inj h1)).1
    rw [h3]
    exact readAs_nearest _
  refine ⟨[' '], "[48,7 ,{ }, \"\\u00E9\",[-1,5E-1]]".toList, ['\n'], b1, ?_, bn, rfl⟩
  refine .list odd "48,7 ,{ }, \"\\u00E9\",[-1,5E-1]".toList ?_
  refine .more _ _ [] "48".toList [] "7 ,{ }, \"\\u00E9\",[-1,5E-1]".toList b0 (.int false 48) b0 ?_
  refine .more _ _ [] "7".toList [' '] "{ }, \"\\u00E9\",[-1,5E-1]".toList b0 (.int false 7) b1 ?_
  refine .more _ _ [] "{ }".toList [] " \"\\u00E9\",[-1,5E-1]".toList b0 (.emptyDict [' '] b1) b0 ?_
  refine .more _ _ [' '] "\"\\u00E9\"".toList [] "[-1,5E-1]".toList b1 (.str _ _ hs) b0 ?_
  refine .last _ [] "[-1,5E-1]".toList [] b0 ?_ b0
  refine .list _ "-1,5E-1".toList ?_
  refine .more _ _ [] "-1".toList [] "5E-1".toList b0 (.int true 1) b0 ?_
  exact .last _ [] "5E-1".toList [] b0 (.float ⟨false, 5, [], some ⟨true, some true, 1, []⟩⟩ _ (.inr (by simp)) hf) b0

/-- In every format the call arrives. -/
example : Cbor.codec.deserialize [0x9f, 0x18, 0x30, 0x19, 0x00, 0x07, 0xbf, 0xff, 0x7f, 0x62, 0xc3, 0xa9, 0x60, 0xff,
    0x98, 0x02, 0x38, 0x00, 0xf9, 0x38, 0x00, 0xff] =
      .ok (.call { requestId := 7, procedure := "é", args := some [.int (-1), .float ⟨0x3fe0000000000000#64⟩] }) :=
  C103_message .cbor (.call { requestId := 7, procedure := "é", args := some [.int (-1), .float ⟨0x3fe0000000000000#64⟩] })
    (by show IdOk _; decide) (.inr _) odd_cbor

example : MsgPack.codec.deserialize [0xdc, 0x00, 0x05, 0xcd, 0x00, 0x30, 0xd1, 0x00, 0x07, 0xde, 0x00, 0x00, 0xd9, 0x02, 0xc3, 0xa9,
    0x92, 0xd1, 0xff, 0xff, 0xca, 0x3f, 0x00, 0x00, 0x00] =
      .ok (.call { requestId := 7, procedure := "é", args := some [.int (-1), .float ⟨0x3fe0000000000000#64⟩] }) :=
  C103_message .msgpack (.call { requestId := 7, procedure := "é", args := some [.int (-1), .float ⟨0x3fe0000000000000#64⟩] })
    (by show IdOk _; decide) (.inr _) odd_msgpack

example : Json.codec.deserialize " [48,7 ,{ }, \"\\u00E9\",[-1,5E-1]]\n" =
      .ok (.call { requestId := 7, procedure := "é", args := some [.int (-1), .float ⟨0x3fe0000000000000#64⟩] }) :=
  C103_message .json (.call { requestId := 7, procedure := "é", args := some [.int (-1), .float ⟨0x3fe0000000000000#64⟩] })
    (by show IdOk _; decide) (.inl _) odd_json

/-- A payload `[[], {"a": 7}]` in pieces -/
example : deserializePayload payloadCodecs 3 [0x9f, 0x9f, 0xff, 0xbf, 0x61, 0x61, 0x07, 0xff, 0xff] = .ok (some [], some [(.str "a", .int 7)]) :=
  C103_payload 3 .cbor rfl (some []) (some [(.str "a", .int 7)]) _
    (.openList [.list [], .dict [(.str "a", .int 7)]] [0x9f, 0xff, 0xbf, 0x61, 0x61, 0x07, 0xff]
      (.cons _ _ [0x9f, 0xff] _ (.openList [] [] .nil)
        (.cons _ _ [0xbf, 0x61, 0x61, 0x07, 0xff] _
          (.openDict [(.str "a", .int 7)] [0x61, 0x61, 0x07] (by simp)
            (.cons "a" _ _ [0x61, 0x61] [0x07] _ (.whole "a" [0x61] (.short (by decide))) (.unsigned 7 _ (.short (by decide))) .nil))
          .nil)))

/-! ## C104 -/

/-- What is written is a way to write the value. -/
theorem C104_written (f : Format) (v : Value) (h : Fits f.limits v) : ∃ w, f.codec.dumps v = .ok w ∧ f.Spells v w := by
  cases f
  · refine ⟨.inl (String.ofList (Json.text v)), by simp [Format.codec, Json.dumps_fits v h, Except.map], ?_⟩
    exact ⟨[], Json.text v, [], Json.blank_nil, Json.conforms v h, Json.blank_nil, by simp⟩
  · exact ⟨.inr (MsgPack.pack v), by simp [Format.codec, MsgPack.dumps_fits v h, Except.map], MsgPack.conforms v h⟩
  · exact ⟨.inr (Cbor.encode v), by simp [Format.codec, Cbor.dumps_fits v h, Except.map], Cbor.conforms v h⟩

/-- What is sent for a message is a way to write its list. -/
theorem C104_message (f : Format) (m : Message) (h : Fits f.limits (.list m.marshal)) :
    ∃ w, f.codec.serialize m = .ok w ∧ f.Spells (.list m.marshal) w := C104_written f _ h

/-- Any program that reads what the standard allows, reads what was sent as the message: whatever `read` does with other data. -/
theorem C104_any_reader (f : Format) (m : Message) (h : Fits f.limits (.list m.marshal)) (read : String ⊕ Bytes → Option Value)
    (hr : ∀ v w, f.Spells v w → read w = some v) : ∃ w, f.codec.serialize m = .ok w ∧ read w = some (.list m.marshal) := by
  obtain ⟨w, h1, h2⟩ := C104_message f m h
  exact ⟨w, h1, hr _ _ h2⟩

/-- Binary payloads -/
theorem C104_payload (id : Int) (f : Format) (hf : formatOf id = some f) (args : Option (List Value)) (kwargs : Option PyDict)
    (h : Fits f.limits (payloadValue args kwargs)) :
    ∃ b, serializePayload payloadCodecs id args kwargs = .ok (some b) ∧ f.SpellsBytes (payloadValue args kwargs) b := by
  have hp : payloadValue args kwargs = .list (prepareForEncode args kwargs) := by cases args <;> cases kwargs <;> rfl
  unfold formatOf at hf
  split at hf
  · rename_i hi; cases hf; subst hi
    refine ⟨utf8 (String.ofList (Json.text (payloadValue args kwargs))), ?_, _, rfl, [], _, [], Json.blank_nil, Json.conforms _ h, Json.blank_nil, by simp⟩
    show (Json.dumpsBytes (.list (prepareForEncode args kwargs))).map some = _
    rw [← hp, Json.dumpsBytes, Json.dumps_fits _ h]; rfl
  · split at hf
    · rename_i hi; cases hf; subst hi
      refine ⟨_, ?_, MsgPack.conforms _ h⟩
      show (MsgPack.dumps (.list (prepareForEncode args kwargs))).map some = _
      rw [← hp, MsgPack.dumps_fits _ h]; rfl
    · split at hf
      · rename_i hi; cases hf; subst hi
        refine ⟨_, ?_, Cbor.conforms _ h⟩
        show (Cbor.dumps (.list (prepareForEncode args kwargs))).map some = _
        rw [← hp, Cbor.dumps_fits _ h]; rfl
      · cases hf

example (f : Format) : ∃ w, f.codec.serialize sample = .ok w ∧ f.Spells (.list sample.marshal) w := C104_message f sample (sample_fits f).2

/-- There is such a reader: the library itself. -/
example (f : Format) : ∃ read : String ⊕ Bytes → Option Value, ∀ v w, f.Spells v w → read w = some v :=
  ⟨fun w => (f.codec.loads w).toOption, fun v w h => by show (f.codec.loads w).toOption = _; rw [C103_read f v w h]; rfl⟩

end Wamp.Spec
