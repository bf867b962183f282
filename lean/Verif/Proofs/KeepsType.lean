import Verif.Spec.Connection
import Verif.Proofs.Arrives
import Verif.Proofs.Encodings
import Verif.Props.Wire
import Verif.Proofs.Hmac

/-! # What was written as WELCOME, ABORT or CHALLENGE is not read as something else -/

namespace Wamp.Spec

/-- The codes of the messages from a router during login -/
def LoginCode (k : Int) : Prop := k = 2 ∨ k = 3 ∨ k = 4

theorem readMany_head {item : Bytes → Except Exc (Value × Bytes)} {n : Nat} {r r' rest : Bytes} {v : Value} {l : List Value}
    (h : readMany item (n + 1) r = .ok (l, r')) (hi : item r = .ok (v, rest)) : ∃ l', l = v :: l' := by
  simp only [readMany, hi, bind, Except.bind] at h
  cases hm : readMany item n rest with
  | error e => rw [hm] at h; cases h
  | ok x => rw [hm] at h; cases h; exact ⟨x.1, rfl⟩

theorem msgpack_head {k : Int} (hk : LoginCode k) {vs : List Value} (hl : vs.length < 15) {b : Bytes} {v : Value}
    (h : MsgPack.dumps (.list (.int k :: vs)) = .ok b) (hr : MsgPack.loads b = .ok v) : ∃ vs', v = .list (.int k :: vs') := by
  have hb : b = MsgPack.pack (.list (.int k :: vs)) := by
    rw [MsgPack.dumps] at h
    cases hp : MsgPack.packable (.list (.int k :: vs)) with
    | error e => rw [hp] at h; cases h
    | ok u => rw [hp] at h; cases h; rfl
  have hb' : ∃ x : UInt8, x.toNat = k.toNat ∧ x.toNat < 128 ∧ (x.toNat : Int) = k ∧
      b = UInt8.ofNat (0x90 + (vs.length + 1)) :: x :: MsgPack.packList vs := by
    rw [hb]
    simp only [MsgPack.pack, MsgPack.packList, MsgPack.arrayHead, List.length_cons]
    rw [if_pos (by omega)]
    rcases hk with rfl | rfl | rfl
    · exact ⟨2, by decide, by decide, by decide, rfl⟩
    · exact ⟨3, by decide, by decide, by decide, rfl⟩
    · exact ⟨4, by decide, by decide, by decide, rfl⟩
  obtain ⟨x, hx, hx2, hx3, rfl⟩ := hb'
  have hh : (UInt8.ofNat (0x90 + (vs.length + 1))).toNat = 0x90 + (vs.length + 1) := by
    rw [UInt8.toNat_ofNat', Nat.mod_eq_of_lt (by omega)]
  have hi : MsgPack.unpack (x :: MsgPack.packList vs).length.succ (x :: MsgPack.packList vs) = .ok (.int k, MsgPack.packList vs) := by
    rw [MsgPack.unpack, MsgPack.unpackRest, if_pos hx2, hx3]
  unfold MsgPack.loads at hr
  rw [List.length_cons, MsgPack.unpack, hh, MsgPack.unpackRest, if_neg (by omega), if_neg (by omega), if_pos (by omega),
    show 0x90 + (vs.length + 1) - 0x90 = vs.length + 1 by omega, MsgPack.unpackArray] at hr
  cases hm : readMany (MsgPack.unpack ((x :: MsgPack.packList vs).length + 1)) (vs.length + 1) (x :: MsgPack.packList vs) with
  | error e => rw [hm] at hr; cases hr
  | ok y =>
    obtain ⟨l, r'⟩ := y
    obtain ⟨l', rfl⟩ := readMany_head hm hi
    rw [hm] at hr
    simp only [bind, Except.bind] at hr
    cases r' with
    | nil => cases hr; exact ⟨l', rfl⟩
    | cons => cases hr

theorem cbor_head {k : Int} (hk : LoginCode k) {vs : List Value} (hl : vs.length < 15) {b : Bytes} {v : Value}
    (h : Cbor.dumps (.list (.int k :: vs)) = .ok b) (hr : Cbor.loads b = .ok v) : ∃ vs', v = .list (.int k :: vs') := by
  have hb : b = Cbor.encode (.list (.int k :: vs)) := by
    rw [Cbor.dumps] at h
    cases hp : Cbor.encodable (.list (.int k :: vs)) with
    | error e => rw [hp] at h; cases h
    | ok u => rw [hp] at h; cases h; rfl
  have hb' : ∃ x : UInt8, x.toNat < 24 ∧ (x.toNat : Int) = k ∧
      b = UInt8.ofNat (4 * 32 + (vs.length + 1)) :: x :: Cbor.encodeList vs := by
    rw [hb]
    simp only [Cbor.encode, Cbor.encodeList, Cbor.head, List.length_cons]
    rw [if_pos (by omega)]
    rcases hk with rfl | rfl | rfl
    · exact ⟨2, by decide, by decide, rfl⟩
    · exact ⟨3, by decide, by decide, rfl⟩
    · exact ⟨4, by decide, by decide, rfl⟩
  obtain ⟨x, hx, hx3, rfl⟩ := hb'
  have hh : (UInt8.ofNat (4 * 32 + (vs.length + 1))).toNat = 4 * 32 + (vs.length + 1) := by
    rw [UInt8.toNat_ofNat', Nat.mod_eq_of_lt (by omega)]
  have hi : Cbor.decode (x :: Cbor.encodeList vs).length.succ (x :: Cbor.encodeList vs) = .ok (.int k, Cbor.encodeList vs) := by
    rw [Cbor.decode, Cbor.decodeRest, if_neg (by omega), if_neg (by omega), Cbor.argument, if_pos (by omega)]
    simp only [bind, Except.bind]
    rw [Cbor.decodeBody, if_pos (by omega), Nat.mod_eq_of_lt (by omega), hx3]
  unfold Cbor.loads at hr
  rw [List.length_cons, Cbor.decode, hh, Cbor.decodeRest, if_neg (by omega), if_neg (by omega), Cbor.argument, if_pos (by omega)] at hr
  simp only [bind, Except.bind] at hr
  rw [Cbor.decodeBody, if_neg (by omega), if_neg (by omega), if_neg (by omega), if_neg (by omega), if_pos (by omega),
    show (4 * 32 + (vs.length + 1)) % 32 = vs.length + 1 by omega, Cbor.decodeArray] at hr
  cases hm : readMany (Cbor.decode ((x :: Cbor.encodeList vs).length + 1)) (vs.length + 1) (x :: Cbor.encodeList vs) with
  | error e => rw [hm] at hr; cases hr
  | ok y =>
    obtain ⟨l, r'⟩ := y
    obtain ⟨l', rfl⟩ := readMany_head hm hi
    rw [hm] at hr
    cases hr
    exact ⟨l', rfl⟩

theorem json_head {k : Int} (hk : LoginCode k) {vs : List Value} {b : Bytes} {v : Value}
    (h : Json.dumpsBytes (.list (.int k :: vs)) = .ok b) (hr : Json.loadsBytes b = .ok v) : ∃ vs', v = .list (.int k :: vs') := by
  unfold Json.dumpsBytes at h
  cases hd : Json.dumps (.list (.int k :: vs)) with
  | error e => rw [hd] at h; cases h
  | ok s =>
    rw [hd] at h; cases h
    obtain ⟨hj, rfl⟩ := (Json.dumps_iff _ _).1 hd
    have ht : ∃ (y : UInt8) (r : Bytes), y ≠ 0 ∧ utf8 (String.ofList (Json.text (.list (.int k :: vs)))) = 0x5b :: y :: r := by
      rw [Hmac.utf8_flatMap, String.toList_ofList]
      rcases hk with rfl | rfl | rfl
      · exact ⟨0x32, (Json.textTail vs).flatMap String.utf8EncodeChar, by decide, by
          rw [Json.text, Json.text, show Json.integer 2 = ['2'] by decide +kernel]; rfl⟩
      · exact ⟨0x33, (Json.textTail vs).flatMap String.utf8EncodeChar, by decide, by
          rw [Json.text, Json.text, show Json.integer 3 = ['3'] by decide +kernel]; rfl⟩
      · exact ⟨0x34, (Json.textTail vs).flatMap String.utf8EncodeChar, by decide, by
          rw [Json.text, Json.text, show Json.integer 4 = ['4'] by decide +kernel]; rfl⟩
    obtain ⟨y, r, hy, e⟩ := ht
    have hdet : detectEncoding (0x5b :: y :: r) = .utf8 := by
      match r with
      | [] => simp [detectEncoding, startsWith, hy]
      | [z] => simp [detectEncoding, startsWith]
      | z :: w :: r => simp [detectEncoding, startsWith, hy]
    unfold Json.loadsBytes at hr
    rw [e, hdet, ← e, decodeWith, ofUtf8_utf8] at hr
    simp only [Json.loads_arrives _ hj] at hr
    cases hr
    exact ⟨jsonArrivesList vs, by rw [jsonArrives, jsonArrivesList, jsonArrives]⟩

theorem wire_head (f : Format) {k : Int} (hk : LoginCode k) {vs : List Value} (hl : vs.length < 15) {b : Bytes} {v : Value}
    (h : f.wire.dumps (.list (.int k :: vs)) = .ok b) (hr : f.wire.loads b = .ok v) : ∃ vs', v = .list (.int k :: vs') := by
  cases f
  · exact json_head hk h hr
  · exact msgpack_head hk hl h hr
  · exact cbor_head hk hl h hr

theorem wire_code (f : Format) {m m' : Message} {b : Bytes} (hk : LoginCode (code m))
    (h : f.wire.serialize m = .ok b) (hr : f.wire.deserialize b = .ok m') : code m' = code m := by
  have hm : ∃ vs, m.marshal = .int (code m) :: vs ∧ vs.length < 15 := by
    cases m <;> simp [LoginCode, code] at hk
    all_goals exact ⟨_, rfl, by simp⟩
  obtain ⟨vs, hvs, hlen⟩ := hm
  unfold Codec.serialize at h
  rw [hvs] at h
  unfold Codec.deserialize at hr
  cases hv : f.wire.loads b with
  | error e => rw [hv] at hr; cases hr
  | ok v =>
    rw [hv] at hr
    obtain ⟨vs', rfl⟩ := wire_head f hk hlen h hv
    change toMessage (.list (.int (code m) :: vs')) = .ok m' at hr
    obtain ⟨t, elems, e, hc⟩ := C08_dispatch _ _ hr
    cases e
    have := (isCode_iff _ _ (by cases m' <;> simp [code])).1 hc
    obtain ⟨n, hn, hc⟩ := this
    cases n with
    | int i => cases hn; exact hc.symm
    | bool b => cases hn

/-- What was written as a WELCOME is read as one. -/
theorem wire_welcome (f : Format) {w : Welcome} {m : Message} {b : Bytes} (h : f.wire.serialize (.welcome w) = .ok b)
    (hr : f.wire.deserialize b = .ok m) : ∃ w', m = .welcome w' := by
  have := wire_code f (.inl rfl) h hr
  cases m <;> simp [code] at this
  exact ⟨_, rfl⟩

/-- What was written as an ABORT or a CHALLENGE is not read as WELCOME. -/
theorem wire_not_welcome (f : Format) {m : Message} {b : Bytes} (hm : (∃ a, m = .abort a) ∨ ∃ c, m = .challenge c)
    (h : f.wire.serialize m = .ok b) (w : Welcome) : f.wire.deserialize b ≠ .ok (.welcome w) := by
  intro hr
  rcases hm with ⟨a, rfl⟩ | ⟨a, rfl⟩
  · have := wire_code f (.inr (.inl rfl)) h hr
    simp [code] at this
  · have := wire_code f (.inr (.inr rfl)) h hr
    simp [code] at this

end Wamp.Spec
