import Verif.Model.Serializer
import Verif.Props.Wire

/-! # Serializers and payload encoding, C10–C12

The codec law used as a hypothesis: `Restores c v` — if the codec encodes `v`, the encoding is not empty and decodes
to `v` again. -/

namespace Wamp
open Spec

/-- The external codec `c` restores the value `v`. -/
def Spec.Restores {W : Type} (c : Codec W) (v : Value) : Prop := ∀ w, c.dumps v = .ok w → c.loads w = .ok v

/-- The value a payload should be encoded as. -/
def Spec.payloadValue : Option (List Value) → Option PyDict → Value
  | none, none => .list []
  | some a, none => .list [.list a]
  | some a, some k => .list [.list a, .dict k]
  | none, some k => .list [.list [], .dict k]

/-! ## C10 — serializer round trip -/

/-- `serialize` then `deserialize` with any codec that restores the marshalled list: the peer gets the message. -/
theorem C10_serializer_round_trip {W : Type} (c : Codec W) (m : Message) (hv : Valid m) (hp : Plain m)
    (hr : Restores c (.list m.marshal)) (w : W) (h : c.serialize m = .ok w) : c.deserialize w = .ok (seen m) := by
  simp only [Codec.deserialize, hr w h, bind, Except.bind]
  exact C01_wire_round_trip m hv hp

/-- The same for every valid message, plain or not. -/
theorem C10_serializer_received {W : Type} (c : Codec W) (m : Message) (hv : Valid m)
    (hr : Restores c (.list m.marshal)) (w : W) (h : c.serialize m = .ok w) : c.deserialize w = .ok (received m) := by
  simp only [Codec.deserialize, hr w h, bind, Except.bind]
  exact C01_received m hv

/-- Whatever the bytes, a message that `deserialize` returns is valid. -/
theorem C10_deserialize_valid {W : Type} (c : Codec W) (w : W) (m : Message) (h : c.deserialize w = .ok m) : Valid m := by
  simp only [Codec.deserialize, bind, Except.bind] at h
  split at h
  · cases h
  · exact (C04_parse_soundness _ m h).1

/-- Failures of the codec and of the parser are passed on, nothing else is raised. -/
theorem C10_deserialize_errors {W : Type} (c : Codec W) (w : W) (e : Exc) :
    c.deserialize w = .error e ↔ c.loads w = .error e ∨ ∃ v, c.loads w = .ok v ∧ toMessage v = .error e := by
  simp only [Codec.deserialize, bind, Except.bind]
  cases h : c.loads w <;> simp

/-- A codec that restores everything: the identity. -/
def exampleCodec : Codec Value := ⟨.ok, .ok⟩
example : Restores exampleCodec (.list (Message.call ⟨7, "p", some [.int 1], none, [], none, none, false⟩).marshal) ∧
    ∃ w, exampleCodec.serialize (.call ⟨7, "p", some [.int 1], none, [], none, none, false⟩) = .ok w :=
  ⟨by intro w h; cases h; rfl, _, rfl⟩

/-! ## C11 — payload round trip -/

/-- The codec each serializer id selects. -/
def Spec.codecFor (cs : Codecs) (id : Int) : Option (Codec Bytes) :=
  if id = 1 then some cs.json else if id = 2 then some cs.msgpack else if id = 3 then some cs.cbor else none

theorem prepareForEncode_eq (args kwargs) : Value.list (prepareForEncode args kwargs) = payloadValue args kwargs := by
  cases args <;> cases kwargs <;> rfl

theorem serializePayload_codec (cs : Codecs) (id : Int) (c : Codec Bytes) (hc : codecFor cs id = some c) (args kwargs) :
    serializePayload cs id args kwargs = (c.dumps (payloadValue args kwargs)).map some := by
  unfold codecFor at hc
  unfold serializePayload
  split at hc
  · cases hc; subst id
    simp [NONE_SERIALIZER_ID, JSON_SERIALIZER_ID, encodePayload, prepareForEncode_eq]
  · split at hc
    · cases hc; subst id
      simp [NONE_SERIALIZER_ID, JSON_SERIALIZER_ID, CBOR_SERIALIZER_ID, MSGPACK_SERIALIZER_ID, encodePayload, prepareForEncode_eq]
    · split at hc
      · cases hc; subst id
        simp [NONE_SERIALIZER_ID, JSON_SERIALIZER_ID, CBOR_SERIALIZER_ID, encodePayload, prepareForEncode_eq]
      · cases hc

theorem deserializePayload_codec (cs : Codecs) (id : Int) (c : Codec Bytes) (hc : codecFor cs id = some c) (b : Bytes) :
    deserializePayload cs id b = decodePayloadBytes c b := by
  unfold codecFor at hc
  unfold deserializePayload
  split at hc
  · cases hc; subst id
    simp [NONE_SERIALIZER_ID, JSON_SERIALIZER_ID]
  · split at hc
    · cases hc; subst id
      simp [NONE_SERIALIZER_ID, JSON_SERIALIZER_ID, CBOR_SERIALIZER_ID, MSGPACK_SERIALIZER_ID]
    · split at hc
      · cases hc; subst id
        simp [NONE_SERIALIZER_ID, JSON_SERIALIZER_ID, CBOR_SERIALIZER_ID]
      · cases hc

theorem decodePayload_payloadValue (args : Option (List Value)) (kwargs : Option PyDict) :
    decodePayload (payloadValue args kwargs) = .ok (seenArgs args kwargs, kwargs) := by
  cases args <;> cases kwargs <;> rfl

/-- The bytes sent are the selected codec's encoding of `[args, kwargs]` (trailing absent parts left out), and decode to
the same `args` and `kwargs`. -/
theorem C11_payload_round_trip (cs : Codecs) (id : Int) (c : Codec Bytes) (hc : codecFor cs id = some c)
    (args : Option (List Value)) (kwargs : Option PyDict) (b : Bytes) (hb : c.dumps (payloadValue args kwargs) = .ok b)
    (hne : b ≠ []) (hr : c.loads b = .ok (payloadValue args kwargs)) :
    serializePayload cs id args kwargs = .ok (some b) ∧
    deserializePayload cs id b = .ok (seenArgs args kwargs, kwargs) := by
  refine ⟨by rw [serializePayload_codec cs id c hc, hb]; rfl, ?_⟩
  rw [deserializePayload_codec cs id c hc]
  have : b.length ≠ 0 := by simpa using hne
  simp [decodePayloadBytes, this, hr, bind, Except.bind, decodePayload_payloadValue]

/-- Encoding fails only if the codec does, with the codec's exception. -/
theorem C11_encode_error (cs : Codecs) (id : Int) (c : Codec Bytes) (hc : codecFor cs id = some c)
    (args : Option (List Value)) (kwargs : Option PyDict) (e : Exc) :
    serializePayload cs id args kwargs = .error e ↔ c.dumps (payloadValue args kwargs) = .error e := by
  rw [serializePayload_codec cs id c hc]
  cases c.dumps (payloadValue args kwargs) <;> simp [Except.map]

/-- The NONE serializer passes a single `bytes` through, and refuses everything else except "no payload at all". -/
theorem C11_none_serializer (cs : Codecs) (args : Option (List Value)) (kwargs : Option PyDict) :
    (∀ b, serializePayload cs 0 args kwargs = .ok (some b) ↔ args = some [.bytes b] ∧ (kwargs = none ∨ kwargs = some [])) ∧
    (serializePayload cs 0 args kwargs = .ok none ↔ args = none ∧ kwargs = none) ∧
    (∀ e, serializePayload cs 0 args kwargs = .error e → (∃ s, e = .valueError s) ∨ ∃ s, e = .typeError s) ∧
    (∀ b, deserializePayload cs 0 b = .ok (some [.bytes b], some [])) := by
  refine ⟨fun b => ?_, ?_, fun e => ?_, fun b => rfl⟩
  all_goals
    unfold serializePayload
    simp only [NONE_SERIALIZER_ID, if_true]
    cases args with
    | none => cases kwargs <;> simp +contextual <;> (try (rintro rfl; simp))
    | some a =>
      simp only
      split
      · rename_i h
        simp only [reduceCtorEq, false_iff, Except.error.injEq, Option.some.injEq]
        first
        | (rintro rfl; exact .inl ⟨_, rfl⟩)
        | (rintro ⟨h1, h2⟩; cases h1; done)
        | (rintro ⟨rfl, rfl | rfl⟩ <;> simp at h)
      · rename_i h
        have h1 : a.length = 1 := by by_cases h' : a.length = 1; exact h'; exact absurd (.inl h') h
        have h2 : kwargs = none ∨ kwargs = some [] := by
          cases kwargs with
          | none => simp
          | some k => right; by_cases h' : k = []; rw [h']; exact absurd (.inr h') h
        match a, h1 with
        | [v], _ => cases v <;> simp +contextual [h2] <;> (try (rintro rfl; simp))

/-- What the NONE serializer says to other arguments -/
theorem C11_none_refuses (cs : Codecs) (a : List Value) (kwargs : Option PyDict) :
    (a.length ≠ 1 ∨ (∃ k, k ≠ [] ∧ kwargs = some k) →
      serializePayload cs 0 (some a) kwargs = .error (.valueError "serializer 0 requires exactly 1 arg")) ∧
    (∀ v, a = [v] → (∀ b, v ≠ .bytes b) → kwargs = none ∨ kwargs = some [] →
      serializePayload cs 0 (some a) kwargs = .error (.typeError "serializer 0 requires bytes")) := by
  constructor
  · intro h
    have : a.length ≠ 1 ∨ kwargs.getD [] ≠ [] := by
      rcases h with h | ⟨k, h, rfl⟩
      · exact .inl h
      · exact .inr h
    simp only [serializePayload, NONE_SERIALIZER_ID, if_true]
    rw [if_pos this]; rfl
  · rintro v rfl hv h
    have hk : ¬ ([v].length ≠ 1 ∨ kwargs.getD [] ≠ []) := by rcases h with rfl | rfl <;> simp
    simp only [serializePayload, NONE_SERIALIZER_ID, if_true]
    rw [if_neg hk]
    cases v with
    | bytes b => exact absurd rfl (hv b)
    | _ => rfl

example (cs : Codecs) : serializePayload cs 0 (some [.int 1]) none = .error (.typeError "serializer 0 requires bytes") ∧
    serializePayload cs 0 (some [.bytes [1], .none]) none = .error (.valueError "serializer 0 requires exactly 1 arg") :=
  ⟨(C11_none_refuses cs _ _).2 _ rfl (by simp) (.inl rfl), (C11_none_refuses cs _ _).1 (.inl (by simp))⟩

/-- Unknown serializer ids are refused with `ValueError` in both directions. -/
theorem C11_unknown_serializer (cs : Codecs) (id : Int) (h : id < 0 ∨ 3 < id) :
    (∀ args kwargs, serializePayload cs id args kwargs = .error (.valueError ("serializer " ++ toString id ++ " not recognized"))) ∧
    (∀ b, deserializePayload cs id b = .error (.valueError ("serializer " ++ toString id ++ " not recognized"))) := by
  have h0 : id ≠ NONE_SERIALIZER_ID := by unfold NONE_SERIALIZER_ID; omega
  have h1 : id ≠ JSON_SERIALIZER_ID := by unfold JSON_SERIALIZER_ID; omega
  have h2 : id ≠ CBOR_SERIALIZER_ID := by unfold CBOR_SERIALIZER_ID; omega
  have h3 : id ≠ MSGPACK_SERIALIZER_ID := by unfold MSGPACK_SERIALIZER_ID; omega
  exact ⟨fun _ _ => by simp only [serializePayload, if_neg h0, if_neg h1, if_neg h2, if_neg h3]; rfl,
    fun _ => by simp only [deserializePayload, if_neg h0, if_neg h1, if_neg h2, if_neg h3]; rfl⟩

/-- Hypotheses of the round trip are met, e.g. by a codec that knows one value. -/
example : ∃ (cs : Codecs) (c : Codec Bytes) (b : Bytes), codecFor cs 3 = some c ∧
    c.dumps (payloadValue (some [.int 1]) (some [(.str "k", .none)])) = .ok b ∧ b ≠ [] ∧
    c.loads b = .ok (payloadValue (some [.int 1]) (some [(.str "k", .none)])) :=
  let c : Codec Bytes := ⟨fun _ => .ok [1], fun _ => .ok (payloadValue (some [.int 1]) (some [(.str "k", .none)]))⟩
  ⟨⟨c, c, c⟩, c, [1], rfl, rfl, by simp, rfl⟩

/-! ## C12 — malformed payload values -/

/-- A decoded list is accepted exactly if it is `[]`, `[list]` or `[list, dict]`, and yields exactly its elements. -/
theorem C12_payload_accepted (xs : List Value) (a : Option (List Value)) (k : Option PyDict) :
    decodePayload (.list xs) = .ok (a, k) ↔
      (xs = [] ∧ a = none ∧ k = none) ∨ (∃ l, xs = [.list l] ∧ a = some l ∧ k = none) ∨
      (∃ l d, xs = [.list l, .dict d] ∧ a = some l ∧ k = some d) := by
  match xs with
  | [] =>
    show Except.ok (none, none) = Except.ok (a, k) ↔ _
    simp only [Except.ok.injEq, Prod.mk.injEq, true_and, reduceCtorEq, false_and, exists_false, or_false]
    constructor <;> rintro ⟨rfl, rfl⟩ <;> exact ⟨rfl, rfl⟩
  | [v] =>
    cases v with
    | list l =>
      show Except.ok (some l, none) = Except.ok (a, k) ↔ _
      simp only [Except.ok.injEq, Prod.mk.injEq]
      constructor
      · rintro ⟨rfl, rfl⟩; exact .inr (.inl ⟨l, rfl, rfl, rfl⟩)
      · rintro (⟨h, -⟩ | ⟨_, h, rfl, rfl⟩ | ⟨_, _, h, -⟩) <;> cases h
        exact ⟨rfl, rfl⟩
    | _ => show Except.error _ = _ ↔ _; simp
  | [v, w] =>
    cases v with
    | list l =>
      cases w with
      | dict d =>
        show Except.ok (some l, some d) = Except.ok (a, k) ↔ _
        simp only [Except.ok.injEq, Prod.mk.injEq]
        constructor
        · rintro ⟨rfl, rfl⟩; exact .inr (.inr ⟨l, d, rfl, rfl, rfl⟩)
        · rintro (⟨h, -⟩ | ⟨_, h, -⟩ | ⟨_, _, h, rfl, rfl⟩) <;> cases h
          exact ⟨rfl, rfl⟩
      | _ => show Except.error _ = _ ↔ _; simp
    | _ => show Except.error _ = _ ↔ _; simp
  | _ :: _ :: _ :: _ =>
    simp [decodePayload, pyLen, bind, Except.bind, throw, throwThe, MonadExceptOf.throw]

/-- Every other decoded list raises `ValueError` or `TypeError`. -/
theorem C12_payload_rejected (xs : List Value) (e : Exc) (h : decodePayload (.list xs) = .error e) :
    (∃ s, e = .valueError s) ∨ ∃ s, e = .typeError s := by
  match xs with
  | [] => cases h
  | [v] => cases v <;> cases h <;> exact .inr ⟨_, rfl⟩
  | [v, w] => cases v <;> cases w <;> cases h <;> exact .inr ⟨_, rfl⟩
  | _ :: _ :: _ :: _ =>
    simp [decodePayload, pyLen, bind, Except.bind, throw, throwThe, MonadExceptOf.throw] at h
    exact .inl ⟨_, h.symm⟩

/-- Beyond the claim: a decoded dict is not refused as such.  `{0: [...]}` is taken for a list, and a one-element dict
without key 0 raises `KeyError`. -/
theorem C12_dict_payload :
    decodePayload (.dict [(.int 0, .list [.int 5])]) = .ok (some [.int 5], none) ∧
    decodePayload (.dict [(.str "a", .int 5)]) = .error .keyError := by decide

/-- Beyond the claim: anything that is neither a list, nor a dict, nor empty is refused. -/
theorem C12_other_values (v : Value) (hl : ∀ xs, v ≠ .list xs) (hd : ∀ d, v ≠ .dict d) (hs : v ≠ .str "") (hb : v ≠ .bytes []) :
    (∃ s, decodePayload v = .error (.valueError s)) ∨ ∃ s, decodePayload v = .error (.typeError s) := by
  cases v with
  | list xs => exact absurd rfl (hl xs)
  | dict d => exact absurd rfl (hd d)
  | str s =>
    have h0 : s.length ≠ 0 := by intro h; apply hs; rw [String.length_eq_zero_iff.1 h]
    by_cases h2 : s.length > 2
    · left; exact ⟨_, by simp only [decodePayload, pyLen, bind, Except.bind, if_neg h0, if_pos h2, throw, throwThe, MonadExceptOf.throw]; rfl⟩
    · right
      have hlen : 0 < s.toList.length := by rw [String.length_toList]; omega
      exact ⟨"args element is not list", by
        simp only [decodePayload, pyLen, bind, Except.bind, if_neg h0, if_neg h2, throw, throwThe, MonadExceptOf.throw,
          pyIndex, List.getElem?_eq_getElem hlen]⟩
  | bytes b =>
    have h0 : b.length ≠ 0 := by intro h; apply hb; rw [List.length_eq_zero_iff.1 h]
    by_cases h2 : b.length > 2
    · left; exact ⟨_, by simp only [decodePayload, pyLen, bind, Except.bind, if_neg h0, if_pos h2, throw, throwThe, MonadExceptOf.throw]; rfl⟩
    · right
      have hlen : 0 < b.length := by omega
      exact ⟨"args element is not list", by
        simp only [decodePayload, pyLen, bind, Except.bind, if_neg h0, if_neg h2, throw, throwThe, MonadExceptOf.throw,
          pyIndex, List.getElem?_eq_getElem hlen]⟩
  | _ => right; exact ⟨"object has no len()", rfl⟩

example : decodePayload (.list [.list [.int 1], .dict []]) = .ok (some [.int 1], some []) := rfl
example : decodePayload (.list [.int 1]) = .error (.typeError "args element is not list") := rfl

end Wamp
