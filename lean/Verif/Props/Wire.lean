import Verif.Proofs.ToMessage

/-!
# Wire format properties C01–C09

Statements use `toMessage` (the library's `to_message`), `Message.marshal` and the vocabulary of `Spec/Wire.lean`.
-/

set_option linter.unusedSimpArgs false

namespace Wamp
open Spec

/-! ## C01 — wire round trip -/

/-- Exactly what the receiver of any valid message sees. -/
theorem C01_received (m : Message) (hv : Valid m) : toMessage (.list m.marshal) = .ok (received m) := by
  have hsafe : ∀ (a : Option (List Value)) (k : Option PyDict), payloadTail a k = payloadTail (seenArgs a k) k := by
    intro a k; cases a <;> cases k <;> rfl
  have hkw : ∀ (a : Option (List Value)) (k : Option PyDict), k.isSome = true → (seenArgs a k).isSome = true := by
    intro a k; cases a <;> cases k <;> simp [seenArgs]
  cases m <;> (try simp only [Valid, IdOk] at hv)
  case hello m =>
    obtain ⟨realm, roles, authid, am, ae⟩ := m
    refine toMessage_of_parseAs (n := .int 1) rfl rfl ?_
    simp only [parseAs, received, seen, Hello.parse_ok]
    refine ⟨_, Hello.detailsDict ⟨realm, roles, authid, am, ae⟩, none, rfl, rfl, ?_, hv.1, hv.2, ?_⟩
    all_goals cases authid <;> cases am <;> cases ae <;>
      simp [Hello.detailsDict, PyDict.getD, PyDict.get?, optVal]
  case welcome m =>
    obtain ⟨sid, roles, authid, ar, am, ae⟩ := m
    refine toMessage_of_parseAs (n := .int 2) rfl rfl ?_
    simp only [parseAs, received, seen, Welcome.parse_ok]
    refine ⟨_, Welcome.detailsDict ⟨sid, roles, authid, ar, am, ae⟩, some ae, rfl, rfl, hv.1, ?_, hv.2.1, hv.2.2, ?_⟩
    all_goals cases authid <;> cases am <;> cases ar <;>
      simp [Welcome.detailsDict, PyDict.getD, PyDict.get?, optVal]
  case abort m =>
    obtain ⟨d, r, a, k⟩ := m
    exact toMessage_of_parseAs (n := .int 3) rfl rfl
      ((Abort.parse_ok _ _).2 ⟨_, _, _, none, none, rfl, by simp, rfl, rfl⟩)
  case challenge m =>
    exact toMessage_of_parseAs (n := .int 4) rfl rfl ((Challenge.parse_ok _ _).2 ⟨_, _, _, rfl, rfl, rfl⟩)
  case authenticate m =>
    exact toMessage_of_parseAs (n := .int 5) rfl rfl ((Authenticate.parse_ok _ _).2 ⟨_, _, _, rfl, rfl, rfl⟩)
  case goodbye m =>
    exact toMessage_of_parseAs (n := .int 6) rfl rfl ((Goodbye.parse_ok _ _).2 ⟨_, _, _, rfl, rfl, rfl⟩)
  case call m =>
    obtain ⟨r, p, a, k, o, s, pl, b⟩ := m
    refine toMessage_of_parseAs (n := .int 48) rfl rfl ((Call.parse_ok _ _).2 ⟨.int 48, _, _, _, _, _, ?_, hkw a k, rfl, hv, rfl⟩)
    cases s <;> (simp [Message.marshal, ← hsafe]; constructor <;> rfl)
  case invocation m =>
    obtain ⟨r, p, a, k, o, s, pl, b⟩ := m
    refine toMessage_of_parseAs (n := .int 68) rfl rfl
      ((Invocation.parse_ok _ _).2 ⟨.int 68, _, _, _, _, _, ?_, hkw a k, rfl, hv.1, hv.2, rfl⟩)
    cases s <;> (simp [Message.marshal, ← hsafe]; constructor <;> rfl)
  case yield_ m =>
    obtain ⟨r, a, k, o, pl, s, b⟩ := m
    refine toMessage_of_parseAs (n := .int 70) rfl rfl ((Yield.parse_ok _ _).2 ⟨.int 70, _, _, _, _, ?_, hkw a k, rfl, hv, rfl⟩)
    cases s <;> (simp [Message.marshal, ← hsafe]; constructor <;> rfl)
  case result m =>
    obtain ⟨r, a, k, o, pl, s, b⟩ := m
    refine toMessage_of_parseAs (n := .int 50) rfl rfl ((Result.parse_ok _ _).2 ⟨.int 50, _, _, _, _, ?_, hkw a k, rfl, hv, rfl⟩)
    cases s <;> (simp [Message.marshal, ← hsafe]; constructor <;> rfl)
  case register m =>
    exact toMessage_of_parseAs (n := .int 64) rfl rfl ((Register.parse_ok _ _).2 ⟨_, _, _, _, rfl, rfl, hv, rfl⟩)
  case registered m =>
    exact toMessage_of_parseAs (n := .int 65) rfl rfl ((Registered.parse_ok _ _).2 ⟨_, _, _, rfl, rfl, hv.1, hv.2, rfl⟩)
  case unregister m =>
    exact toMessage_of_parseAs (n := .int 66) rfl rfl ((Unregister.parse_ok _ _).2 ⟨_, _, _, rfl, rfl, hv.1, hv.2, rfl⟩)
  case unregistered m =>
    exact toMessage_of_parseAs (n := .int 67) rfl rfl ((Unregistered.parse_ok _ _).2 ⟨_, _, rfl, rfl, hv, rfl⟩)
  case subscribe m =>
    exact toMessage_of_parseAs (n := .int 32) rfl rfl ((Subscribe.parse_ok _ _).2 ⟨_, _, _, _, rfl, rfl, hv, rfl⟩)
  case subscribed m =>
    exact toMessage_of_parseAs (n := .int 33) rfl rfl ((Subscribed.parse_ok _ _).2 ⟨_, _, _, rfl, rfl, hv.1, hv.2, rfl⟩)
  case unsubscribe m =>
    exact toMessage_of_parseAs (n := .int 34) rfl rfl ((Unsubscribe.parse_ok _ _).2 ⟨_, _, _, rfl, rfl, hv.1, hv.2, rfl⟩)
  case unsubscribed m =>
    exact toMessage_of_parseAs (n := .int 35) rfl rfl ((Unsubscribed.parse_ok _ _).2 ⟨_, _, rfl, rfl, hv, rfl⟩)
  case publish m =>
    obtain ⟨r, t, a, k, o⟩ := m
    refine toMessage_of_parseAs (n := .int 16) rfl rfl
      ((Publish.parse_ok _ _).2 ⟨.int 16, _, _, _, _, _, ?_, hkw a k, rfl, hv, rfl⟩)
    simp [Message.marshal, ← hsafe]; rfl
  case published m =>
    exact toMessage_of_parseAs (n := .int 17) rfl rfl ((Published.parse_ok _ _).2 ⟨_, _, _, rfl, rfl, hv.1, hv.2, rfl⟩)
  case event m =>
    obtain ⟨r, t, a, k, o⟩ := m
    refine toMessage_of_parseAs (n := .int 36) rfl rfl
      ((Event.parse_ok _ _).2 ⟨.int 36, _, _, _, _, _, ?_, hkw a k, rfl, hv.1, hv.2, rfl⟩)
    simp [Message.marshal, ← hsafe]; rfl
  case error m =>
    obtain ⟨mt, r, u, a, k, o⟩ := m
    refine toMessage_of_parseAs (n := .int 8) rfl rfl
      ((ErrorMsg.parse_ok _ _).2 ⟨.int 8, _, _, _, _, _, _, ?_, hkw a k, rfl, hv, rfl⟩)
    simp [Message.marshal, ← hsafe]; rfl
  case cancel m =>
    exact toMessage_of_parseAs (n := .int 49) rfl rfl ((Cancel.parse_ok _ _).2 ⟨_, _, _, rfl, rfl, hv, rfl⟩)
  case interrupt m =>
    exact toMessage_of_parseAs (n := .int 69) rfl rfl ((Interrupt.parse_ok _ _).2 ⟨_, _, _, rfl, rfl, hv, rfl⟩)

/-- Marshalling any valid message of any of the 24 classes and parsing the list back gives the message itself, up
to `args = []` when only `kwargs` was given. -/
theorem C01_wire_round_trip (m : Message) (hv : Valid m) (hp : Plain m) :
    toMessage (.list m.marshal) = .ok (seen m) := by
  rw [C01_received m hv]
  cases m <;> simp only [received, seen]
  all_goals simp only [Plain] at hp
  case abort m => obtain ⟨d, r, a, k⟩ := m; obtain ⟨rfl, rfl⟩ := hp; rfl
  all_goals
    rename_i m
    cases m
    obtain ⟨rfl, rfl, rfl⟩ := hp
    rfl

/-- Non-vacuity of C01: a CALL with kwargs only, and a WELCOME. -/
example : Valid (.call { requestId := 7, procedure := "com.add", kwargs := some [(.str "a", .int 1)] }) ∧
    Plain (.call { requestId := 7, procedure := "com.add", kwargs := some [(.str "a", .int 1)] }) ∧
    seen (.call { requestId := 7, procedure := "com.add", kwargs := some [(.str "a", .int 1)] }) =
      .call { requestId := 7, procedure := "com.add", args := some [], kwargs := some [(.str "a", .int 1)] } :=
  ⟨by show IdOk _; decide, ⟨rfl, rfl, rfl⟩, rfl⟩
example : Valid (.welcome { sessionId := .int (2 ^ 53), roles := [(.str "broker", .dict [])], authid := some "x" }) := by
  simp [Valid, IdOk, RolesOk, PyInt.val, roleNames]

/-! ## C02 — ABORT diagnostics -/

/-- The full claim is false: `marshal` drops ABORT's args and kwargs. -/
theorem C02_abort_diagnostics_false :
    ¬ ∀ a : Abort, toMessage (.list (Message.abort a).marshal) = .ok (seen (.abort a)) := by
  intro h
  have h1 := h { details := [], reason := "wamp.error.authentication_failed", args := some [.str "bad ticket"] }
  rw [C01_received (.abort _) trivial] at h1
  revert h1; decide

/-- What is true: details and reason always arrive, and args/kwargs never do — the receiver sees the ABORT without
diagnostics; so the claim holds exactly for ABORTs without any.  Missing: args/kwargs. -/
theorem C02_abort_diagnostics_partial (a : Abort) :
    toMessage (.list (Message.abort a).marshal) = .ok (.abort { details := a.details, reason := a.reason }) ∧
    (toMessage (.list (Message.abort a).marshal) = .ok (seen (.abort a)) ↔ a.args = none ∧ a.kwargs = none) := by
  have h := C01_received (.abort a) trivial
  refine ⟨h, ?_⟩
  rw [h]
  obtain ⟨d, r, args, kwargs⟩ := a
  cases args <;> cases kwargs <;> simp [received, seen, seenArgs]

/-! ## C03 — binary payload -/

/-- The full claim for CALL is false: the payload bytes never reach the wire. -/
theorem C03_binary_payload_false :
    ¬ ∀ c : Call, IdOk c.requestId → ∃ c' : Call, toMessage (.list (Message.call c).marshal) = .ok (.call c') ∧
      c'.payload = c.payload ∧ c'.serializer = c.serializer := by
  intro h
  obtain ⟨c', h1, h2, -⟩ := h { requestId := 1, procedure := "p", serializer := some 1, payload := some [1, 2], binary := true }
    (by decide)
  rw [C01_received (.call _) (by show IdOk _; decide)] at h1
  simp only [received, Except.ok.injEq, Message.call.injEq] at h1
  subst h1
  cases h2

/-- What is true for the four payload-bearing classes: everything but the payload, the serializer property and the
binary flag arrives; the serializer id arrives as the option/detail `x_payload_serializer`.  Missing: the payload. -/
theorem C03_binary_payload_partial (n : Int) (bs : List UInt8) :
    (∀ c : Call, IdOk c.requestId → c.payload = some bs → c.serializer = some n →
      ∃ c', toMessage (.list (Message.call c).marshal) = .ok (.call c') ∧ c'.requestId = c.requestId ∧
        c'.procedure = c.procedure ∧ c'.kwargs = c.kwargs ∧ c'.args = seenArgs c.args c.kwargs ∧
        entry c'.options "x_payload_serializer" = some (.int n) ∧ c'.payload = none ∧ c'.serializer = none) ∧
    (∀ c : Invocation, IdOk c.requestId → IdOk c.registrationId → c.payload = some bs → c.serializer = some n →
      ∃ c', toMessage (.list (Message.invocation c).marshal) = .ok (.invocation c') ∧ c'.requestId = c.requestId ∧
        c'.registrationId = c.registrationId ∧ c'.kwargs = c.kwargs ∧ c'.args = seenArgs c.args c.kwargs ∧
        entry c'.details "x_payload_serializer" = some (.int n) ∧ c'.payload = none ∧ c'.serializer = none) ∧
    (∀ c : Yield, IdOk c.requestId → c.payload = some bs → c.serializer = some n →
      ∃ c', toMessage (.list (Message.yield_ c).marshal) = .ok (.yield_ c') ∧ c'.requestId = c.requestId ∧
        c'.kwargs = c.kwargs ∧ c'.args = seenArgs c.args c.kwargs ∧
        entry c'.options "x_payload_serializer" = some (.int n) ∧ c'.payload = none ∧ c'.serializer = none) ∧
    (∀ c : Result, IdOk c.requestId → c.payload = some bs → c.serializer = some n →
      ∃ c', toMessage (.list (Message.result c).marshal) = .ok (.result c') ∧ c'.requestId = c.requestId ∧
        c'.kwargs = c.kwargs ∧ c'.args = seenArgs c.args c.kwargs ∧
        entry c'.details "x_payload_serializer" = some (.int n) ∧ c'.payload = none ∧ c'.serializer = none) := by
  have hget : ∀ d : PyDict, entry (PyDict.set d "x_payload_serializer" (.int n)) "x_payload_serializer" = some (.int n) := by
    intro d
    rw [← get?_eq_entry]
    induction d with
    | nil => simp [PyDict.set, PyDict.get?]
    | cons kv d ih =>
      obtain ⟨k, v⟩ := kv
      cases k <;> simp only [PyDict.set, PyDict.get?, ih]
      split <;> simp_all [PyDict.get?]
  refine ⟨?_, ?_, ?_, ?_⟩
  · intro c h1 h2 h3
    exact ⟨_, C01_received (.call c) h1, rfl, rfl, rfl, rfl, by simp [Call.options, withSerializer, announced, h3, hget], rfl, rfl⟩
  · intro c h1 h1' h2 h3
    exact ⟨_, C01_received (.invocation c) ⟨h1, h1'⟩, rfl, rfl, rfl, rfl,
      by simp [Invocation.details, withSerializer, announced, h3, hget], rfl, rfl⟩
  · intro c h1 h2 h3
    exact ⟨_, C01_received (.yield_ c) h1, rfl, rfl, rfl, by simp [Yield.options, withSerializer, announced, h3, hget], rfl, rfl⟩
  · intro c h1 h2 h3
    exact ⟨_, C01_received (.result c) h1, rfl, rfl, rfl, by simp [Result.details, withSerializer, announced, h3, hget], rfl, rfl⟩

example : let c : Call := { requestId := 1, procedure := "p", serializer := some 1, payload := some [1, 2], binary := true }
    IdOk c.requestId ∧ c.payload = some [1, 2] ∧ c.serializer = some 1 := by decide

/-! ## C04 — parse soundness -/

theorem entryIs_of_getD {α : Type} {wrap : α → Value} (hn : ∀ a, wrap a ≠ .none) {d : PyDict} {key : String} {o : Option α}
    (h : PyDict.getD d key = optVal wrap o) : EntryIs d key (o.map wrap) := by
  simp only [PyDict.getD, get?_eq_entry] at h
  cases o with
  | none =>
    simp only [optVal] at h
    show entry d key = none ∨ _
    cases he : entry d key with
    | none => exact .inl rfl
    | some v => rw [he] at h; exact .inr (by simp at h; rw [h])
  | some a =>
    simp only [optVal] at h
    show entry d key = some (wrap a)
    cases he : entry d key with
    | none => rw [he] at h; exact absurd h.symm (hn a)
    | some v => rw [he] at h; simp at h; rw [h]

/-- Whatever value is decoded, a message object obtained from it has valid ids and roles, and each of its attributes
is exactly the wire element (of the right type) at the position the protocol assigns to it. -/
theorem C04_parse_soundness (v : Value) (m : Message) (h : toMessage v = .ok m) :
    Valid m ∧ ∃ l, v = .list l ∧ FieldsFrom l m := by
  obtain ⟨n, elems, rfl, hc, hp⟩ := toMessage_ok h
  have tail : ∀ (l : List Value) (a : Option (List Value)) (k : Option PyDict), (k.isSome → a.isSome) →
      PayloadAt (l ++ payloadTail a k) l.length a k := by
    intro l a k h
    cases a <;> cases k <;> simp_all [PayloadAt, payloadTail]
  have entryDict : ∀ {d : PyDict} {key : String} {r : PyDict}, PyDict.getD d key = .dict r → entry d key = some (.dict r) := by
    intro d key r h
    simp only [PyDict.getD, get?_eq_entry] at h
    cases he : entry d key with
    | none => rw [he] at h; cases h
    | some v => rw [he] at h; simp at h; rw [h]
  cases m <;> simp only [parseAs] at hp
  case hello m =>
    obtain ⟨t, d, ar, hv, -, h1, h2, h3, h4, h5, h6, h7⟩ := (Hello.parse_ok _ _).1 hp
    refine ⟨⟨h2, h3⟩, _, rfl, ?_⟩
    rw [Value.list.inj hv]
    exact ⟨rfl, d, rfl, entryDict h1, entryIs_of_getD (fun _ => Value.noConfusion) h4,
      entryIs_of_getD (fun _ => Value.noConfusion) h6, entryIs_of_getD (fun _ => Value.noConfusion) h7⟩
  case welcome m =>
    obtain ⟨t, d, ae, hv, -, h0, h1, h2, h3, h4, h5, h6, h7, h8⟩ := (Welcome.parse_ok _ _).1 hp
    refine ⟨⟨h0, h2, h3⟩, _, rfl, ?_⟩
    rw [Value.list.inj hv]
    refine ⟨rfl, d, rfl, entryDict h1, entryIs_of_getD (fun _ => Value.noConfusion) h4,
      entryIs_of_getD (fun _ => Value.noConfusion) h5, entryIs_of_getD (fun _ => Value.noConfusion) h6, ?_⟩
    have h9 := entryIs_of_getD (fun _ => Value.noConfusion) h7
    cases ae with
    | none => exact .inr ⟨h9, h8⟩
    | some x => simp at h8; subst h8; exact .inl h9
  case abort m =>
    obtain ⟨t, x1, x2, a, k, hv, hk, -, rfl⟩ := (Abort.parse_ok _ _).1 hp
    refine ⟨trivial, _, rfl, ?_⟩
    rw [Value.list.inj hv]
    exact ⟨rfl, rfl, tail [t, .dict x1, .str x2] a k hk⟩
  case challenge m =>
    obtain ⟨t, x1, x2, hv, -, rfl⟩ := (Challenge.parse_ok _ _).1 hp
    exact ⟨trivial, _, rfl, by rw [Value.list.inj hv]; exact ⟨rfl, rfl⟩⟩
  case authenticate m =>
    obtain ⟨t, x1, x2, hv, -, rfl⟩ := (Authenticate.parse_ok _ _).1 hp
    exact ⟨trivial, _, rfl, by rw [Value.list.inj hv]; exact ⟨rfl, rfl⟩⟩
  case goodbye m =>
    obtain ⟨t, x1, x2, hv, -, rfl⟩ := (Goodbye.parse_ok _ _).1 hp
    exact ⟨trivial, _, rfl, by rw [Value.list.inj hv]; exact ⟨rfl, rfl⟩⟩
  case call m =>
    obtain ⟨t, x1, x2, x3, a, k, hv, hk, -, hi, rfl⟩ := (Call.parse_ok _ _).1 hp
    refine ⟨hi, _, rfl, ?_⟩
    rw [Value.list.inj hv]
    exact ⟨rfl, rfl, rfl, tail [t, x1.toValue, .dict x2, .str x3] a k hk⟩
  case invocation m =>
    obtain ⟨t, x1, x2, x3, a, k, hv, hk, -, hi, hi', rfl⟩ := (Invocation.parse_ok _ _).1 hp
    refine ⟨⟨hi, hi'⟩, _, rfl, ?_⟩
    rw [Value.list.inj hv]
    exact ⟨rfl, rfl, rfl, tail [t, x1.toValue, x2.toValue, .dict x3] a k hk⟩
  case yield_ m =>
    obtain ⟨t, x1, x2, a, k, hv, hk, -, hi, rfl⟩ := (Yield.parse_ok _ _).1 hp
    refine ⟨hi, _, rfl, ?_⟩
    rw [Value.list.inj hv]
    exact ⟨rfl, rfl, tail [t, x1.toValue, .dict x2] a k hk⟩
  case result m =>
    obtain ⟨t, x1, x2, a, k, hv, hk, -, hi, rfl⟩ := (Result.parse_ok _ _).1 hp
    refine ⟨hi, _, rfl, ?_⟩
    rw [Value.list.inj hv]
    exact ⟨rfl, rfl, tail [t, x1.toValue, .dict x2] a k hk⟩
  case register m =>
    obtain ⟨t, x1, x2, x3, hv, -, hi, rfl⟩ := (Register.parse_ok _ _).1 hp
    exact ⟨hi, _, rfl, by rw [Value.list.inj hv]; exact ⟨rfl, rfl, rfl⟩⟩
  case registered m =>
    obtain ⟨t, x1, x2, hv, -, hi, hi', rfl⟩ := (Registered.parse_ok _ _).1 hp
    exact ⟨⟨hi, hi'⟩, _, rfl, by rw [Value.list.inj hv]; exact ⟨rfl, rfl⟩⟩
  case unregister m =>
    obtain ⟨t, x1, x2, hv, -, hi, hi', rfl⟩ := (Unregister.parse_ok _ _).1 hp
    exact ⟨⟨hi, hi'⟩, _, rfl, by rw [Value.list.inj hv]; exact ⟨rfl, rfl⟩⟩
  case unregistered m =>
    obtain ⟨t, x1, hv, -, hi, rfl⟩ := (Unregistered.parse_ok _ _).1 hp
    exact ⟨hi, _, rfl, by rw [Value.list.inj hv]; rfl⟩
  case subscribe m =>
    obtain ⟨t, x1, x2, x3, hv, -, hi, rfl⟩ := (Subscribe.parse_ok _ _).1 hp
    exact ⟨hi, _, rfl, by rw [Value.list.inj hv]; exact ⟨rfl, rfl, rfl⟩⟩
  case subscribed m =>
    obtain ⟨t, x1, x2, hv, -, hi, hi', rfl⟩ := (Subscribed.parse_ok _ _).1 hp
    exact ⟨⟨hi, hi'⟩, _, rfl, by rw [Value.list.inj hv]; exact ⟨rfl, rfl⟩⟩
  case unsubscribe m =>
    obtain ⟨t, x1, x2, hv, -, hi, hi', rfl⟩ := (Unsubscribe.parse_ok _ _).1 hp
    exact ⟨⟨hi, hi'⟩, _, rfl, by rw [Value.list.inj hv]; exact ⟨rfl, rfl⟩⟩
  case unsubscribed m =>
    obtain ⟨t, x1, hv, -, hi, rfl⟩ := (Unsubscribed.parse_ok _ _).1 hp
    exact ⟨hi, _, rfl, by rw [Value.list.inj hv]; rfl⟩
  case publish m =>
    obtain ⟨t, x1, x2, x3, a, k, hv, hk, -, hi, rfl⟩ := (Publish.parse_ok _ _).1 hp
    refine ⟨hi, _, rfl, ?_⟩
    rw [Value.list.inj hv]
    exact ⟨rfl, rfl, rfl, tail [t, x1.toValue, .dict x2, .str x3] a k hk⟩
  case published m =>
    obtain ⟨t, x1, x2, hv, -, hi, hi', rfl⟩ := (Published.parse_ok _ _).1 hp
    exact ⟨⟨hi, hi'⟩, _, rfl, by rw [Value.list.inj hv]; exact ⟨rfl, rfl⟩⟩
  case event m =>
    obtain ⟨t, x1, x2, x3, a, k, hv, hk, -, hi, hi', rfl⟩ := (Event.parse_ok _ _).1 hp
    refine ⟨⟨hi, hi'⟩, _, rfl, ?_⟩
    rw [Value.list.inj hv]
    exact ⟨rfl, rfl, rfl, tail [t, x1.toValue, x2.toValue, .dict x3] a k hk⟩
  case error m =>
    obtain ⟨t, x1, x2, x3, x4, a, k, hv, hk, -, hi, rfl⟩ := (ErrorMsg.parse_ok _ _).1 hp
    refine ⟨hi, _, rfl, ?_⟩
    rw [Value.list.inj hv]
    exact ⟨rfl, rfl, rfl, rfl, tail [t, x1.toValue, x2.toValue, .dict x3, .str x4] a k hk⟩
  case cancel m =>
    obtain ⟨t, x1, x2, hv, -, hi, rfl⟩ := (Cancel.parse_ok _ _).1 hp
    exact ⟨hi, _, rfl, by rw [Value.list.inj hv]; exact ⟨rfl, rfl⟩⟩
  case interrupt m =>
    obtain ⟨t, x1, x2, hv, -, hi, rfl⟩ := (Interrupt.parse_ok _ _).1 hp
    exact ⟨hi, _, rfl, by rw [Value.list.inj hv]; exact ⟨rfl, rfl⟩⟩

/-- Non-vacuity of C04: an accepted HELLO carrying `None` and extra details entries. -/
example : toMessage (.list [.int 1, .str "realm1", .dict [(.str "roles", .dict [(.str "caller", .none)]),
      (.str "authid", .none), (.str "x", .int 3)]]) =
    .ok (.hello { realm := "realm1", roles := [(.str "caller", .none)] }) := by decide

/-! ## C05 — parse completeness -/

theorem grammar_code_ne_zero : ∀ r ∈ grammar, r.code ≠ 0 := by decide
theorem grammar_code_inj : ∀ r ∈ grammar, ∀ r' ∈ grammar, r.code = r'.code → r = r' := by decide

/-- `to_message` accepts exactly the values the grammar table accepts. -/
theorem C05_parse_completeness (v : Value) : (∃ m, toMessage v = .ok m) ↔ ∃ r ∈ grammar, r.Accepts v := by
  constructor
  · rintro ⟨m, h⟩
    obtain ⟨n, elems, rfl, -, -⟩ := toMessage_ok h
    rcases toMessage_row n elems with ⟨r, hr, hc, ho⟩ | ⟨-, he⟩
    · refine ⟨r, hr, n.toValue, elems, rfl, (isCode_iff _ _ (grammar_code_ne_zero r hr)).2 ⟨n, rfl, hc⟩, ?_⟩
      rcases ho with ⟨h0, ⟨h1, -⟩ | ⟨-, es, h1, -⟩⟩ | ⟨-, h1⟩
      · exact ⟨h0, h1⟩
      · rw [h] at h1; cases h1
      · rw [h] at h1; cases h1
    · rw [h] at he; cases he
  · rintro ⟨r, hr, t, elems, rfl, hc, hl, ho⟩
    obtain ⟨n, rfl, hn⟩ := (isCode_iff _ _ (grammar_code_ne_zero r hr)).1 hc
    rcases toMessage_row n elems with ⟨r', hr', hc', ho'⟩ | ⟨hne, -⟩
    · have : r = r' := grammar_code_inj r hr r' hr' (by rw [← hn, hc'])
      subst this
      rcases ho' with ⟨-, ⟨-, hm⟩ | ⟨h1, -⟩⟩ | ⟨h1, -⟩
      · exact hm
      · exact absurd ho h1
      · exact absurd hl h1
    · exact absurd hn (hne r hr)

example : (grammar[14]).Accepts (.list [.int 48, .int 5, .dict [], .str "p", .list []]) := by
  refine ⟨_, _, rfl, by decide, by decide, by decide⟩
example : ¬ ∃ r ∈ grammar, r.Accepts (.list [.int 48, .int 5, .dict [], .str "p", .none]) := by
  rw [← C05_parse_completeness]; rintro ⟨m, hm⟩; revert hm
  have : toMessage (.list [.int 48, .int 5, .dict [], .str "p", .none]) = .error (.invalid [.dataType "CALL" 4 "list" "NoneType"]) := by
    decide
  rw [this]; simp

/-! ## C06 — parse failures -/

/-- The full claim is false: the empty list raises `IndexError`. -/
theorem C06_clean_failure_false :
    ¬ ∀ (v : Value) (e : Exc), toMessage v = .error e → e.isValueError = true ∨ ∃ s, e = .typeError s := by
  intro h
  rcases h (.list []) .indexError rfl with h | ⟨s, h⟩
  · cases h
  · cases h

/-- Every failure is a `ValueError` or `TypeError`, with the single exception of the empty list, which raises
`IndexError`. -/
theorem C06_clean_failure_partial (v : Value) (e : Exc) (h : toMessage v = .error e) :
    (v = .list [] ∧ e = .indexError) ∨ (v ≠ .list [] ∧ (e.isValueError = true ∨ ∃ s, e = .typeError s)) := by
  cases v with
  | list l =>
    cases l with
    | nil => left; simp [toMessage, Value.asList?, index] at h; exact ⟨rfl, h.symm⟩
    | cons t elems =>
      right
      refine ⟨by simp, ?_⟩
      cases ht : t.asInt? with
      | none => simp [toMessage, Value.asList?, index, ht] at h; exact .inr ⟨_, h.symm⟩
      | some n =>
        simp at ht; subst ht
        rcases toMessage_row n elems with ⟨r, hr, hc, ho⟩ | ⟨-, he⟩
        · rcases ho with ⟨-, ⟨-, m, h1⟩ | ⟨-, es, h1, -⟩⟩ | ⟨-, h1⟩ <;> rw [h] at h1 <;> cases h1
          · exact .inl rfl
          · exact .inl rfl
        · rw [h] at he; cases he; exact .inl rfl
  | _ => right; refine ⟨by simp, ?_⟩; simp [toMessage, Value.asList?] at h; exact .inr ⟨_, h.symm⟩

example : toMessage (.list [.str "x"]) = .error (.typeError "invalid message type '<class 'str'>', expected an integer") := by decide

/-! ## C07 — relay transparency -/

/-- Parsing and re-marshalling any accepted list of a class other than HELLO, WELCOME and ABORT gives the same list. -/
theorem C07_relay_transparency (l : List Value) (m : Message) (h : toMessage (.list l) = .ok m)
    (hc : code m ≠ 1 ∧ code m ≠ 2 ∧ code m ≠ 3) : m.marshal = l := by
  obtain ⟨n, elems, hl, hn, hp⟩ := toMessage_ok h
  cases hl
  have hint : n = .int (code m) := by
    cases n with
    | int k => simp only [PyInt.val] at hn; rw [hn]
    | bool b => cases m <;> cases b <;> simp [code, PyInt.val] at hn hc
  subst hint
  clear hn h
  cases m <;> simp only [parseAs] at hp <;> simp only [code] at hc hp ⊢ <;> (try omega)
  case challenge m => obtain ⟨t, x1, x2, hv, -, rfl⟩ := (Challenge.parse_ok _ _).1 hp; cases hv; rfl
  case authenticate m => obtain ⟨t, x1, x2, hv, -, rfl⟩ := (Authenticate.parse_ok _ _).1 hp; cases hv; rfl
  case goodbye m => obtain ⟨t, x1, x2, hv, -, rfl⟩ := (Goodbye.parse_ok _ _).1 hp; cases hv; rfl
  case call m => obtain ⟨t, x1, x2, x3, a, k, hv, hk, -, hi, rfl⟩ := (Call.parse_ok _ _).1 hp; cases hv; rfl
  case invocation m => obtain ⟨t, x1, x2, x3, a, k, hv, hk, -, hi, hi', rfl⟩ := (Invocation.parse_ok _ _).1 hp; cases hv; rfl
  case yield_ m => obtain ⟨t, x1, x2, a, k, hv, hk, -, hi, rfl⟩ := (Yield.parse_ok _ _).1 hp; cases hv; rfl
  case result m => obtain ⟨t, x1, x2, a, k, hv, hk, -, hi, rfl⟩ := (Result.parse_ok _ _).1 hp; cases hv; rfl
  case register m => obtain ⟨t, x1, x2, x3, hv, -, hi, rfl⟩ := (Register.parse_ok _ _).1 hp; cases hv; rfl
  case registered m => obtain ⟨t, x1, x2, hv, -, hi, hi', rfl⟩ := (Registered.parse_ok _ _).1 hp; cases hv; rfl
  case unregister m => obtain ⟨t, x1, x2, hv, -, hi, hi', rfl⟩ := (Unregister.parse_ok _ _).1 hp; cases hv; rfl
  case unregistered m => obtain ⟨t, x1, hv, -, hi, rfl⟩ := (Unregistered.parse_ok _ _).1 hp; cases hv; rfl
  case subscribe m => obtain ⟨t, x1, x2, x3, hv, -, hi, rfl⟩ := (Subscribe.parse_ok _ _).1 hp; cases hv; rfl
  case subscribed m => obtain ⟨t, x1, x2, hv, -, hi, hi', rfl⟩ := (Subscribed.parse_ok _ _).1 hp; cases hv; rfl
  case unsubscribe m => obtain ⟨t, x1, x2, hv, -, hi, hi', rfl⟩ := (Unsubscribe.parse_ok _ _).1 hp; cases hv; rfl
  case unsubscribed m => obtain ⟨t, x1, hv, -, hi, rfl⟩ := (Unsubscribed.parse_ok _ _).1 hp; cases hv; rfl
  case publish m => obtain ⟨t, x1, x2, x3, a, k, hv, hk, -, hi, rfl⟩ := (Publish.parse_ok _ _).1 hp; cases hv; rfl
  case published m => obtain ⟨t, x1, x2, hv, -, hi, hi', rfl⟩ := (Published.parse_ok _ _).1 hp; cases hv; rfl
  case event m => obtain ⟨t, x1, x2, x3, a, k, hv, hk, -, hi, hi', rfl⟩ := (Event.parse_ok _ _).1 hp; cases hv; rfl
  case error m => obtain ⟨t, x1, x2, x3, x4, a, k, hv, hk, -, hi, rfl⟩ := (ErrorMsg.parse_ok _ _).1 hp; cases hv; rfl
  case cancel m => obtain ⟨t, x1, x2, hv, -, hi, rfl⟩ := (Cancel.parse_ok _ _).1 hp; cases hv; rfl
  case interrupt m => obtain ⟨t, x1, x2, hv, -, hi, rfl⟩ := (Interrupt.parse_ok _ _).1 hp; cases hv; rfl

example : ∃ m, toMessage (.list [.int 8, .int 48, .bool true, .dict [], .str "e", .list [.none], .dict []]) = .ok m ∧
    code m ≠ 1 ∧ code m ≠ 2 ∧ code m ≠ 3 := ⟨.error { messageType := 48, requestId := .bool true, uri := "e", args := some [.none], kwargs := some [] }, by decide⟩

/-- The exclusions of C07 are needed: a relay loses an ABORT's args and a HELLO's unknown details. -/
example : ∃ l m, toMessage (.list l) = .ok m ∧ code m = 3 ∧ m.marshal ≠ l :=
  ⟨[.int 3, .dict [], .str "r", .list [.int 1]], .abort { details := [], reason := "r", args := some [.int 1] }, by decide⟩
example : ∃ l m, toMessage (.list l) = .ok m ∧ code m = 1 ∧ m.marshal ≠ l :=
  ⟨[.int 1, .str "r", .dict [(.str "roles", .dict [(.str "caller", .dict [])]), (.str "agent", .str "x")]],
   .hello { realm := "r", roles := [(.str "caller", .dict [])] }, by decide⟩

/-! ## C08 — dispatch by type code -/

/-- The class of a parsed message is the one whose code is element 0, an int. -/
theorem C08_dispatch (v : Value) (m : Message) (h : toMessage v = .ok m) :
    ∃ t elems, v = .list (t :: elems) ∧ isCode t (code m) = true := by
  obtain ⟨n, elems, rfl, hc, -⟩ := toMessage_ok h
  exact ⟨n.toValue, elems, rfl, (isCode_iff _ _ (by cases m <;> simp [code])).2 ⟨n, rfl, hc⟩⟩

/-- Anything that does not start with one of the 24 codes is rejected: with `TypeError` if it is not a list or does not
start with an int, with `ValueError` if the int is no code. -/
theorem C08_unknown_rejected (t : Value) (elems : List Value) (h : ∀ r ∈ grammar, isCode t r.code = false) :
    (isInt t = true → ∃ s, toMessage (.list (t :: elems)) = .error (.valueError s)) ∧
    (isInt t = false → ∃ s, toMessage (.list (t :: elems)) = .error (.typeError s)) := by
  constructor
  · intro hi
    have : ∃ n : PyInt, t = n.toValue := by
      cases t <;> simp [isInt] at hi
      · exact ⟨.bool _, rfl⟩
      · exact ⟨.int _, rfl⟩
    obtain ⟨n, rfl⟩ := this
    rcases toMessage_row n elems with ⟨r, hr, hc, -⟩ | ⟨-, he⟩
    · have h1 := h r hr
      rw [(isCode_iff _ _ (grammar_code_ne_zero r hr)).2 ⟨n, rfl, hc⟩] at h1; cases h1
    · exact ⟨_, he⟩
  · intro hi
    cases t <;> simp [isInt] at hi <;> simp [toMessage, Value.asList?, index, Value.asInt?]

theorem C08_not_a_list (v : Value) (h : isList v = false) : ∃ s, toMessage v = .error (.typeError s) := by
  cases v <;> simp [isList] at h <;> simp [toMessage, Value.asList?]

/-- The 24 codes are pairwise different and every class has its row. -/
theorem C08_codes : grammar.length = 24 ∧ (grammar.map Row.code).Nodup ∧ ∀ m : Message, ∃ r ∈ grammar, r.code = code m := by
  refine ⟨rfl, by decide, ?_⟩
  intro m; cases m <;> simp [grammar, code]

example : ∀ r ∈ grammar, isCode (.int 7) r.code = false := by decide
example : ∀ r ∈ grammar, isCode (.float ⟨0x3ff0000000000000#64⟩) r.code = false := by decide

/-! ## C09 — complete error report -/

/-- For a list with a known code and an allowed length, parsing fails when some element offends its kind (and, by
C05, only then), and then the `ValueError` lists exactly the offences — right message name, position and key, in field order. -/
theorem C09_complete_error_report (r : Row) (hr : r ∈ grammar) (t : Value) (elems : List Value)
    (ht : isCode t r.code = true) (hl : r.lengthOk elems) (ho : r.offences elems ≠ []) :
    ∃ es, toMessage (.list (t :: elems)) = .error (.invalid es) ∧ es.map subject = r.offences elems := by
  obtain ⟨n, rfl, hn⟩ := (isCode_iff _ _ (grammar_code_ne_zero r hr)).1 ht
  rcases toMessage_row n elems with ⟨r', hr', hc', ho'⟩ | ⟨hne, -⟩
  · have : r = r' := grammar_code_inj r hr r' hr' (by rw [← hn, hc'])
    subst this
    rcases ho' with ⟨-, ⟨h1, -⟩ | ⟨-, h1⟩⟩ | ⟨h1, -⟩
    · exact absurd h1 ho
    · exact h1
    · exact absurd hl h1
  · exact absurd hn (hne r hr)

/-- Non-vacuity of C09: three offences in a WELCOME, at two positions. -/
example : (grammar[1]).lengthOk [.str "no", .dict [(.str "roles", .dict []), (.str "authrole", .int 3)]] ∧
    (grammar[1]).offences [.str "no", .dict [(.str "roles", .dict []), (.str "authrole", .int 3)]] =
      [("WELCOME", 1, none), ("WELCOME", 2, some "roles"), ("WELCOME", 2, some "authrole")] := by
  refine ⟨by decide, by decide⟩

end Wamp
