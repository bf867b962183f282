import Verif.Spec.Dealer

/-!
# A dealer as four lists

The whole behaviour of a dealer in a page: who is connected, who registered what under which id, the calls in progress, and
which invocation a caller's request id stands for; and the next id.  No dicts, no shared objects.

`marks` is kept as the code keeps it, so that the reference is right about progressive calls and about the defects of C45:
an ERROR leaves the mark of its call behind, a second call under the same request id replaces the mark of the first, and
the final YIELD of a call whose mark is gone ends the call with `KeyError`.
-/

namespace Wamp.Spec.Rpc
open Wamp.Dealer (Op Out)

/-- How a call of the API fails. -/
inductive Failure where
  | valueError
  | keyError
  deriving DecidableEq, Repr

/-- A caller's request id stands for an invocation. -/
structure Mark where
  caller : Int
  request : Int
  inv : Int
  deriving DecidableEq, Repr

/-- The table. -/
structure Table where
  known : List Int := []
  held : List Reg := []
  pending : List Pending := []
  marks : List Mark := []
  next : Int := 1
  deriving DecidableEq, Repr

/-- The mark of a request. -/
def Table.mark (t : Table) (caller request : Int) : Option Mark :=
  t.marks.find? fun x => x.caller = caller ∧ x.request = request

/-- The marks without that of a request. -/
def Table.unmark (t : Table) (caller request : Int) : List Mark :=
  t.marks.filter fun x => ¬ (x.caller = caller ∧ x.request = request)

/-- `{key: True}` if the flag is set. -/
def flagged (d : PyDict) (key : String) : PyDict := if PyDict.flag d key then [(.str key, .bool true)] else []

/-- The INVOCATION made from a CALL. -/
def invocation (m : Call) (inv registration : Int) : Message :=
  .invocation { requestId := .int inv, registrationId := .int registration, args := m.args, kwargs := m.kwargs,
                details_ := flagged m.options "receive_progress" ++ flagged m.options "progress",
                payload := m.payload, serializer := m.serializer }

/-- What the table answers, and how it changes. -/
def Table.step (t : Table) : Op → Table × Except Failure Out
  | .addSession d =>
    if d.sessionId.val ∈ t.known then (t, .error .valueError)
    else ({ t with known := t.known ++ [d.sessionId.val] }, .ok .unit)
  | .removeSession s =>
    if s ∈ t.known then
      ({ t with known := t.known.filter (· ≠ s), held := t.held.filter (·.session ≠ s) }, .ok .unit)
    else (t, .error .valueError)
  | .hasRegistration p => (t, .ok (.bool (t.held.any (·.procedure = p))))
  | .receiveMessage s (.register m) =>
    if s ∈ t.known then
      if t.held.any (·.procedure = m.procedure) then
        (t, .ok (.reply ⟨.error { messageType := .int 64, requestId := m.requestId,
                                  uri := "wamp.error.procedure_already_exists" }, s⟩))
      else
        ({ t with held := t.held ++ [⟨s, m.procedure, t.next⟩], next := t.next + 1 },
          .ok (.reply ⟨.registered ⟨m.requestId, .int t.next⟩, s⟩))
    else (t, .error .valueError)
  | .receiveMessage s (.unregister m) =>
    if ∃ x ∈ t.held, x.session = s ∧ x.id = m.registrationId.val then
      ({ t with held := t.held.filter fun x => ¬ (x.session = s ∧ x.id = m.registrationId.val) },
        .ok (.reply ⟨.unregistered ⟨m.requestId⟩, s⟩))
    else (t, .error .valueError)
  | .receiveMessage s (.call m) =>
    match t.held.find? (·.procedure = m.procedure) with
    | none =>
      (t, .ok (.reply ⟨.error { messageType := .int 48, requestId := m.requestId,
                                uri := "wamp.error.no_such_procedure" }, s⟩))
    | some x =>
      match if PyDict.flag m.options "progress" then t.mark s m.requestId.val else none with
      | some k => (t, .ok (.reply ⟨invocation m k.inv x.id, x.session⟩))
      | none =>
        ({ t with
            pending := t.pending ++ [⟨t.next, s, m.requestId, x.session, PyDict.flag m.options "receive_progress"⟩]
            marks := t.unmark s m.requestId.val ++ [⟨s, m.requestId.val, t.next⟩]
            next := t.next + 1 },
          .ok (.reply ⟨invocation m t.next x.id, x.session⟩))
  | .receiveMessage s (.yield_ m) =>
    match t.pending.find? (·.inv = m.requestId.val) with
    | none => (t, .error .valueError)
    | some x =>
      if s ≠ x.callee then (t, .error .valueError)
      else if PyDict.flag m.options "progress" && x.wantsProgress then
        (t, .ok (.reply ⟨.result { requestId := x.request, args := m.args, kwargs := m.kwargs,
                                   details_ := [(.str "progress", (PyDict.get? m.options "progress").getD (.bool false))] },
                         x.caller⟩))
      else
        let rest := t.pending.filter (·.inv ≠ m.requestId.val)
        match t.mark x.caller x.request.val with
        | none => ({ t with pending := rest }, .error .keyError)
        | some _ =>
          ({ t with pending := rest, marks := t.unmark x.caller x.request.val },
            .ok (.reply ⟨.result { requestId := x.request, args := m.args, kwargs := m.kwargs }, x.caller⟩))
  | .receiveMessage _ (.error m) =>
    match if m.messageType.val = 68 then t.pending.find? (·.inv = m.requestId.val) else none with
    | none => (t, .error .valueError)
    | some x =>
      ({ t with pending := t.pending.filter (·.inv ≠ m.requestId.val) },
        .ok (.reply ⟨.error { messageType := .int 48, requestId := x.request, uri := m.uri, args := m.args,
                              kwargs := m.kwargs, details := m.details }, x.caller⟩))
  | .receiveMessage _ _ => (t, .error .valueError)

/-- What the table answers to a sequence of calls. -/
def Table.answers (t : Table) : List Op → List (Except Failure Out)
  | [] => []
  | op :: ops => (t.step op).2 :: (t.step op).1.answers ops

end Wamp.Spec.Rpc
