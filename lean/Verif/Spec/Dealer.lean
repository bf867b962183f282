import Verif.Model.Dealer

/-!
# Specification vocabulary for the dealer

Everything here is a function of the observed trace (calls with their outcomes); the dealer's own data structures are
not mentioned.
-/

namespace Wamp.Spec.Rpc
open Wamp.Dealer (Op Out Obs)

/-- A session holds a registration: session, procedure and the id it was given. -/
structure Reg where
  session : Int
  procedure : String
  id : Int
  deriving DecidableEq, Repr

/-- A call in progress: the invocation id it was given, who called with which request id, the callee the INVOCATION was
addressed to, and whether the CALL asked for progressive results. -/
structure Pending where
  inv : Int
  caller : Int
  request : PyInt
  callee : Int
  wantsProgress : Bool
  deriving DecidableEq, Repr

/-- What can be known from the trace: sessions that have joined and not left; registrations held; invocations issued so
far; the issued ones without a final outcome; how many ids have been drawn.  A YIELD on which the dealer raised
`KeyError` (the defect described at `C45`) also ends its call. -/
structure View where
  known : List Int := []
  held : List Reg := []
  issued : List Pending := []
  pending : List Pending := []
  drawn : Nat := 0
  deriving DecidableEq, Repr

/-- The view after one more observed call. -/
def View.next (v : View) : Obs → View
  | (.addSession d, .ok _) => { v with known := v.known ++ [d.sessionId.val] }
  | (.removeSession s, .ok _) =>
    { v with known := v.known.filter (· ≠ s), held := v.held.filter (·.session ≠ s) }
  | (.receiveMessage s (.register m), .ok (.reply ⟨.registered r, _⟩)) =>
    { v with held := v.held ++ [⟨s, m.procedure, r.registrationId.val⟩], drawn := v.drawn + 1 }
  | (.receiveMessage s (.unregister m), .ok _) =>
    { v with held := v.held.filter (fun x => ¬ (x.session = s ∧ x.id = m.registrationId.val)) }
  | (.receiveMessage s (.call m), .ok (.reply ⟨.invocation i, callee⟩)) =>
    if v.issued.any (fun x => x.inv = i.requestId.val) then v
    else
      let x : Pending := ⟨i.requestId.val, s, m.requestId, callee, PyDict.flag m.options "receive_progress"⟩
      { v with issued := v.issued ++ [x], pending := v.pending ++ [x], drawn := v.drawn + 1 }
  | (.receiveMessage _ (.yield_ y), .ok (.reply ⟨.result r, _⟩)) =>
    if PyDict.flag r.details "progress" then v
    else { v with pending := v.pending.filter (·.inv ≠ y.requestId.val) }
  | (.receiveMessage _ (.yield_ y), .error .keyError) => { v with pending := v.pending.filter (·.inv ≠ y.requestId.val) }
  | (.receiveMessage _ (.error e), .ok _) => { v with pending := v.pending.filter (·.inv ≠ e.requestId.val) }
  | _ => v

/-- The view after a trace. -/
def view (tr : List Obs) : View := tr.foldl View.next {}

/-- The observed call is a non-progressive CALL of session `s` that reuses the request id of a call the same session
still has pending. -/
def ReusesPending (s : Int) (v : View) : Obs → Prop
  | (.receiveMessage s' (.call m), .ok (.reply ⟨.invocation _, _⟩)) =>
    s' = s ∧ PyDict.flag m.options "progress" = false ∧ ∃ x ∈ v.pending, x.caller = s ∧ x.request.val = m.requestId.val
  | _ => False

/-- Session `s` never reuses the request id of a pending call for a new, non-progressive call.  (The other sessions may do
as they like.) -/
def NoReuse (s : Int) (tr : List Obs) : Prop := ∀ pre e post, tr = pre ++ e :: post → ¬ ReusesPending s (view pre) e

/-- The call is a REGISTER answered with REGISTERED. -/
def Registers (e : Obs) (x : Reg) : Prop :=
  ∃ m r c, e = (.receiveMessage x.session (.register m), .ok (.reply ⟨.registered r, c⟩)) ∧ m.procedure = x.procedure ∧
    r.registrationId.val = x.id

/-- The call ends a registration: a successful UNREGISTER of it, or its session leaves. -/
def Ends (e : Obs) (x : Reg) : Prop :=
  (∃ m out, e = (.receiveMessage x.session (.unregister m), .ok out) ∧ m.registrationId.val = x.id) ∨
  (∃ out, e = (.removeSession x.session, .ok out))

/-- The call is a CALL answered with an INVOCATION with this id. -/
def Invokes (e : Obs) (i : Int) : Prop :=
  ∃ s m inv c, e = (.receiveMessage s (.call m), .ok (.reply ⟨.invocation inv, c⟩)) ∧ inv.requestId.val = i

/-- The call is a CALL answered with the described INVOCATION. -/
def Opens (e : Obs) (x : Pending) : Prop :=
  ∃ m i, e = (.receiveMessage x.caller (.call m), .ok (.reply ⟨.invocation i, x.callee⟩)) ∧ i.requestId.val = x.inv ∧
    m.requestId = x.request ∧ x.wantsProgress = PyDict.flag m.options "receive_progress"

/-- The call answers an invocation: a YIELD or ERROR for it was accepted. -/
def Answers (e : Obs) (i : Int) : Prop :=
  (∃ s y out, e = (.receiveMessage s (.yield_ y), .ok out) ∧ y.requestId.val = i) ∨
  (∃ s m out, e = (.receiveMessage s (.error m), .ok out) ∧ m.requestId.val = i)

/-- The call gives an invocation its final outcome: a RESULT not marked progressive, or an ERROR. -/
def Final (e : Obs) (i : Int) : Prop :=
  (∃ s y r c, e = (.receiveMessage s (.yield_ y), .ok (.reply ⟨.result r, c⟩)) ∧ y.requestId.val = i ∧
    PyDict.flag r.details "progress" = false) ∨
  (∃ s m out, e = (.receiveMessage s (.error m), .ok out) ∧ m.requestId.val = i)

/-- The call is a YIELD for an invocation on which the dealer raised `KeyError`. -/
def Crashes (e : Obs) (i : Int) : Prop :=
  ∃ s y, e = (.receiveMessage s (.yield_ y), .error .keyError) ∧ y.requestId.val = i

/-- The session is added. -/
def Joins (e : Obs) (s : Int) : Prop := ∃ d out, e = (.addSession d, .ok out) ∧ d.sessionId.val = s
/-- The session is removed. -/
def Leaves (e : Obs) (s : Int) : Prop := ∃ out, e = (.removeSession s, .ok out)

end Wamp.Spec.Rpc
