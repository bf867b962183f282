import Verif.Spec.Dealer

/-!
# Which invocation a request id stands for

What a request id of a caller stands for, as a function of the observed trace only: the last CALL with it that was turned
into an INVOCATION, unless a final RESULT for it came since.
-/

namespace Wamp.Spec.Rpc
open Wamp.Dealer (Op Out Obs)

/-- The call is a CALL of session `s` with request id `r`, answered with INVOCATION `i`. -/
def CallsAs (e : Obs) (s r i : Int) : Prop :=
  ∃ m inv c, e = (.receiveMessage s (.call m), .ok (.reply ⟨.invocation inv, c⟩)) ∧ m.requestId.val = r ∧ inv.requestId.val = i

/-- The call makes a final RESULT for request id `r` of session `s`. -/
def Settles (e : Obs) (s r : Int) : Prop :=
  ∃ c y res, e = (.receiveMessage c (.yield_ y), .ok (.reply ⟨.result res, s⟩)) ∧ res.requestId.val = r ∧
    PyDict.flag res.details "progress" = false

/-- Session `s` has had no final RESULT for request id `r` since it last got an INVOCATION for a CALL with it. -/
def Unsettled (tr : List Obs) (s r : Int) : Prop :=
  ∃ pre e post, tr = pre ++ e :: post ∧ (∃ i, CallsAs e s r i) ∧ ∀ e' ∈ post, ¬ Settles e' s r

/-- The last CALL of session `s` with request id `r` was turned into INVOCATION `i`, and no final RESULT came since. -/
def Current (tr : List Obs) (s r i : Int) : Prop :=
  ∃ pre e post, tr = pre ++ e :: post ∧ CallsAs e s r i ∧ ∀ e' ∈ post, ¬ ((∃ j, CallsAs e' s r j) ∨ Settles e' s r)

end Wamp.Spec.Rpc
