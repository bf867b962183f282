import Verif.Model.Broker
import Verif.Model.Dealer

/-! # What would happen: the result of one more call -/

namespace Wamp.Spec

/-- Who would receive a publish, if it succeeded. -/
def receivers (ops : List Broker.Op) (s : Int) (m : Publish) : Option (List Int) :=
  match Broker.outcome ops (.receivePublish s m) with
  | .ok (.publication p) => some p.recipients
  | _ => none

/-- Who would be sent an INVOCATION for a CALL, under which registration id. -/
def target (ops : List Dealer.Op) (s : Int) (m : Call) : Option (Int × Int) :=
  match Dealer.outcome ops (.receiveMessage s (.call m)) with
  | .ok (.reply ⟨.invocation inv, callee⟩) => some (callee, inv.registrationId.val)
  | _ => none

end Wamp.Spec
