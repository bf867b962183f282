import Verif.Spec.Tenants
import Verif.Spec.DealerTable
import Verif.Spec.BrokerTable

/-!
# As good as new

A router that has been running for a while, compared with one that was just started.  The ids it gives out are other ones; `ids ρ`
of `Spec/Tenants.lean` is the same message with other ids.
-/

namespace Wamp.Spec.AsNew
open Wamp.Spec.Tenants Wamp.Spec.Naming

/-- Whatever is done with the broker after `ops` has the outcome it would have with a new broker, but for the ids. -/
def Broker (ops : List Broker.Op) : Prop :=
  ∀ later, (ops ++ later).length ≤ 2 ^ 53 → ∃ ρ, OneToOne ρ ∧
    (Broker.trace (later.map (pubIds ρ))).map (·.2.toOption) =
      ((Broker.trace (ops ++ later)).drop ops.length).map fun e => e.2.toOption.map (pubOutIds ρ)

/-- How a call of the dealer's API ended: what it returned, or that it raised `ValueError` or `KeyError`. -/
def ended : Except Exc Dealer.Out → Option (Except Rpc.Failure Dealer.Out)
  | .ok o => some (.ok o)
  | .error (.valueError _) => some (.error .valueError)
  | .error .keyError => some (.error .keyError)
  | .error _ => none

/-- The same for the dealer. -/
def Dealer (ops : List Dealer.Op) : Prop :=
  ∀ later, (ops ++ later).length ≤ 2 ^ 53 → ∃ ρ, OneToOne ρ ∧
    (Dealer.trace (later.map (rpcIds ρ))).map (fun e => ended e.2) =
      ((Dealer.trace (ops ++ later)).drop ops.length).map fun e => (ended e.2).map (·.map (rpcOutIds ρ))

end Wamp.Spec.AsNew
