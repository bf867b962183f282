import Verif.Spec.AsNew
import Verif.Spec.Slots

/-!
# Only the present matters

Two routers with different pasts, compared from now on.  The ids they give out are other ones; `ids ρ` of `Spec/Tenants.lean` is the
same message with other ids.  What counts as the present is a function of the observed trace.
-/

namespace Wamp.Spec.Present
open Wamp.Spec.Tenants Wamp.Spec.Naming

/-! ## The broker -/

/-- The same sessions are connected, and each topic has the same subscribers in the same order. -/
structure PubSame (v v' : Pub.View) : Prop where
  known : ∀ s, s ∈ v.known ↔ s ∈ v'.known
  subscribers : ∀ topic, v.subscribers topic = v'.subscribers topic

/-- Whatever is done after `ops` has the outcome it has after `ops'`, but for the ids; those of the subscriptions held correspond
topic by topic. -/
def Brokers (ops ops' : List Broker.Op) : Prop :=
  ∃ ρ, OneToOne ρ ∧
    (∀ x ∈ (Pub.view (Broker.trace ops)).held, ∀ x' ∈ (Pub.view (Broker.trace ops')).held, x.topic = x'.topic → ρ x.id = x'.id) ∧
    ∀ later, (ops ++ later).length ≤ 2 ^ 53 → (ops' ++ later).length ≤ 2 ^ 53 →
      ((Broker.trace (ops' ++ later.map (pubIds ρ))).drop ops'.length).map (·.2.toOption) =
        ((Broker.trace (ops ++ later)).drop ops.length).map fun e => e.2.toOption.map (pubOutIds ρ)

/-! ## The dealer -/

/-- The same sessions are connected, each procedure has the same callee, the same calls are in progress, and the same request ids of
callers stand for invocations; the invocation ids correspond one for one. -/
structure RpcSame (τ : Int → Int) (tr tr' : List Dealer.Obs) : Prop where
  one : OneToOne τ
  known : ∀ s, s ∈ (Rpc.view tr).known ↔ s ∈ (Rpc.view tr').known
  callees : ∀ s p, (∃ i, ⟨s, p, i⟩ ∈ (Rpc.view tr).held) ↔ ∃ i, ⟨s, p, i⟩ ∈ (Rpc.view tr').held
  calls : ∀ x', x' ∈ (Rpc.view tr').pending ↔ ∃ x ∈ (Rpc.view tr).pending, x' = { x with inv := τ x.inv }
  current : ∀ s r i', Rpc.Current tr' s r i' ↔ ∃ i, Rpc.Current tr s r i ∧ i' = τ i

/-- Whatever is done after `ops` has the outcome it has after `ops'`, but for the ids; those of the registrations held correspond
procedure by procedure, those of calls as in `τ`. -/
def Dealers (τ : Int → Int) (ops ops' : List Dealer.Op) : Prop :=
  ∃ ρ, OneToOne ρ ∧
    (∀ x ∈ (Rpc.view (Dealer.trace ops)).held, ∀ x' ∈ (Rpc.view (Dealer.trace ops')).held, x.procedure = x'.procedure → ρ x.id = x'.id) ∧
    (∀ x ∈ (Rpc.view (Dealer.trace ops)).pending, ρ x.inv = τ x.inv) ∧
    (∀ s r i, Rpc.Current (Dealer.trace ops) s r i → ρ i = τ i) ∧
    ∀ later, (ops ++ later).length ≤ 2 ^ 53 → (ops' ++ later).length ≤ 2 ^ 53 →
      ((Dealer.trace (ops' ++ later.map (rpcIds ρ))).drop ops'.length).map (fun e => AsNew.ended e.2) =
        ((Dealer.trace (ops ++ later)).drop ops.length).map fun e => (AsNew.ended e.2).map (·.map (rpcOutIds ρ))

end Wamp.Spec.Present
