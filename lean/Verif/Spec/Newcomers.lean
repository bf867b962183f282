import Verif.Spec.Neighbours

/-!
# When everybody has left

What a network in which nobody is connected any more still knows of those who were there.
-/

namespace Wamp.Spec.Newcomers
open Wamp.Spec.Net Wamp.Spec.Neighbours

/-- Whom an action is about. -/
def actor : Act → Int
  | .join d => d.sessionId.val
  | .leave s | .send s _ | .route s | .deliver s => s

/-- No session id is used both before and after. -/
def Strangers (old later : List Act) : Prop := ∀ a ∈ old, ∀ b ∈ later, actor a ≠ actor b

/-- The same actions with other ids. -/
def elsewhere (ρ σ : Int → Int) (sched : List Act) : List Act := sched.map (actIds ρ σ)

end Wamp.Spec.Newcomers
