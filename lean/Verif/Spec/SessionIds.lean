import Verif.Spec.Session
import Verif.Spec.Wire
import Verif.Spec.Renaming

/-!
# Messages as a session sees them

Of a message a session looks at the class, at ids, and at whether a PUBLISH asks for an acknowledgement. `view` is just that,
with other ids: the request ids of each kind, the subscription, registration and invocation ids are renamed.
-/

namespace Wamp.Spec.Ids
open Spec.Ses (Kind kindOfCode incoming)
open Spec.Naming (OneToOne)
open Wamp.WAMPSession (Op)

/-- Other names for ids. -/
structure Names where
  request : Ses.Kind → Int → Int
  subscription : Int → Int
  registration : Int → Int
  invocation : Int → Int

/-- No two ids of one sort get the same name. -/
def Names.Ok (ν : Names) : Prop :=
  (∀ k, OneToOne (ν.request k)) ∧ OneToOne ν.subscription ∧ OneToOne ν.registration ∧ OneToOne ν.invocation

/-- Every id keeps its name. -/
def same : Names := ⟨fun _ => id, id, id, id⟩

/-- The ids in a message, by their new names; and for a PUBLISH whether it asks for an acknowledgement. -/
def ids (ν : Names) : Message → List Int
  | .call m => [ν.request .call m.requestId.val]
  | .register m => [ν.request .register m.requestId.val]
  | .unregister m => [ν.request .unregister m.requestId.val, ν.registration m.registrationId.val]
  | .publish m => if PyDict.flag m.options "acknowledge" then [ν.request .publish m.requestId.val] else []
  | .subscribe m => [ν.request .subscribe m.requestId.val]
  | .unsubscribe m => [ν.request .unsubscribe m.requestId.val, ν.subscription m.subscriptionId.val]
  | .yield_ m => [ν.invocation m.requestId.val]
  | .result m => [ν.request .call m.requestId.val]
  | .registered m => [ν.request .register m.requestId.val, ν.registration m.registrationId.val]
  | .unregistered m => [ν.request .unregister m.requestId.val]
  | .invocation m => [ν.invocation m.requestId.val, ν.registration m.registrationId.val]
  | .published m => [ν.request .publish m.requestId.val]
  | .subscribed m => [ν.request .subscribe m.requestId.val, ν.subscription m.subscriptionId.val]
  | .unsubscribed m => [ν.request .unsubscribe m.requestId.val]
  | .event m => [ν.subscription m.subscriptionId.val]
  | .error m => [m.messageType.val,
      match kindOfCode m.messageType.val with
      | some k => ν.request k m.requestId.val
      | none => ν.invocation m.requestId.val]
  | _ => []

/-- The second message is the first one by other names, with any contents. -/
def Corresponds (ν : Names) (m m' : Message) : Prop := code m = code m' ∧ ids ν m = ids same m'

variable {W W' : Type} (c : Codec W) (c' : Codec W')

/-- Both sessions are asked to send corresponding messages, or receive corresponding messages (be it as bytes or as
objects), or both receive bytes that are no message. -/
def Like (ν : Names) (op : Op W) (op' : Op W') : Prop :=
  (∃ m m', op = .sendMessage m ∧ op' = .sendMessage m' ∧ Corresponds ν m m') ∨
  (∃ m m', incoming c op = some m ∧ incoming c' op' = some m' ∧ Corresponds ν m m') ∨
  (∃ d d', op = .receive d ∧ op' = .receive d' ∧ incoming c op = none ∧ incoming c' op' = none)

/-- The two histories correspond, call by call. -/
def LikeAll (ν : Names) : List (Op W) → List (Op W') → Prop
  | [], [] => True
  | op :: ops, op' :: ops' => Like c c' ν op op' ∧ LikeAll ν ops ops'
  | _, _ => False

end Wamp.Spec.Ids
