import Verif.Model.Session

/-!
# Specification vocabulary for the client session

Functions of the history of API calls (and, where a grant is concerned, of their outcomes); the session's own data
structures are not mentioned.
-/

namespace Wamp.Spec.Ses
open Wamp.WAMPSession (Op Out Obs)

/-- The kinds of request a client makes. -/
inductive Kind where
  | call | register | unregister | publish | subscribe | unsubscribe
  deriving DecidableEq, Repr

/-- The request a message makes: kind and request id.  A PUBLISH only asks for a reply if it sets `acknowledge`. -/
def requestOf : Message → Option (Kind × Int)
  | .call m => some (.call, m.requestId.val)
  | .register m => some (.register, m.requestId.val)
  | .unregister m => some (.unregister, m.requestId.val)
  | .publish m => if PyDict.flag m.options "acknowledge" then some (.publish, m.requestId.val) else none
  | .subscribe m => some (.subscribe, m.requestId.val)
  | .unsubscribe m => some (.unsubscribe, m.requestId.val)
  | _ => none

/-- The kind of request an ERROR with this type code refers to (WAMP message codes). -/
def kindOfCode (n : Int) : Option Kind :=
  if n = 48 then some .call else if n = 64 then some .register else if n = 66 then some .unregister
  else if n = 16 then some .publish else if n = 32 then some .subscribe else if n = 34 then some .unsubscribe else none

/-- The request a message replies to: kind and request id. -/
def replyTo : Message → Option (Kind × Int)
  | .result m => some (.call, m.requestId.val)
  | .registered m => some (.register, m.requestId.val)
  | .unregistered m => some (.unregister, m.requestId.val)
  | .published m => some (.publish, m.requestId.val)
  | .subscribed m => some (.subscribe, m.requestId.val)
  | .unsubscribed m => some (.unsubscribe, m.requestId.val)
  | .error m => (kindOfCode m.messageType.val).map (·, m.requestId.val)
  | _ => none

variable {W : Type} (c : Codec W)

/-- The message a call hands to the session as received, if any: `receive` decodes its bytes first. -/
def incoming : Op W → Option Message
  | .receiveMessage m => some m
  | .receive d => (c.deserialize d).toOption
  | .sendMessage _ => none

/-- The call asks to send a request of this kind with this id. -/
def Requests (op : Op W) (k : Kind) (i : Int) : Prop := ∃ m, op = .sendMessage m ∧ requestOf m = some (k, i)

/-- The call delivers a reply to such a request. -/
def Replies (op : Op W) (k : Kind) (i : Int) : Prop := ∃ m, incoming c op = some m ∧ replyTo m = some (k, i)

/-- A request of kind `k` with id `i` has been sent, and no reply to it has been received since. -/
def Outstanding (ops : List (Op W)) (k : Kind) (i : Int) : Prop :=
  ∃ pre op post, ops = pre ++ op :: post ∧ Requests op k i ∧ ∀ op' ∈ post, ¬ Replies c op' k i

/-- The UNSUBSCRIBE (or UNREGISTER) request with id `i` outstanding last named this subscription (registration). -/
def Names (op : Op W) (k : Kind) (i t : Int) : Prop :=
  (k = .unsubscribe ∧ ∃ m, op = .sendMessage (.unsubscribe m) ∧ m.requestId.val = i ∧ m.subscriptionId.val = t) ∨
  (k = .unregister ∧ ∃ m, op = .sendMessage (.unregister m) ∧ m.requestId.val = i ∧ m.registrationId.val = t)

/-- There is an outstanding UNSUBSCRIBE (UNREGISTER) with request id `i`, and the latest one names `t`. -/
def Withdrawing (ops : List (Op W)) (k : Kind) (i t : Int) : Prop :=
  ∃ pre op post, ops = pre ++ op :: post ∧ Names op k i t ∧ ∀ op' ∈ post, ¬ Requests op' k i ∧ ¬ Replies c op' k i

/-- The call was an accepted SUBSCRIBED (REGISTERED) with this subscription (registration) id. -/
def Grants (e : Obs W) (k : Kind) (t : Int) : Prop :=
  ∃ out, e.2 = .ok out ∧
    ((k = .subscribe ∧ ∃ m, incoming c e.1 = some (.subscribed m) ∧ m.subscriptionId.val = t) ∨
     (k = .register ∧ ∃ m, incoming c e.1 = some (.registered m) ∧ m.registrationId.val = t))

/-- The call was an accepted UNSUBSCRIBED (UNREGISTERED) answering a request that named this id. -/
def Withdraws (before : List (Obs W)) (e : Obs W) (k : Kind) (t : Int) : Prop :=
  ∃ out, e.2 = .ok out ∧
    ((k = .subscribe ∧ ∃ m, incoming c e.1 = some (.unsubscribed m) ∧
        Withdrawing c (before.map (·.1)) .unsubscribe m.requestId.val t) ∨
     (k = .register ∧ ∃ m, incoming c e.1 = some (.unregistered m) ∧
        Withdrawing c (before.map (·.1)) .unregister m.requestId.val t))

/-- A subscription (`k = subscribe`) or registration (`k = register`) id was granted and has not been withdrawn since. -/
def Granted (tr : List (Obs W)) (k : Kind) (t : Int) : Prop :=
  ∃ pre e post, tr = pre ++ e :: post ∧ Grants c e k t ∧
    ∀ mid e' rest, post = mid ++ e' :: rest → ¬ Withdraws c (pre ++ e :: mid) e' k t

/-- The call was an accepted INVOCATION with this request id. -/
def Invoked (e : Obs W) (i : Int) : Prop :=
  ∃ out m, e.2 = .ok out ∧ incoming c e.1 = some (.invocation m) ∧ m.requestId.val = i

/-- The call asks to send a YIELD or an invocation ERROR for this invocation. -/
def AnswersInvocation (op : Op W) (i : Int) : Prop :=
  (∃ m, op = .sendMessage (.yield_ m) ∧ m.requestId.val = i) ∨
  (∃ m, op = .sendMessage (.error m) ∧ m.messageType.val = 68 ∧ m.requestId.val = i)

/-- An invocation was received and has not been answered since. -/
def Unanswered (tr : List (Obs W)) (i : Int) : Prop :=
  ∃ pre e post, tr = pre ++ e :: post ∧ Invoked c e i ∧ ∀ e' ∈ post, ¬ AnswersInvocation e'.1 i

/-- The call leaves no trace: everything that may be called afterwards has the same outcome as without it. -/
def NoEffect (ops : List (Op W)) (op : Op W) : Prop :=
  ∀ more x, WAMPSession.outcome c (ops ++ op :: more) x = WAMPSession.outcome c (ops ++ more) x

/-- The call was accepted: it returned. -/
def accepted (e : Obs W) : Bool := match e.2 with | .ok _ => true | .error _ => false

/-- How many calls asked to send a request of this kind with this id. -/
def sentCount (ops : List (Op W)) (k : Kind) (i : Int) : Nat :=
  ops.countP fun | .sendMessage m => requestOf m = some (k, i) | _ => false

/-- How many replies to such requests were accepted. -/
def repliedCount (tr : List (Obs W)) (k : Kind) (i : Int) : Nat :=
  tr.countP fun e => accepted e && decide ((incoming c e.1).bind replyTo = some (k, i))

/-- The message is an INVOCATION with this request id. -/
def isInvocation (i : Int) : Option Message → Bool
  | some (.invocation m) => decide (m.requestId.val = i)
  | _ => false

/-- The call sends a YIELD with this request id. -/
def isYield (i : Int) : Op W → Bool
  | .sendMessage (.yield_ m) => decide (m.requestId.val = i)
  | _ => false

/-- How many INVOCATIONs with this request id were accepted. -/
def invokedCount (tr : List (Obs W)) (i : Int) : Nat :=
  tr.countP fun e => accepted e && isInvocation i (incoming c e.1)

/-- How many YIELDs with this request id were sent. -/
def yieldCount (tr : List (Obs W)) (i : Int) : Nat :=
  tr.countP fun e => accepted e && isYield i e.1

end Wamp.Spec.Ses
