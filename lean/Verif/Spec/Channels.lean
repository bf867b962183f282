import Verif.Spec.Stack
import Verif.Spec.Wire

/-!
# What a member and the router have said to each other

Read off the calls made on the broker and on the dealer, and off the calls made on the member's session.
-/

namespace Wamp.Spec.Stack
open Net

/-- Collect what each call adds, starting anew at certain calls. -/
def since {Op α : Type} (anew : List Op → Op → Bool) (add : List Op → Op → List α) (ops : List Op) : List α :=
  (ops.foldl (fun (x : List Op × List α) op => (x.1 ++ [op], if anew x.1 op then [] else x.2 ++ add x.1 op)) ([], [])).2

/-- With this call the broker adds the session. -/
def brokerAdds (s : Int) (ops : List Broker.Op) : Broker.Op → Bool
  | .addSession d => d.sessionId.val = s && returned (Broker.outcome ops (.addSession d))
  | _ => false

/-- With this call the dealer adds the session. -/
def dealerAdds (s : Int) (ops : List Dealer.Op) : Dealer.Op → Bool
  | .addSession d => d.sessionId.val = s && returned (Dealer.outcome ops (.addSession d))
  | _ => false

/-- The calls made on the broker for messages of the session, since it was added, in order -/
def brokerHandled (s : Int) : List Broker.Op → List Broker.Op :=
  since (brokerAdds s) fun _ op => match op with
    | .receivePublish s' _ => if s' = s then [op] else []
    | .receiveMessage s' _ => if s' = s then [op] else []
    | _ => []

/-- The calls made on the dealer for messages of the session, since it was added, in order -/
def dealerHandled (s : Int) : List Dealer.Op → List Dealer.Op :=
  since (dealerAdds s) fun _ op => match op with
    | .receiveMessage s' _ => if s' = s then [op] else []
    | _ => []

/-- The messages the broker has returned for the session, since it was added, in order -/
def brokerSaid (s : Int) : List Broker.Op → List Message :=
  since (brokerAdds s) fun ops op => inbox (brokerOut (Broker.outcome ops op)) s

/-- The messages the dealer has returned for the session, since it was added, in order -/
def dealerSaid (s : Int) : List Dealer.Op → List Message :=
  since (dealerAdds s) fun ops op => inbox (dealerOut (Dealer.outcome ops op)) s

variable {W : Type}

/-- The messages the application asked to send and the session gave data for, in order -/
def asksTaken (c : Codec W) (calls : List (WAMPSession.Op W)) : List Message :=
  (WAMPSession.trace c calls).filterMap fun
    | (.sendMessage m, .ok (.data _)) => some m
    | _ => none

/-- The messages the session handed to the application, in order -/
def messagesSeen (c : Codec W) (calls : List (WAMPSession.Op W)) : List Message :=
  (WAMPSession.trace c calls).filterMap fun
    | (_, .ok (.msg m)) => some m
    | _ => none

end Wamp.Spec.Stack
