import Verif.Proofs.Contents

/-!
# C109: the routers pass contents on without looking at them
-/

namespace Wamp.Spec
open Contents

/-- What the broker does, it would have done had no message of the history had any contents, and had nothing but their ids
been known of the sessions; the contents of the last message are put in afterwards. -/
theorem C109_broker (ops : List Broker.Op) (op : Broker.Op) :
    Broker.outcome ops op = (Broker.outcome (ops.map barePub) (barePub op)).map (fillPub op) :=
  (Broker.forgets_step (Broker.forgets_runFrom ops _ _ (Broker.forgets_refl _)) op).2

/-- The same for the dealer. -/
theorem C109_dealer (ops : List Dealer.Op) (op : Dealer.Op) :
    Dealer.outcome ops op = (Dealer.outcome (ops.map bareRpc) (bareRpc op)).map (fillRpc op) :=
  (Dealer.forgets_step (Dealer.forgets_runFrom ops _ _ (Dealer.forgets_refl _)) op).2

/-- Two histories that differ only in contents end in the same way: what is sent differs at most in the contents, and these
are the ones that came in. -/
theorem C109_broker_alike (ops ops' : List Broker.Op) (op op' : Broker.Op) (h : ops'.map barePub = ops.map barePub)
    (ho : barePub op' = barePub op) :
    ∃ r : Except Exc Broker.Out, Broker.outcome ops op = r.map (fillPub op) ∧ Broker.outcome ops' op' = r.map (fillPub op') :=
  ⟨_, C109_broker ops op, by rw [← ho, ← h]; exact C109_broker ops' op'⟩

theorem C109_dealer_alike (ops ops' : List Dealer.Op) (op op' : Dealer.Op) (h : ops'.map bareRpc = ops.map bareRpc)
    (ho : bareRpc op' = bareRpc op) :
    ∃ r : Except Exc Dealer.Out, Dealer.outcome ops op = r.map (fillRpc op) ∧ Dealer.outcome ops' op' = r.map (fillRpc op') :=
  ⟨_, C109_dealer ops op, by rw [← ho, ← h]; exact C109_dealer ops' op'⟩

/-- What was in earlier messages has no effect at all on what happens later. -/
theorem C109_broker_past (ops ops' : List Broker.Op) (op : Broker.Op) (h : ops'.map barePub = ops.map barePub) :
    Broker.outcome ops' op = Broker.outcome ops op := by
  rw [C109_broker ops', h, ← C109_broker]

theorem C109_dealer_past (ops ops' : List Dealer.Op) (op : Dealer.Op) (h : ops'.map bareRpc = ops.map bareRpc) :
    Dealer.outcome ops' op = Dealer.outcome ops op := by
  rw [C109_dealer ops', h, ← C109_dealer]

/-! Two histories that differ in who the sessions say they are and in what they send. -/
section
private def one : List Dealer.Op :=
  [.addSession { sessionId := .int 1, realm := "r", authid := "ann", authrole := "admin" },
   .addSession { sessionId := .int 2, realm := "r" },
   .receiveMessage 2 (.register { requestId := .int 1, procedure := "a" }),
   .receiveMessage 1 (.call { requestId := .int 7, procedure := "a", args := some [.str "secret"] })]
private def two : List Dealer.Op :=
  [.addSession { sessionId := .int 1, realm := "q", authid := "bob" }, .addSession { sessionId := .int 2, realm := "r" },
   .receiveMessage 2 (.register { requestId := .int 1, procedure := "a", options := [(.str "match", .str "prefix")] }),
   .receiveMessage 1 (.call { requestId := .int 7, procedure := "a", payload := some [1, 2], serializer := some 1, binary := true,
                              options_ := [(.str "timeout", .int 5)] })]

example : two.map bareRpc = one.map bareRpc ∧ two ≠ one := by decide

private def answer : Dealer.Op := .receiveMessage 2 (.yield_ { requestId := .int 2, args := some [.int 3] })
example : bareRpc answer = .receiveMessage 2 (.yield_ { requestId := .int 2 }) ∧
    Dealer.outcome (two.map bareRpc) (bareRpc answer) = .ok (.reply ⟨.result { requestId := .int 7 }, 1⟩) ∧
    Dealer.outcome two answer = .ok (.reply ⟨.result { requestId := .int 7, args := some [.int 3] }, 1⟩) := by decide

private def heard : List Broker.Op :=
  [.addSession { sessionId := .int 1, realm := "r", authrole := "admin" }, .addSession { sessionId := .int 2, realm := "r" },
   .receiveMessage 2 (.subscribe { requestId := .int 1, topic := "a", options := [(.str "match", .str "prefix")] })]
private def news : Broker.Op :=
  .receivePublish 1 { requestId := .int 7, topic := "a", args := some [.int 3], options := [(.str "exclude", .list [.int 2])] }
example : barePub news = .receivePublish 1 { requestId := .int 7, topic := "a" } ∧
    Broker.outcome (heard.map barePub) (barePub news) =
      .ok (.publication { event := some { subscriptionId := .int 1, publicationId := .int 2 }, recipients := [2] }) ∧
    Broker.outcome heard news =
      .ok (.publication { event := some { subscriptionId := .int 1, publicationId := .int 2, args := some [.int 3] }, recipients := [2] }) := by
  decide
end

end Wamp.Spec
