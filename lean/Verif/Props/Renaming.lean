import Verif.Proofs.RenamingDealer
import Verif.Proofs.Contents

/-!
# C108 and C110: the routers do not know what a name means, and do not say who is behind a message
-/

namespace Wamp.Spec
open Naming

/-- With other ids for the sessions and other names for the topics, the same happens: after the renamed history, the renamed
call ends as the call did, with the same messages to the renamed sessions. -/
theorem C108_broker (f : Int → Int) (g : String → String) (hf : OneToOne f) (hg : OneToOne g) (ops : List Broker.Op)
    (op : Broker.Op) :
    Alike (pubOut f) (Broker.outcome ops op) (Broker.outcome (ops.map (pubOp f g)) (pubOp f g op)) :=
  (Broker.renamed_step hf hg (Broker.renamed_runFrom hf hg ops _ _ Broker.renamed_init) op).2

/-- The same for the dealer. -/
theorem C108_dealer (f : Int → Int) (g : String → String) (hf : OneToOne f) (hg : OneToOne g) (ops : List Dealer.Op)
    (op : Dealer.Op) :
    Alike (rpcOut f) (Dealer.outcome ops op) (Dealer.outcome (ops.map (rpcOp f g)) (rpcOp f g op)) :=
  (Dealer.renamed_step hf hg (Dealer.wf_after ops) (Dealer.renamed_runFrom hf hg ops _ _ Dealer.wf_init Dealer.renamed_init) op).2

/-! A history, and the same history between other sessions about another topic. -/
section
private def f : Int → Int := fun s => 1000 - s
private def g : String → String := fun t => t ++ ".v2"

theorem C108_case_oneToOne : OneToOne f ∧ OneToOne g := by
  constructor
  · intro x y h
    simp only [f] at h
    omega
  · intro x y h
    have := congrArg String.toList h
    simp only [g, String.toList_append] at this
    exact String.toList_inj.1 (List.append_cancel_right this)

private def talk : List Broker.Op :=
  [.addSession { sessionId := .int 1, realm := "r" }, .addSession { sessionId := .int 2, realm := "r" },
   .receiveMessage 2 (.subscribe { requestId := .int 1, topic := "a" })]

example : talk.map (pubOp f g) =
    [.addSession { sessionId := .int 999, realm := "r" }, .addSession { sessionId := .int 998, realm := "r" },
     .receiveMessage 998 (.subscribe { requestId := .int 1, topic := "a.v2" })] := by decide

example : (Broker.outcome talk (.receivePublish 1 { requestId := .int 1, topic := "a", args := some [.int 5] })).map
      (fun o => match o with | .publication p => p.recipients | _ => []) = .ok [2] ∧
    (Broker.outcome (talk.map (pubOp f g)) (.receivePublish 999 { requestId := .int 1, topic := "a.v2", args := some [.int 5] })).map
      (fun o => match o with | .publication p => p.recipients | _ => []) = .ok [998] := by decide

private def offer : List Dealer.Op :=
  [.addSession { sessionId := .int 1, realm := "r" }, .addSession { sessionId := .int 2, realm := "r" },
   .receiveMessage 2 (.register { requestId := .int 1, procedure := "a" })]

example : Dealer.outcome (offer.map (rpcOp f g)) (.receiveMessage 999 (.call { requestId := .int 1, procedure := "a.v2" })) =
    .ok (.reply ⟨.invocation { requestId := .int 2, registrationId := .int 1 }, 998⟩) := by decide
end

/-! ## Who is behind a message -/

theorem mail_sent {f : Int → Int} (hf : OneToOne f) (c : Int) (m : MessageWithRecipient) :
    mail (f c) (sent f m) = mail c m := by
  have h : (sent f m).recipient = f c ↔ m.recipient = c := ⟨fun h => hf _ _ h, fun h => congrArg f h⟩
  simp only [mail, h]
  rfl

theorem pubMail_alike {f : Int → Int} (hf : OneToOne f) (c : Int) {x y : Except Exc Broker.Out} (h : Alike (pubOut f) x y) :
    pubMail (f c) y = pubMail c x := by
  have hm : ∀ m : MessageWithRecipient, mail (f c) (sent f m) = mail c m := by
    exact mail_sent hf c
  cases x with
  | error e => cases y with
    | error e' => rfl
    | ok b => exact h.elim
  | ok a =>
    cases y with
    | error e => exact h.elim
    | ok b =>
      subst h
      cases a with
      | unit => rfl
      | bool b => rfl
      | reply m => exact hm m
      | publication p =>
        have h1 : (f c ∈ p.recipients.map f) ↔ c ∈ p.recipients := by
          rw [List.mem_map]
          exact ⟨fun ⟨a, h1, h2⟩ => hf _ _ h2 ▸ h1, fun h => ⟨c, h, rfl⟩⟩
        simp only [pubMail, pubOut, h1]
        cases p.ack with
        | none => rfl
        | some m => simp only [Option.map, Option.toList, List.flatMap_cons, List.flatMap_nil, hm m]

theorem rpcMail_alike {f : Int → Int} (hf : OneToOne f) (c : Int) {x y : Except Exc Dealer.Out} (h : Alike (rpcOut f) x y) :
    rpcMail (f c) y = rpcMail c x := by
  cases x with
  | error e => cases y with
    | error e' => rfl
    | ok b => exact h.elim
  | ok a =>
    cases y with
    | error e => exact h.elim
    | ok b =>
      subst h
      cases a with
      | unit => rfl
      | bool b => rfl
      | reply m => exact mail_sent hf c m

theorem pubInbox_from {f : Int → Int} {g : String → String} (hf : OneToOne f) (hg : OneToOne g) (c : Int)
    (ops : List Broker.Op) : ∀ b b' : Broker, Broker.Renamed f g b b' →
    pubInbox (f c) (b'.runFrom (ops.map (pubOp f g))).2 = pubInbox c (b.runFrom ops).2 := by
  induction ops with
  | nil => intro b b' _; rfl
  | cons op ops ih =>
    intro b b' h
    obtain ⟨h1, h2⟩ := Broker.renamed_step hf hg h op
    simp only [List.map_cons, Broker.runFrom, pubInbox, List.flatMap_cons, pubMail_alike hf c h2]
    exact congrArg _ (ih _ _ h1)

theorem rpcInbox_from {f : Int → Int} {g : String → String} (hf : OneToOne f) (hg : OneToOne g) (c : Int)
    (ops : List Dealer.Op) : ∀ b b' : Dealer, b.Wf → Dealer.Renamed f g b b' →
    rpcInbox (f c) (b'.runFrom (ops.map (rpcOp f g))).2 = rpcInbox c (b.runFrom ops).2 := by
  induction ops with
  | nil => intro b b' _ _; rfl
  | cons op ops ih =>
    intro b b' hb h
    obtain ⟨h1, h2⟩ := Dealer.renamed_step hf hg hb h op
    simp only [List.map_cons, Dealer.runFrom, rpcInbox, List.flatMap_cons, rpcMail_alike hf c h2]
    exact congrArg _ (ih _ _ (Dealer.wf_step b hb op) h1)

/-- All a client ever gets from the broker is the same, message for message, whoever the others are: exchange the other
sessions in any way, and its inbox stays as it is. -/
theorem C110_broker_inbox (f : Int → Int) (hf : OneToOne f) (c : Int) (hc : f c = c) (ops : List Broker.Op) :
    pubInbox c (Broker.trace (ops.map (pubOp f id))) = pubInbox c (Broker.trace ops) := by
  have := pubInbox_from hf (g := id) (fun x y h => h) c ops _ _ Broker.renamed_init
  rwa [hc] at this

/-- The same for the dealer: a callee does not learn who calls, nor a caller who answers. -/
theorem C110_dealer_inbox (f : Int → Int) (hf : OneToOne f) (c : Int) (hc : f c = c) (ops : List Dealer.Op) :
    rpcInbox c (Dealer.trace (ops.map (rpcOp f id))) = rpcInbox c (Dealer.trace ops) := by
  have := rpcInbox_from hf (g := id) (fun x y h => h) c ops _ _ Dealer.wf_init Dealer.renamed_init
  rwa [hc] at this

/-- Who publishes, with which request id and which options, makes no difference to the subscribers: the same sessions get
the same EVENT. -/
theorem C110_publish (ops : List Broker.Op) (s s' : Int) (m m' : Publish) (p p' : Publication)
    (h : Broker.outcome ops (.receivePublish s m) = .ok (.publication p))
    (h' : Broker.outcome ops (.receivePublish s' m') = .ok (.publication p'))
    (ht : m'.topic = m.topic) (ha : m'.args = m.args) (hk : m'.kwargs = m.kwargs) :
    p'.recipients = p.recipients ∧ p'.event = p.event := by
  simp only [Broker.outcome, Broker.step, Broker.receivePublish] at h h'
  generalize Broker.after ops = b at h h'
  split at h
  · split at h'
    · simp only [Except.map, ht, ha, hk] at h h'
      have h := Broker.Out.publication.inj (Except.ok.inj h)
      have h' := Broker.Out.publication.inj (Except.ok.inj h')
      subst h; subst h'
      cases b.subscriptionsByTopic.get m.topic <;> cases PyDict.flag m.options "acknowledge" <;>
        cases PyDict.flag m'.options "acknowledge" <;> exact ⟨rfl, rfl⟩
    · cases h'
  · cases h

/-- Who calls, and with which request id, makes no difference to the callee: the same INVOCATION is sent to the same
session, whoever else calls with the same arguments.  (Calls with the option "progress" may continue an earlier call of the
same caller, so they are the caller's own.) -/
theorem C110_call (ops : List Dealer.Op) (s s' : Int) (m m' : Call) (i : Invocation) (c : Int)
    (h : Dealer.outcome ops (.receiveMessage s (.call m)) = .ok (.reply ⟨.invocation i, c⟩))
    (h1 : m'.procedure = m.procedure) (h2 : m'.args = m.args) (h3 : m'.kwargs = m.kwargs) (h4 : m'.payload = m.payload)
    (h5 : m'.serializer = m.serializer)
    (h6 : PyDict.flag m'.options_ "receive_progress" = PyDict.flag m.options_ "receive_progress")
    (h7 : PyDict.flag m.options_ "progress" = false) (h8 : PyDict.flag m'.options_ "progress" = false) :
    Dealer.outcome ops (.receiveMessage s' (.call m')) = .ok (.reply ⟨.invocation i, c⟩) := by
  have e : ∀ (m : Call) (k : String), "x_payload_serializer" ≠ k →
      ((PyDict.get? m.options k).getD (.bool false)).truthy = PyDict.flag m.options_ k := by
    intro m k hk
    have : PyDict.get? m.options k = PyDict.get? m.options_ k := get?_withSerializer _ _ _ hk
    rw [this, PyDict.flag]
    cases PyDict.get? m.options_ k <;> rfl
  have e1 : ∀ m : Call, ((PyDict.get? m.options OPTION_PROGRESS).getD (.bool false)).truthy = PyDict.flag m.options_ "progress" :=
    fun m => e m _ (by decide)
  have e2 : ∀ m : Call, ((PyDict.get? m.options OPTION_RECEIVE_PROGRESS).getD (.bool false)).truthy =
      PyDict.flag m.options_ "receive_progress" := fun m => e m _ (by decide)
  simp only [Dealer.outcome, Dealer.step, Dealer.receiveMessage, Dealer.receiveCall] at h ⊢
  generalize Dealer.after ops = b at h ⊢
  rw [h1]
  cases hx : b.registrationsByProcedure.get m.procedure with
  | none => rw [hx] at h; cases h
  | some r =>
    rw [hx] at h
    simp only [e1, e2, h2, h3, h4, h5, h6, h7, h8] at h ⊢
    exact h

/-! Sessions 1 and 3 change places; session 2, who is subscribed and offers a procedure, gets the same. -/
section
private def swap : Int → Int := fun s => if s = 1 then 3 else if s = 3 then 1 else s

theorem C110_case_swap : OneToOne swap ∧ swap 2 = 2 := by
  constructor
  · intro x y h
    simp only [swap] at h
    repeat' split at h
    all_goals omega
  · decide

private def join : List Broker.Op :=
  [.addSession { sessionId := .int 1, realm := "r" }, .addSession { sessionId := .int 2, realm := "r" },
   .addSession { sessionId := .int 3, realm := "r" }, .receiveMessage 2 (.subscribe { requestId := .int 1, topic := "a" }),
   .receivePublish 1 { requestId := .int 7, topic := "a", args := some [.int 5] }]

example : pubInbox 2 (Broker.trace (join.map (pubOp swap id))) =
    [.subscribed { requestId := .int 1, subscriptionId := .int 1 },
     .event { subscriptionId := .int 1, publicationId := .int 2, args := some [.int 5] }] := by decide

example : (join.map (pubOp swap id)).getLast? =
    some (.receivePublish 3 { requestId := .int 7, topic := "a", args := some [.int 5] }) := by decide

private def call : List Dealer.Op :=
  [.addSession { sessionId := .int 1, realm := "r" }, .addSession { sessionId := .int 2, realm := "r" },
   .addSession { sessionId := .int 3, realm := "r" }, .receiveMessage 2 (.register { requestId := .int 1, procedure := "a" })]

example : rpcInbox 2 (Dealer.trace ((call ++ [Dealer.Op.receiveMessage 1 (.call { requestId := .int 7, procedure := "a" })]).map (rpcOp swap id))) =
    [.registered { requestId := .int 1, registrationId := .int 1 },
     .invocation { requestId := .int 2, registrationId := .int 1 }] := by decide

example : Dealer.outcome call (.receiveMessage 1 (.call { requestId := .int 7, procedure := "a" })) =
      .ok (.reply ⟨.invocation { requestId := .int 2, registrationId := .int 1 }, 2⟩) ∧
    Dealer.outcome call (.receiveMessage 3 (.call { requestId := .int 9, procedure := "a", options_ := [(.str "x", .int 1)] })) =
      .ok (.reply ⟨.invocation { requestId := .int 2, registrationId := .int 1 }, 2⟩) := by decide
end

end Wamp.Spec
