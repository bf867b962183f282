import Verif.Props.Dealer

/-!
# Binary payloads at the dealer: C73

C73 as stated is false of the code: the RESULT built from a YIELD never carries its binary payload
(`C73_result_drops_payload`), and the INVOCATION built from a CALL carries the payload but denies that it is binary
(`C73_invocation_denies_binary`).
-/

namespace Wamp.Dealer
open Wamp.Spec.Rpc

/-- The INVOCATION built from a CALL carries its binary payload and the id of the serializer the payload was made with. -/
theorem C73_invocation_payload_partial (ops : List Op) (s : Int) (m : Call) (inv : Invocation) (q : Int)
    (h : outcome ops (.receiveMessage s (.call m)) = .ok (.reply ⟨.invocation inv, q⟩)) :
    inv.payload = m.payload ∧ inv.serializer = m.serializer ∧ inv.args = m.args ∧ inv.kwargs = m.kwargs := by
  have hk := kind (after ops) (wf_after ops) (.receiveMessage s (.call m))
  rw [outcome] at h
  generalize (after ops).step (.receiveMessage s (.call m)) = res at hk h
  cases hk <;> simp only [reduceCtorEq, Except.ok.injEq, Out.reply.injEq, MessageWithRecipient.mk.injEq, Message.invocation.injEq,
    false_and] at h
  · rw [← h.1]; exact ⟨rfl, rfl, rfl, rfl⟩
  · rw [← h.1]; exact ⟨rfl, rfl, rfl, rfl⟩

/-- It never says that the payload is binary, whatever the CALL says. -/
theorem C73_invocation_denies_binary (ops : List Op) (s : Int) (m : Call) (inv : Invocation) (q : Int)
    (h : outcome ops (.receiveMessage s (.call m)) = .ok (.reply ⟨.invocation inv, q⟩)) : inv.binary = false := by
  have hk := kind (after ops) (wf_after ops) (.receiveMessage s (.call m))
  rw [outcome] at h
  generalize (after ops).step (.receiveMessage s (.call m)) = res at hk h
  cases hk <;> simp only [reduceCtorEq, Except.ok.injEq, Out.reply.injEq, MessageWithRecipient.mk.injEq, Message.invocation.injEq,
    false_and] at h
  · rw [← h.1]; rfl
  · rw [← h.1]; rfl

/-- The RESULT built from a YIELD carries its arguments, but never a binary payload or serializer id, whatever the YIELD
carries. -/
theorem C73_result_drops_payload (ops : List Op) (s : Int) (y : Yield) (r : Result) (q : Int)
    (h : outcome ops (.receiveMessage s (.yield_ y)) = .ok (.reply ⟨.result r, q⟩)) :
    r.args = y.args ∧ r.kwargs = y.kwargs ∧ r.payload = none ∧ r.serializer = none ∧ r.binary = false := by
  have hk := kind (after ops) (wf_after ops) (.receiveMessage s (.yield_ y))
  rw [outcome] at h
  generalize (after ops).step (.receiveMessage s (.yield_ y)) = res at hk h
  cases hk <;> simp only [reduceCtorEq, Except.ok.injEq, Out.reply.injEq, MessageWithRecipient.mk.injEq, Message.result.injEq] at h
  · rw [← h.1]; exact ⟨rfl, rfl, rfl, rfl, rfl⟩
  · rw [← h.1]; exact ⟨rfl, rfl, rfl, rfl, rfl⟩

/-- A CALL with a binary payload to a registered procedure. -/
def demoBinary : List Op :=
  [.addSession ⟨.int 1, "r", none, none⟩, .receiveMessage 1 (.register ⟨.int 1, "p", []⟩)]

example : ∃ inv, outcome demoBinary (.receiveMessage 1 (.call ⟨.int 5, "p", none, none, [], some 1, some [0xa1], true⟩)) =
    .ok (.reply ⟨.invocation inv, 1⟩) ∧ inv.payload = some [0xa1] ∧ inv.binary = false := ⟨_, rfl, rfl, rfl⟩

/-- Its answer, with a binary payload, arrives without. -/
theorem C73_fails : ∃ r, outcome (demoBinary ++ [.receiveMessage 1 (.call ⟨.int 5, "p", none, none, [], some 1, some [0xa1], true⟩)])
      (.receiveMessage 1 (.yield_ ⟨.int 2, none, none, [], some [0xa2], some 1, true⟩)) = .ok (.reply ⟨.result r, 1⟩) ∧
    r.payload = none ∧ r.args = none := ⟨_, rfl, rfl, rfl⟩

end Wamp.Dealer
