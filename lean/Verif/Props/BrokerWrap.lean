import Verif.Props.Broker

/-!
# C19/C24/C25 beyond 2^53 ids

The hypothesis `NoClash` of the broker theorems cannot be dropped: once the id generator has wrapped around, a session
may be handed an id it already holds, the older subscription is forgotten by the per-session index, and removing the
session leaves it subscribed.
-/

namespace Wamp.Broker
open Spec.Pub

/-- The PUBLISH used to consume ids. -/
def wrapPub : Publish := ⟨.int 1, "c", none, none, []⟩

/-- Session 1 subscribes to "a" (id 1), publishes `n` times (`2^53 - 1`: until the generator
is about to wrap), subscribes to "b" (id 1 again)
and leaves. -/
def wrapOps (n : Nat) : List Op :=
  [.addSession ⟨.int 1, "r", none, none⟩, .addSession ⟨.int 2, "r", none, none⟩,
   .receiveMessage 1 (.subscribe ⟨.int 1, "a", []⟩)] ++
  (List.replicate n (.receivePublish 1 wrapPub) ++
  [.receiveMessage 1 (.subscribe ⟨.int 2, "b", []⟩), .removeSession 1])

theorem publishes (n : Nat) : ∀ b : Broker, b.subscriptionsBySession.contains 1 = true → ∀ k, b.idgen = IdGen.after k →
    (b.runFrom (List.replicate n (.receivePublish 1 wrapPub))).1 = { b with idgen := IdGen.after (k + n) } := by
  induction n with
  | zero => intro b _ k hk; simp only [List.replicate_zero, runFrom, Nat.add_zero, ← hk]
  | succ n ih =>
    intro b hb k hk
    simp only [List.replicate_succ, runFrom]
    have h1 : (b.step (.receivePublish 1 wrapPub)).1 = { b with idgen := IdGen.after (k + 1) } := by
      simp only [step, receivePublish, if_pos hb, hk]; rfl
    rw [h1, ih { b with idgen := IdGen.after (k + 1) } hb (k + 1) rfl]
    have : k + 1 + n = k + (n + 1) := by omega
    rw [this]

/-- The broker after the first three calls. -/
def wrapStart : Broker := after [.addSession ⟨.int 1, "r", none, none⟩, .addSession ⟨.int 2, "r", none, none⟩,
   .receiveMessage 1 (.subscribe ⟨.int 1, "a", []⟩)]

theorem after_append (xs ys : List Op) : after (xs ++ ys) = ((after xs).runFrom ys).1 := by
  simp only [after, runFrom_append]

theorem wrap_after (n : Nat) : after (wrapOps n) = (({ wrapStart with idgen := IdGen.after (1 + n) } : Broker).runFrom
      [.receiveMessage 1 (.subscribe ⟨.int 2, "b", []⟩), .removeSession 1]).1 := by
  have h : (wrapStart.runFrom (List.replicate n (.receivePublish 1 wrapPub))).1 = { wrapStart with idgen := IdGen.after (1 + n) } :=
    publishes n wrapStart rfl 1 rfl
  rw [wrapOps, after_append, runFrom_append, ← h]; rfl

theorem wrap_core (n : Nat) (hid : (IdGen.after (1 + n)).next.2 = 1) :
    outcome (wrapOps n) (.removeSession 1) = .error (.valueError "cannot remove non-existing session") ∧
      ∃ p, outcome (wrapOps n) (.receivePublish 2 ⟨.int 1, "a", none, none, []⟩) = .ok (.publication p) ∧ p.recipients = [1] := by
  unfold outcome
  have h1 := wrap_after n
  revert hid h1
  generalize after (wrapOps n) = bb
  generalize IdGen.after (1 + n) = g
  intro hid h1
  rcases hg : g.next with ⟨g', i⟩
  rw [hg] at hid; simp only at hid; subst hid
  have h2 : (({ wrapStart with idgen := g } : Broker).step (.receiveMessage 1 (.subscribe ⟨.int 2, "b", []⟩))).1 =
      { wrapStart with
        idgen := g'
        heap := fun r => if r = 1 then ⟨1, "b", ⟨[(1, 1)]⟩⟩ else wrapStart.heap r
        nextRef := 2
        subscriptionsByTopic := ⟨[("a", 0), ("b", 1)]⟩
        subscriptionsBySession := ⟨[(1, ⟨[(1, 1)]⟩), (2, ⟨[]⟩)]⟩ } := by
    have ht : ({ wrapStart with idgen := g } : Broker).subscriptionsByTopic.get "b" = none := rfl
    have hs : ({ wrapStart with idgen := g } : Broker).subscriptionsBySession.get 1 = some ⟨[(1, 0)]⟩ := rfl
    simp only [step, receiveMessage, subscribe_new _ 1 ⟨.int 2, "b", []⟩ _ hs ht, hg]
    rfl
  simp only [runFrom, h2] at h1
  subst h1
  exact ⟨rfl, _, rfl, rfl⟩

/-- After `2^53` ids, exact delivery and removal fail: session 1 has left, and still a publish to "a" names it as a
recipient. -/
theorem C25_fails_after_wrap :
    ∃ ops, outcome ops (.removeSession 1) = .error (.valueError "cannot remove non-existing session") ∧
      ∃ p, outcome ops (.receivePublish 2 ⟨.int 1, "a", none, none, []⟩) = .ok (.publication p) ∧ p.recipients = [1] := by
  have key : ∀ n, (IdGen.after n).next.2 = (n % 2 ^ 53 : Nat) + 1 := fun n => by rw [idgen_next, draw_eq]
  exact ⟨wrapOps (2 ^ 53 - 1), wrap_core _ (by rw [key]; omega)⟩

end Wamp.Broker
