import Verif.Spec.Joiner
import Verif.Proofs.Lists

/-! # The joiner's state as a function of the history -/

namespace Wamp.Joiner
open Spec.Jn

theorem after_snoc (j : Joiner) (cs : List Op) (c : Op) : after j (cs ++ [c]) = (after j cs).step c := by
  simp [after]

structure Inv (j0 : Joiner) (cs : List Op) (s : Joiner) : Prop where
  realm : s.realm = j0.realm
  welcome : s.state = .helloSent ∨ s.state = .authenticateSent ↔ AwaitsWelcome j0 cs
  challenge : s.state = .helloSent ↔ AwaitsChallenge j0 cs
  details : ∀ d, s.sessionDetails = some d ↔ ∃ w, LastWelcome j0 cs w ∧ d = ⟨w.sessionId, j0.realm, w.authid, w.authrole⟩

theorem awaitsWelcome_snoc {j : Joiner} {cs : List Op} {c : Op} :
    AwaitsWelcome j (cs ++ [c]) ↔ isHello c ∨ (AwaitsWelcome j cs ∧ ∀ w, ¬ AcceptedWelcome j cs w c) :=
  split_snoc_hist (P := isHello) (Q := fun pre e => ∀ w, ¬ AcceptedWelcome j pre w e)

theorem awaitsChallenge_snoc {j : Joiner} {cs : List Op} {c : Op} :
    AwaitsChallenge j (cs ++ [c]) ↔
      isHello c ∨ (AwaitsChallenge j cs ∧ (∀ w, ¬ AcceptedWelcome j cs w c) ∧ ¬ AnsweredChallenge j cs c) :=
  split_snoc_hist (P := isHello) (Q := fun pre e => (∀ w, ¬ AcceptedWelcome j pre w e) ∧ ¬ AnsweredChallenge j pre e)

theorem lastWelcome_snoc {j : Joiner} {cs : List Op} {c : Op} {w : Welcome} :
    LastWelcome j (cs ++ [c]) w ↔ AcceptedWelcome j cs w c ∨ (LastWelcome j cs w ∧ ∀ w, ¬ AcceptedWelcome j cs w c) :=
  split_snoc_hist_pre (P := fun pre e => AcceptedWelcome j pre w e) (Q := fun pre e => ∀ w, ¬ AcceptedWelcome j pre w e)

theorem inv_init (realm : String) : Inv (init realm) [] (init realm) := by
  refine ⟨rfl, ?_, ?_, ?_⟩
  · constructor
    · rintro (h | h) <;> cases h
    · rintro ⟨pre, _, _, h, _⟩; cases pre <;> cases h
  · constructor
    · intro h; cases h
    · rintro ⟨pre, _, _, h, _⟩; cases pre <;> cases h
  · intro d
    constructor
    · intro h; cases h
    · rintro ⟨_, ⟨pre, _, _, h, _⟩, _⟩; cases pre <;> cases h

/-- A call that neither accepts a WELCOME, nor answers a CHALLENGE, nor sends a HELLO, and changes nothing. -/
theorem inv_same {j0 : Joiner} {cs : List Op} {s : Joiner} {c : Op} (hi : Inv j0 cs s) (h1 : ¬ isHello c)
    (h2 : ∀ w, ¬ AcceptedWelcome j0 cs w c) (h3 : ¬ AnsweredChallenge j0 cs c) : Inv j0 (cs ++ [c]) s := by
  refine ⟨hi.realm, ?_, ?_, ?_⟩
  · rw [awaitsWelcome_snoc, hi.welcome]; simp [h1, h2]
  · rw [awaitsChallenge_snoc, hi.challenge]; simp [h1, h2, h3]
  · intro d; simp only [lastWelcome_snoc, hi.details]; simp [h2]

theorem inv_step (j0 : Joiner) (cs : List Op) (hi : Inv j0 cs (after j0 cs)) (c : Op) :
    Inv j0 (cs ++ [c]) (after j0 (cs ++ [c])) := by
  rw [after_snoc]
  have hrep : ∀ au m, reply j0 cs au m = ((after j0 cs).receiveMessage au m).2 := fun _ _ => rfl
  generalize after j0 cs = s at *
  cases c with
  | sendHello au roles =>
    refine ⟨hi.realm, ?_, ?_, ?_⟩
    · rw [awaitsWelcome_snoc]; simp [step, sendHelloMessage, isHello]
    · rw [awaitsChallenge_snoc]; simp [step, sendHelloMessage, isHello]
    · intro d; simp only [lastWelcome_snoc]; simpa [step, sendHelloMessage, AcceptedWelcome] using hi.details d
  | receive au msg =>
    have h1 : ¬ isHello (.receive au msg) := id
    have quiet : (∃ e, s.receiveMessage au msg = (s, .error e)) → Inv j0 (cs ++ [.receive au msg]) (s.step (.receive au msg)) := by
      rintro ⟨e, he⟩
      have : s.step (.receive au msg) = s := by simp [step, he]
      rw [this]
      refine inv_same hi h1 ?_ ?_
      · intro w h
        unfold AcceptedWelcome at h
        split at h
        · next e1 => injection e1 with e1 e2; subst e1 e2; obtain ⟨hw, h⟩ := h; subst hw; rw [hrep, he] at h; cases h
        · exact h
      · intro h
        unfold AnsweredChallenge at h
        split at h
        · next e1 => injection e1 with e1 e2; subst e1 e2; rw [hrep, he] at h; obtain ⟨_, h⟩ := h; cases h
        · exact h
    cases msg
    case welcome m =>
      by_cases hs : s.state ≠ .helloSent ∧ s.state ≠ .authenticateSent
      · exact quiet ⟨_, by unfold receiveMessage; simp only []; rw [if_pos hs]⟩
      · have hr : s.receiveMessage au (.welcome m) =
            ({ s with sessionDetails := some ⟨m.sessionId, s.realm, m.authid, m.authrole⟩, state := .joined }, .ok none) := by
          unfold receiveMessage; simp only []; rw [if_neg hs]
        have hacc : ∀ w, AcceptedWelcome j0 cs w (.receive au (.welcome m)) ↔ w = m := by
          intro w; unfold AcceptedWelcome
          constructor
          · intro h; exact h.1.symm
          · rintro rfl; exact ⟨rfl, by rw [hrep, hr]⟩
        have hstep : s.step (.receive au (.welcome m)) = { s with sessionDetails := some ⟨m.sessionId, s.realm, m.authid, m.authrole⟩, state := .joined } := by
          simp [step, hr]
        rw [hstep]
        refine ⟨hi.realm, ?_, ?_, ?_⟩
        · rw [awaitsWelcome_snoc]
          constructor
          · rintro (h | h) <;> cases h
          · rintro (h | ⟨_, h⟩)
            · exact absurd h h1
            · exact absurd ((hacc m).2 rfl) (h m)
        · rw [awaitsChallenge_snoc]
          constructor
          · intro h; cases h
          · rintro (h | ⟨_, h, _⟩)
            · exact absurd h h1
            · exact absurd ((hacc m).2 rfl) (h m)
        · intro d
          simp only [lastWelcome_snoc, hacc]
          constructor
          · intro h; injection h with h; exact ⟨m, .inl rfl, by rw [← h, hi.realm]⟩
          · rintro ⟨w, rfl | ⟨_, h⟩, rfl⟩
            · simp [hi.realm]
            · exact absurd rfl (h m)
    case challenge ch =>
      by_cases hs : s.state ≠ .helloSent
      · exact quiet ⟨_, by unfold receiveMessage; simp only []; rw [if_pos hs]⟩
      · cases ha : au.authenticate ch with
        | error e => exact quiet ⟨e, by unfold receiveMessage; simp only []; rw [if_neg hs, ha]⟩
        | ok m =>
          have hr : s.receiveMessage au (.challenge ch) = ({ s with state := .authenticateSent }, .ok (some (.authenticate m))) := by
            unfold receiveMessage; simp only []; rw [if_neg hs, ha]
          have hans : AnsweredChallenge j0 cs (.receive au (.challenge ch)) := ⟨_, by rw [hrep, hr]⟩
          have hw : ∀ w, ¬ AcceptedWelcome j0 cs w (.receive au (.challenge ch)) := fun _ h => h
          have hstep : s.step (.receive au (.challenge ch)) = { s with state := .authenticateSent } := by simp [step, hr]
          have hs' : s.state = .helloSent := by simpa using hs
          rw [hstep]
          refine ⟨hi.realm, ?_, ?_, ?_⟩
          · rw [awaitsWelcome_snoc, ← hi.welcome]; simp [hs', hw, h1]
          · rw [awaitsChallenge_snoc]; simp [hans, h1]
          · intro d; simp only [lastWelcome_snoc, hi.details]; simp [hw]
    all_goals exact quiet ⟨_, rfl⟩

theorem inv_after (realm : String) (cs : List Op) : Inv (init realm) cs (after (init realm) cs) := by
  induction cs using snoc_induction with
  | nil => exact inv_init realm
  | snoc cs c ih => exact inv_step _ cs ih c

end Wamp.Joiner
