import Verif.Props.Bystanders
import Verif.Proofs.LoginEnds
import Verif.Props.NetworkStream

/-! # C126: who is not let in learns nothing about the others -/

namespace Wamp.Spec.Stack
open RawSocket Net Hs

variable {r : Setup}

/-- What happens on this connection -/
def onlyOn (c : Nat) (sched : List GAct) : List GAct := sched.filter fun a => connOf a == c

theorem onlyOn_snoc (c : Nat) (sched : List GAct) (a : GAct) :
    onlyOn c (sched ++ [a]) = if connOf a = c then onlyOn c sched ++ [a] else onlyOn c sched := by
  simp only [onlyOn, List.filter_append, List.filter_cons, List.filter_nil, beq_iff_eq]
  split <;> simp

/-- What happens on a connection depends on the connection alone, unless somebody is let in or is in. -/
theorem own_links {n n' : Stack} {a : GAct} (hl : n.links (connOf a) = n'.links (connOf a)) (ho : Outside n (connOf a))
    (hv : ∀ c env l f acc x rest d b, a = .act (.serve c env) → n.links c = some l → l.router = .accepting f acc →
      readOne l.upHas = some (x, rest) → verdict r f acc env x.payload ≠ .welcome d b) :
    (n.gstep r a).links (connOf a) = (n'.gstep r a).links (connOf a) := by
  have hset : ∀ (n n' : Stack) c x, (n.set c x).links c = (n'.set c x).links c := by
    intro n n' c x
    rw [set_links, set_links, if_pos rfl, if_pos rfl]
  cases a with
  | inject c b =>
    simp only [connOf] at hl ⊢
    simp only [Stack.gstep, ← hl]
    cases h : n.links c with
    | none => rw [← hl]
    | some l => exact hset _ _ _ _
  | act a =>
    cases a <;> simp only [connOf] at hl ho ⊢ <;> simp only [Stack.gstep, Stack.step, ← hl]
    case connect c cfg sid =>
      split
      · exact hset _ _ _ _
      · exact hl
    case serve c env =>
      cases h : n.links c with
      | none => rw [← hl]
      | some l =>
        dsimp only
        unfold Stack.serve
        cases hro : l.router with
        | attached f s => exact absurd hro (ho l f s h)
        | closed => exact hl
        | greeting sid => exact hset _ _ _ _
        | accepting f acc =>
          dsimp only
          cases hx : readOne l.upHas with
          | none => exact hl
          | some z =>
            dsimp only
            cases hve : verdict r f acc env z.1.payload with
            | welcome d b => exact absurd hve (hv c env l f acc z.1 z.2 d b rfl h hro hx)
            | away b => exact hset _ _ _ _
            | more a' b => exact hset _ _ _ _
    case drop c =>
      cases h : n.links c with
      | none => rw [← hl]
      | some l =>
        dsimp only
        split
        · exact hset _ _ _ _
        · exact hset _ _ _ _
    all_goals
      split
      · exact hl
      · exact hset _ _ _ _

theorem Outside.of_links {n : Stack} {c : Nat} (h : Outside n c) (out : List (Int × Message)) :
    (n.links c).map (Link.push out) = n.links c := by
  cases hl : n.links c with
  | none => rfl
  | some l =>
    have := h l
    simp only [Option.map_some, Option.some.injEq]
    unfold Link.push
    split
    · rename_i f s hr
      exact absurd hr (this f s hl)
    · rfl

/-- A connection on which nobody has been welcomed is as if there were no other: in particular the bytes that have been put on the way
back are the same, whoever else is connected and whatever they do. -/
theorem C126_secrecy (r : Setup) (hr : r.hasAuthenticator = true) (sched : List GAct) (c : Nat) (hq : Unwelcome r sched c) :
    (grun r sched).links c = (grun r (onlyOn c sched)).links c := by
  induction sched using snoc_induction with
  | nil => rfl
  | snoc sched a ih =>
    have ih := ih hq.before
    have ho : Outside (grun r sched) c :=
      (bystanders (q := fun c' => c' == c) hr sched (fun c' hc => by rw [beq_iff_eq] at hc; subst hc; exact hq.before)).2 c (by simp)
    rw [grun_snoc, onlyOn_snoc]
    split
    · rename_i hc
      subst hc
      rw [grun_snoc]
      refine own_links ih ho ?_
      rintro c env l f acc x rest d b rfl hl hro hx
      exact no_welcome hr hq hl hro hx d b
    · rename_i hc
      rcases other_links r (grun r sched) (a := a) (c := c) (fun e => hc e.symm) with e | ⟨out, e⟩
      · rw [e, ih]
      · rw [e, ho.of_links, ih]

theorem hears_links {n n' : Stack} {c : Nat} (h : n.links c = n'.links c) : n.hears c = n'.hears c := by
  simp only [Stack.hears, h]

theorem dialogStep_other {n : Stack} {c : Nat} {x : Option (PyInt × List Acceptor.In)} {a : GAct} (h : connOf a ≠ c) :
    dialogStep n c x a = x := by
  cases a with
  | inject c' b => rfl
  | act a =>
    cases a <;> simp only [connOf] at h <;> simp only [dialogStep]
    · rw [if_neg (fun e => h e.1)]
    · rw [if_neg h]
    · rw [if_neg h]

theorem dialogStep_own {n n' : Stack} {c : Nat} (h : n.links c = n'.links c) (x : Option (PyInt × List Acceptor.In)) (a : GAct) :
    dialogStep n c x a = dialogStep n' c x a := by
  cases a with
  | inject c' b => rfl
  | act a => cases a <;> simp only [dialogStep, h, hears_links h]

theorem secrecy_dialog (hr : r.hasAuthenticator = true) (sched : List GAct) (c : Nat) (hq : Unwelcome r sched c) :
    dialog r sched c = dialog r (onlyOn c sched) c := by
  induction sched using snoc_induction with
  | nil => rfl
  | snoc sched a ih =>
    have ih := ih hq.before
    rw [dialog_snoc, onlyOn_snoc]
    split
    · rw [dialog_snoc, ih, dialogStep_own (C126_secrecy r hr sched c hq.before)]
    · rename_i hc
      rw [dialogStep_other hc, ih]

/-- Whether somebody is welcomed on a connection does not depend on the others either. -/
theorem unwelcome_onlyOn (hr : r.hasAuthenticator = true) (sched : List GAct) (c : Nat) (hq : Unwelcome r (onlyOn c sched) c) :
    Unwelcome r sched c := by
  induction sched using snoc_induction with
  | nil => exact hq
  | snoc sched a ih =>
    have hq' : Unwelcome r (onlyOn c sched) c := by
      rw [onlyOn_snoc] at hq
      split at hq
      · exact hq.before
      · exact hq
    have ih := ih hq'
    intro pre env post m sid ins w e hh hdia
    rcases split_last e with ⟨rfl, rfl⟩ | ⟨post', rfl⟩
    · rw [onlyOn_snoc, if_pos (show connOf (.act (.serve c env)) = c from rfl)] at hq
      rw [hears_links (C126_secrecy r hr sched c ih)] at hh
      rw [secrecy_dialog hr sched c ih] at hdia
      exact hq _ env [] m sid ins w rfl hh hdia
    · exact ih pre env post' m sid ins w rfl hh hdia

/-- And conversely. -/
theorem onlyOn_unwelcome (hr : r.hasAuthenticator = true) (sched : List GAct) (c : Nat) (hq : Unwelcome r sched c) :
    Unwelcome r (onlyOn c sched) c := by
  induction sched using snoc_induction with
  | nil => exact hq
  | snoc sched a ih =>
    have ih := ih hq.before
    rw [onlyOn_snoc]
    split
    · intro pre env post m sid ins w e hh hdia
      rcases split_last e with ⟨rfl, rfl⟩ | ⟨post', h⟩
      · rw [← hears_links (C126_secrecy r hr sched c hq.before)] at hh
        rw [← secrecy_dialog hr sched c hq.before] at hdia
        exact hq sched env [] m sid ins w rfl hh hdia
      · exact ih pre env post' m sid ins w h hh hdia
    · exact ih

/-- Two systems in which the same happens on a connection on which nobody is welcomed in one of them: nobody is in the other, and nobody
on that connection can tell which of the two they are in. -/
theorem C126_same_view (r : Setup) (hr : r.hasAuthenticator = true) (sched sched' : List GAct) (c : Nat)
    (h : onlyOn c sched = onlyOn c sched') (hq : Unwelcome r sched c) :
    Unwelcome r sched' c ∧ (grun r sched).links c = (grun r sched').links c := by
  have hq' : Unwelcome r sched' c := unwelcome_onlyOn hr sched' c (by rw [← h]; exact onlyOn_unwelcome hr sched c hq)
  exact ⟨hq', by rw [C126_secrecy r hr sched c hq, C126_secrecy r hr sched' c hq', h]⟩

/-- The stranger sees the same with and without the one who has the secret. -/
example : (grun craSetup together).links 0 = (grun craSetup (onlyOn 0 together)).links 0 ∧ (onlyOn 0 together).length = 9 := by
  refine ⟨C126_secrecy craSetup rfl together 0 ?_, by decide⟩
  refine C122_refused craSetup rfl together 0 ?_
  intro env x response h
  have : env = strictEnv := by
    simp only [together, intrusion, List.map_cons, List.map_nil, List.mem_cons, reduceCtorEq, GAct.act.injEq, SAct.serve.injEq,
      List.not_mem_nil, or_false, false_or] at h
    simp_all
  subst this
  exact fun e => by cases e

end Wamp.Spec.Stack
