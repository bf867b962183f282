import Verif.Props.Strangers

/-! # C122: those who are not let in make no difference to those who are -/

namespace Wamp.Spec.Stack
open RawSocket Net Hs

/-- The same but for some connections -/
structure Same (q : Nat → Bool) (n n' : Stack) : Prop where
  broker : n.broker = n'.broker
  dealer : n.dealer = n'.dealer
  links : ∀ c, q c = false → n.links c = n'.links c

variable {q : Nat → Bool} {r : Setup}

theorem Same.set {n n' : Stack} (h : Same q n n') (c : Nat) (x : Option Link) : Same q (n.set c x) (n'.set c x) :=
  ⟨h.broker, h.dealer, fun c' hc => by rw [set_links, set_links, h.links c' hc]⟩

theorem Same.set_left {n n' : Stack} (h : Same q n n') {c : Nat} (hc : q c = true) (x : Option Link) : Same q (n.set c x) n' := by
  refine ⟨h.broker, h.dealer, fun c' hc' => ?_⟩
  rw [set_links, if_neg]
  · exact h.links c' hc'
  · rintro rfl
    rw [hc] at hc'; cases hc'

theorem Same.push {n n' : Stack} (h : Same q n n') (out : List (Int × Message)) : Same q (n.push out) (n'.push out) :=
  ⟨h.broker, h.dealer, fun c' hc => by rw [push_links, push_links, h.links c' hc]⟩

theorem Same.handle {n n' : Stack} (h : Same q n n') (s : Int) (m : Message) : Same q (n.handle s m) (n'.handle s m) := by
  obtain ⟨b, d, k⟩ := n
  obtain ⟨b', d', k'⟩ := n'
  obtain ⟨h1, h2, h3⟩ := h
  dsimp only at h1 h2 h3
  subst h1 h2
  unfold Stack.handle
  split
  · exact Same.push (n := ⟨_, _, k⟩) (n' := ⟨_, _, k'⟩) ⟨rfl, rfl, h3⟩ _
  · exact Same.push (n := ⟨_, _, k⟩) (n' := ⟨_, _, k'⟩) ⟨rfl, rfl, h3⟩ _
  · exact ⟨rfl, rfl, h3⟩

theorem Same.serve {n n' : Stack} (h : Same q n n') (c : Nat) (l : Link) (env : AuthEnv) :
    Same q (n.serve r c l env) (n'.serve r c l env) := by
  unfold Stack.serve
  split
  · exact h.set _ _
  · split
    · exact h
    · split
      · exact h.set _ _
      · exact h.set _ _
      · obtain ⟨b, d, k⟩ := n
        obtain ⟨b', d', k'⟩ := n'
        obtain ⟨h1, h2, h3⟩ := h
        dsimp only at h1 h2 h3 ⊢
        subst h1 h2
        split
        · exact Same.set (n := ⟨_, _, k⟩) (n' := ⟨_, _, k'⟩) ⟨rfl, rfl, h3⟩ _ _
        · exact Same.set (n := ⟨_, _, k⟩) (n' := ⟨_, _, k'⟩) ⟨rfl, rfl, h3⟩ _ _
  · split
    · exact h
    · split
      · exact h.set _ _
      · exact (h.set _ _).handle _ _
  · exact h

/-- What happens on another connection happens in the same way. -/
theorem Same.gstep {n n' : Stack} (h : Same q n n') (a : GAct) (ha : q (connOf a) = false) : Same q (n.gstep r a) (n'.gstep r a) := by
  have hl := h.links _ ha
  cases a with
  | inject c b =>
    simp only [connOf] at hl
    simp only [Stack.gstep, hl]
    split
    · exact h
    · exact h.set _ _
  | act a =>
    cases a <;> simp only [connOf] at hl <;> simp only [Stack.gstep, Stack.step, hl]
    case connect => split <;> first | exact h.set _ _ | exact h
    case serve => split <;> first | exact h | exact h.serve _ _ _
    case drop =>
      split
      · exact h
      · split
        · exact Same.set (n := ⟨_ ++ _, _ ++ _, n.links⟩) (n' := ⟨_ ++ _, _ ++ _, n'.links⟩)
            ⟨congrArg (· ++ _) h.broker, congrArg (· ++ _) h.dealer, h.links⟩ _ _
        · exact h.set _ _
    all_goals
      split
      · exact h
      · exact h.set _ _

/-- On this connection no login message is answered with WELCOME. -/
def Unwelcome (r : Setup) (sched : List GAct) (c : Nat) : Prop :=
  ∀ pre env post m sid ins w, sched = pre ++ .act (.serve c env) :: post → (grun r pre).hears c = some m → dialog r pre c = some (sid, ins) →
    Acceptor.reply r.crypto (Acceptor.init r.hasAuthenticator r.roles sid) ins (env, m) ≠ .ok (some (.welcome w))

theorem Unwelcome.before {sched : List GAct} {a : GAct} {c : Nat} (h : Unwelcome r (sched ++ [a]) c) : Unwelcome r sched c := by
  rintro pre env post m sid ins w rfl
  exact h pre env (post ++ [a]) m sid ins w (by simp)

theorem no_welcome (hr : r.hasAuthenticator = true) {sched : List GAct} {c : Nat} {env : AuthEnv}
    (hq : Unwelcome r (sched ++ [.act (.serve c env)]) c) {l : Link} {f : Format} {a : Acceptor} (hl : (grun r sched).links c = some l)
    (hro : l.router = .accepting f a) {x : Frame} {rest : Bytes} (hx : readOne l.upHas = some (x, rest)) (d : SessionDetails) (b : Bytes) :
    verdict r f a env x.payload ≠ .welcome d b := by
  intro hv
  have hlink := (ginv_run hr sched).link c l hl
  rw [hro] at hlink
  obtain ⟨hnone, sid, ins, hdia, rfl⟩ := hlink
  obtain ⟨m, hm, hdet⟩ := verdict_welcome hv
  have hh : (grun r sched).hears c = some m := by
    simp only [Stack.hears, hl, hro, hx, hm]
    rfl
  rw [hr] at hnone hdet
  obtain ⟨⟨w, hw⟩, -⟩ := welcome_consent r.crypto r.roles sid ins (env, m) d hnone hdet
  exact hq sched env [] m sid ins w rfl hh hdia (by rw [hr]; exact hw)

/-- The router has not let anybody in on this connection. -/
def Outside (n : Stack) (c : Nat) : Prop := ∀ l f s, n.links c = some l → l.router ≠ .attached f s

theorem Outside.set {n : Stack} {c : Nat} (x : Option Link) (hx : ∀ l f s, x = some l → l.router ≠ .attached f s) : Outside (n.set c x) c := by
  intro l f s hl
  rw [set_links, if_pos rfl] at hl
  exact hx l f s hl

/-- What happens on such a connection stays there. -/
theorem outside_step (hr : r.hasAuthenticator = true) {sched : List GAct} {a : GAct} (hq : Unwelcome r (sched ++ [a]) (connOf a))
    (ho : Outside (grun r sched) (connOf a)) :
    Outside ((grun r sched).gstep r a) (connOf a) ∧
      ∃ x, (grun r sched).gstep r a = (grun r sched).set (connOf a) x ∨ (grun r sched).gstep r a = grun r sched := by
  have keep : ∀ (l l' : Link), (grun r sched).links (connOf a) = some l → l'.router = l.router →
      ∀ l2 f s, some l' = some l2 → l2.router ≠ .attached f s := by
    rintro l l' hl hr' l2 f s ⟨⟩
    rw [hr']
    exact ho l f s hl
  cases a with
  | inject c b =>
    simp only [connOf] at ho keep ⊢
    simp only [Stack.gstep]
    cases hl : (grun r sched).links c with
    | none => exact ⟨ho, none, .inr rfl⟩
    | some l => exact ⟨Outside.set _ (keep l _ hl rfl), _, .inl rfl⟩
  | act a =>
    cases a <;> simp only [connOf] at ho keep hq ⊢ <;> simp only [Stack.gstep, Stack.step]
    case connect c cfg sid =>
      split
      · exact ⟨Outside.set _ (by rintro l f s ⟨⟩; intro e; cases e), _, .inl rfl⟩
      · exact ⟨ho, none, .inr rfl⟩
    case carryUp c k =>
      cases hl : (grun r sched).links c with
      | none => exact ⟨ho, none, .inr rfl⟩
      | some l => exact ⟨Outside.set _ (keep l _ hl rfl), _, .inl rfl⟩
    case carryDown c k =>
      cases hl : (grun r sched).links c with
      | none => exact ⟨ho, none, .inr rfl⟩
      | some l => exact ⟨Outside.set _ (keep l _ hl rfl), _, .inl rfl⟩
    case hear c =>
      cases hl : (grun r sched).links c with
      | none => exact ⟨ho, none, .inr rfl⟩
      | some l => exact ⟨Outside.set _ (keep l _ hl (hear_router l)), _, .inl rfl⟩
    case send c m =>
      cases hl : (grun r sched).links c with
      | none => exact ⟨ho, none, .inr rfl⟩
      | some l => exact ⟨Outside.set _ (keep l _ hl (send_router l m)), _, .inl rfl⟩
    case drop c =>
      cases hl : (grun r sched).links c with
      | none => exact ⟨ho, none, .inr rfl⟩
      | some l =>
        dsimp only
        cases hro : l.router with
        | attached f s => exact absurd hro (ho l f s hl)
        | _ => exact ⟨Outside.set _ (by rintro l f s ⟨⟩), _, .inl rfl⟩
    case serve c env =>
      cases hl : (grun r sched).links c with
      | none => exact ⟨ho, none, .inr rfl⟩
      | some l =>
        dsimp only
        unfold Stack.serve
        cases hro : l.router with
        | attached f s => exact absurd hro (ho l f s hl)
        | closed => exact ⟨ho, none, .inr rfl⟩
        | greeting sid =>
          refine ⟨Outside.set _ ?_, _, .inl rfl⟩
          rintro l2 f s ⟨⟩
          rcases greet_router (r := r) l sid with e | e | ⟨f', e⟩ <;> rw [e]
          · rw [hro]; intro e; cases e
          · intro e; cases e
          · intro e; cases e
        | accepting f a =>
          dsimp only
          cases hx : readOne l.upHas with
          | none => exact ⟨ho, none, .inr rfl⟩
          | some z =>
            dsimp only
            cases hv : verdict r f a env z.1.payload with
            | welcome d b => exact absurd hv (no_welcome hr hq hl hro hx d b)
            | away b => exact ⟨Outside.set _ (by rintro l f s ⟨⟩; intro e; cases e), _, .inl rfl⟩
            | more a' b => exact ⟨Outside.set _ (by rintro l f s ⟨⟩; intro e; cases e), _, .inl rfl⟩

/-- What happens on one connection lets nobody in on another. -/
theorem outside_other {n : Stack} {a : GAct} {c : Nat} (hc : c ≠ connOf a) (ho : Outside n c) : Outside (n.gstep r a) c := by
  have hset : ∀ (n : Stack) c' x, c ≠ c' → Outside n c → Outside (n.set c' x) c := by
    intro n c' x hne h l f s hl
    rw [set_links, if_neg hne] at hl
    exact h l f s hl
  have hpush : ∀ (n : Stack) out, Outside n c → Outside (n.push out) c := by
    intro n out h l f s hl
    rw [push_links] at hl
    cases hk : n.links c with
    | none => rw [hk] at hl; cases hl
    | some l' =>
      rw [hk] at hl
      cases hl
      rw [push_router]
      exact h l' f s hk
  cases a with
  | inject c' b =>
    simp only [connOf] at hc
    simp only [Stack.gstep]
    split
    · exact ho
    · exact hset _ _ _ hc ho
  | act a =>
    cases a <;> simp only [connOf] at hc <;> simp only [Stack.gstep, Stack.step]
    case connect => split <;> first | exact hset _ _ _ hc ho | exact ho
    case drop =>
      split
      · exact ho
      · split
        · exact hset _ _ _ hc ho
        · exact hset _ _ _ hc ho
    case serve =>
      split
      · exact ho
      · unfold Stack.serve
        split
        · exact hset _ _ _ hc ho
        · split
          · exact ho
          · split
            · exact hset _ _ _ hc ho
            · exact hset _ _ _ hc ho
            · dsimp only
              split
              · exact hset _ _ _ hc ho
              · exact hset _ _ _ hc ho
        · split
          · exact ho
          · split
            · exact hset _ _ _ hc ho
            · unfold Stack.handle
              split
              · exact hpush _ _ (hset _ _ _ hc ho)
              · exact hpush _ _ (hset _ _ _ hc ho)
              · exact hset _ _ _ hc ho
        · exact ho
    all_goals
      split
      · exact ho
      · exact hset _ _ _ hc ho

theorem without_snoc (sched : List GAct) (a : GAct) :
    without q (sched ++ [a]) = if q (connOf a) = true then without q sched else without q sched ++ [a] := by
  simp only [without, List.filter_append, List.filter_cons, List.filter_nil]
  cases q (connOf a) <;> simp

theorem bystanders (hr : r.hasAuthenticator = true) (sched : List GAct) (hq : ∀ c, q c = true → Unwelcome r sched c) :
    Same q (grun r sched) (grun r (without q sched)) ∧ ∀ c, q c = true → Outside (grun r sched) c := by
  induction sched using snoc_induction with
  | nil => exact ⟨⟨rfl, rfl, fun _ _ => rfl⟩, fun c _ l f s h => by cases h⟩
  | snoc sched a ih =>
    obtain ⟨h1, h2⟩ := ih (fun c hc => (hq c hc).before)
    rw [grun_snoc, without_snoc]
    cases ha : q (connOf a) with
    | false =>
      rw [if_neg (by simp), grun_snoc]
      refine ⟨h1.gstep a ha, fun c hc => outside_other ?_ (h2 c hc)⟩
      rintro rfl
      rw [ha] at hc; cases hc
    | true =>
      rw [if_pos rfl]
      obtain ⟨g1, x, g2⟩ := outside_step hr (hq _ ha) (h2 _ ha)
      refine ⟨?_, fun c hc => ?_⟩
      · rcases g2 with g2 | g2 <;> rw [g2]
        · exact h1.set_left ha x
        · exact h1
      · by_cases hcc : c = connOf a
        · rw [hcc]; exact g1
        · exact outside_other hcc (h2 c hc)

/-- Take any connections on which nobody is welcomed.  Whatever comes in on them, and whenever: the broker and the
dealer have the same calls made on them, and every other connection is in the same state, with the same bytes on their way and
the same calls made on its session, as if those connections did not exist. -/
theorem C122_bystanders (r : Setup) (hr : r.hasAuthenticator = true) (sched : List GAct) (q : Nat → Bool)
    (hq : ∀ c, q c = true → Unwelcome r sched c) :
    (grun r sched).broker = (grun r (without q sched)).broker ∧ (grun r sched).dealer = (grun r (without q sched)).dealer ∧
      ∀ c, q c = false → (grun r sched).links c = (grun r (without q sched)).links c := by
  obtain ⟨h, -⟩ := bystanders hr sched hq
  exact ⟨h.broker, h.dealer, h.links⟩

/-- Nobody is welcomed on a connection on which the authenticator approves of nothing. -/
theorem C122_refused (r : Setup) (hr : r.hasAuthenticator = true) (sched : List GAct) (c : Nat)
    (hq : ∀ env x response, .act (.serve c env) ∈ sched → env.authenticate x ≠ .ok response) : Unwelcome r sched c := by
  rintro pre env post m sid ins w rfl hh hdia hw
  rw [hr] at hw
  obtain ⟨hello, resp, hj, -⟩ := Acceptor.C53_welcome_justified _ _ _ _ _ w hw
  rcases hj with ⟨-, -, hx⟩ | ⟨au, env', ch, -, ⟨p, p', hp, -⟩, -, hap⟩
  · exact hq env _ resp (by simp) hx
  · have henv : GAct.act (.serve c env') ∈ pre ++ .act (.serve c env) :: post :=
      List.mem_append_left _ (dialog_envs hdia (env', .hello hello) (by rw [hp]; simp))
    rcases hap with ⟨-, hx⟩ | ⟨-, hx⟩ | ⟨-, pk, -, hx⟩
    · exact hq env _ resp (by simp) hx
    · exact hq env' _ resp henv hx
    · exact hq env' _ resp henv hx

/-- The authenticator approves of nobody. -/
def strictEnv : AuthEnv := { craEnv with authenticate := fun _ => .error [] }

/-- The stranger and the one who has the secret: the latter is in as if it were alone. -/
def together : List GAct := intrusion.map fun | .act (.serve 0 _) => .act (.serve 0 strictEnv) | a => a

example : (grun craSetup together).links 1 = (grun craSetup (without (· == 0) together)).links 1 ∧
    (grun craSetup together).broker = [.addSession ⟨.int 12, "realm1", some "joe", some "user"⟩] ∧
    (without (· == 0) together).length + 9 = together.length := by
  have h : (grun craSetup together).broker = (grun craSetup (without (· == 0) together)).broker ∧
      (grun craSetup together).links 1 = (grun craSetup (without (· == 0) together)).links 1 := by
    have := C122_bystanders craSetup rfl together (· == 0) ?_
    · exact ⟨this.1, this.2.2 1 rfl⟩
    intro c hc
    rw [beq_iff_eq] at hc
    subst hc
    refine C122_refused craSetup rfl together 0 ?_
    intro env x response h
    have : env = strictEnv := by
      simp only [together, intrusion, List.map_cons, List.map_nil, List.mem_cons, reduceCtorEq, GAct.act.injEq, SAct.serve.injEq,
        List.not_mem_nil, or_false, false_or] at h
      simp_all
    subst this
    exact fun e => by cases e
  refine ⟨h.2, h.1.trans ?_, by decide⟩
  decide +kernel

end Wamp.Spec.Stack
