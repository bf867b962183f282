import Verif.Proofs.LoginEnds

/-! # Who has the right credentials gets in -/

namespace Wamp.Spec.Stack
open RawSocket Net

/-! ## A session id nobody has used -/

theorem broker_fresh {ops : List Broker.Op} {d : SessionDetails} (h : ∀ d', .addSession d' ∈ ops → d'.sessionId.val ≠ d.sessionId.val) :
    returned (Broker.outcome ops (.addSession d)) = true := by
  have : d.sessionId.val ∉ (Pub.view (Broker.trace ops)).known := by
    induction ops using snoc_induction with
    | nil => simp [Broker.trace, Broker.runFrom, Pub.view]
    | snoc ops op ih =>
      rw [bknown_snoc]
      rintro (⟨d', out, e, hd⟩ | ⟨hk, -⟩)
      · injection e with e1 _
        exact h d' (by rw [e1]; simp) hd
      · exact ih (fun d' hd' => h d' (List.mem_append_left _ hd')) hk
  rw [(badd_outcome ops d).1 this]
  rfl

theorem removeLoop_sessions (s : Int) (l : List (Int × Ref)) : ∀ b : Dealer, (b.removeLoop s l).1.registrationsBySession = b.registrationsBySession := by
  induction l with
  | nil => intro b; rfl
  | cons x l ih =>
    intro b
    obtain ⟨i, reg⟩ := x
    simp only [Dealer.removeLoop]
    split
    · rfl
    · split <;> split <;> first | rfl | (rw [ih]; split <;> rfl)

theorem call_sessions (b : Dealer) (s : Int) (m : Call) : (b.receiveCall s m).1.registrationsBySession = b.registrationsBySession := by
  unfold Dealer.receiveCall
  split
  · rfl
  · dsimp only
    split
    · split <;> rfl
    · rfl

theorem dealer_step_fresh (b : Dealer) (op : Dealer.Op) (s : Int) (h : b.registrationsBySession.get s = none)
    (hop : ∀ d, op = .addSession d → d.sessionId.val ≠ s) : (b.step op).1.registrationsBySession.get s = none := by
  cases op with
  | addSession d =>
    have := hop d rfl
    simp only [Dealer.step, Dealer.addSession]
    split
    · exact h
    · simp only [Dict.get_set]
      rw [if_neg this]
      exact h
  | removeSession s' =>
    simp only [Dealer.step, Dealer.removeSession]
    cases hs : b.registrationsBySession.get s' with
    | none => exact h
    | some regs =>
      dsimp only
      have hl := removeLoop_sessions s' regs.items { b with registrationsBySession := b.registrationsBySession.del s' }
      generalize Dealer.removeLoop { b with registrationsBySession := b.registrationsBySession.del s' } s' regs.items = o at hl ⊢
      obtain ⟨b', out⟩ := o
      dsimp only at hl
      have h' : b'.registrationsBySession.get s = none := by
        rw [hl, Dict.get_del]
        split
        · rfl
        · exact h
      cases out with
      | error e => exact h'
      | ok u =>
        dsimp only
        split <;> exact h'
  | hasRegistration p => exact h
  | receiveMessage s' m =>
    cases m
    case call m => simp only [Dealer.step, Dealer.receiveMessage, call_sessions]; exact h
    case yield_ m =>
      simp only [Dealer.step, Dealer.receiveMessage, Dealer.receiveYield]
      repeat' split
      all_goals exact h
    case error m =>
      simp only [Dealer.step, Dealer.receiveMessage, Dealer.receiveError]
      repeat' split
      all_goals exact h
    case register m =>
      simp only [Dealer.step, Dealer.receiveMessage, Dealer.receiveRegister]
      cases hs : b.registrationsBySession.get s' with
      | none => exact h
      | some inner =>
        dsimp only
        split
        · simp only [Dealer.alloc, Dict.get_set]
          rw [if_neg (by rintro rfl; rw [h] at hs; cases hs)]
          exact h
        · exact h
    case unregister m =>
      simp only [Dealer.step, Dealer.receiveMessage, Dealer.receiveUnregister]
      cases hs : b.registrationsBySession.get s' with
      | none => exact h
      | some inner =>
        dsimp only
        have hne : s' ≠ s := by rintro rfl; rw [h] at hs; cases hs
        split
        · exact h
        · split
          · split
            · split <;> (simp only [Dealer.write, Dict.get_set]; rw [if_neg hne]; exact h)
            · exact h
          · exact h
    all_goals exact h

theorem dealer_fresh {ops : List Dealer.Op} {d : SessionDetails} (h : ∀ d', .addSession d' ∈ ops → d'.sessionId.val ≠ d.sessionId.val) :
    returned (Dealer.outcome ops (.addSession d)) = true := by
  have : (Dealer.after ops).registrationsBySession.get d.sessionId.val = none := by
    induction ops using snoc_induction with
    | nil => rfl
    | snoc ops op ih =>
      rw [Dealer.after_snoc]
      exact dealer_step_fresh _ _ _ (ih (fun d' hd' => h d' (List.mem_append_left _ hd'))) (fun d' e => h d' (by rw [e]; simp))
  simp only [Dealer.outcome, Dealer.step, Dealer.addSession, Dict.contains, this]
  rfl

/-! ## What others do -/

/-- These calls neither add nor remove the session `s`. -/
def QuietB (s : Int) (ops ops' : List Broker.Op) : Prop :=
  ∃ more, ops' = ops ++ more ∧ (∀ d, .addSession d ∈ more → d.sessionId.val ≠ s) ∧ .removeSession s ∉ more

def QuietD (s : Int) (ops ops' : List Dealer.Op) : Prop :=
  ∃ more, ops' = ops ++ more ∧ (∀ d, .addSession d ∈ more → d.sessionId.val ≠ s) ∧ .removeSession s ∉ more

theorem QuietB.refl (s : Int) (ops : List Broker.Op) : QuietB s ops ops := ⟨[], by simp, by simp, by simp⟩
theorem QuietD.refl (s : Int) (ops : List Dealer.Op) : QuietD s ops ops := ⟨[], by simp, by simp, by simp⟩

theorem QuietB.in_ {d : SessionDetails} {ops ops' : List Broker.Op} (h : QuietB d.sessionId.val ops ops') (hi : InBroker ops d) :
    InBroker ops' d := by
  obtain ⟨more, rfl, -, h2⟩ := h
  obtain ⟨pre, post, rfl, h3, h4⟩ := hi
  refine ⟨pre, post ++ more, by simp, h3, ?_⟩
  rw [List.mem_append]
  rintro (h | h)
  · exact h4 h
  · exact h2 h

theorem QuietD.in_ {d : SessionDetails} {ops ops' : List Dealer.Op} (h : QuietD d.sessionId.val ops ops') (hi : InDealer ops d) :
    InDealer ops' d := by
  obtain ⟨more, rfl, -, h2⟩ := h
  obtain ⟨pre, post, rfl, h3, h4⟩ := hi
  refine ⟨pre, post ++ more, by simp, h3, ?_⟩
  rw [List.mem_append]
  rintro (h | h)
  · exact h4 h
  · exact h2 h

/-- Nobody has been added under this id. -/
def Unused (s : Int) (n : Stack) : Prop :=
  (∀ d, .addSession d ∈ n.broker → d.sessionId.val ≠ s) ∧ ∀ d, .addSession d ∈ n.dealer → d.sessionId.val ≠ s

theorem Unused.quiet {s : Int} {n n' : Stack} (h : Unused s n) (h1 : QuietB s n.broker n'.broker) (h2 : QuietD s n.dealer n'.dealer) :
    Unused s n' := by
  obtain ⟨m1, e1, a1, -⟩ := h1
  obtain ⟨m2, e2, a2, -⟩ := h2
  refine ⟨fun d hd => ?_, fun d hd => ?_⟩
  · rw [e1, List.mem_append] at hd
    exact hd.elim (h.1 d) (a1 d)
  · rw [e2, List.mem_append] at hd
    exact hd.elim (h.2 d) (a2 d)

/-- The router has nothing to do with the session `s` at its end of a connection. -/
def Apart (s : Int) : RouterEnd → Prop
  | .greeting sid => sid.val ≠ s
  | .accepting _ a => a.sessionDetails = none ∧ a.sessionId.val ≠ s
  | .attached _ s' => s' ≠ s
  | .closed => True

theorem handle_quiet (n : Stack) (s s' : Int) (m : Message) :
    QuietB s n.broker (n.handle s' m).broker ∧ QuietD s n.dealer (n.handle s' m).dealer := by
  unfold Stack.handle
  split
  · rename_i op hb
    refine ⟨⟨[op], rfl, ?_, ?_⟩, QuietD.refl _ _⟩
    · intro d hd
      rw [List.mem_singleton] at hd; subst hd
      cases m <;> cases hb
    · intro hd
      rw [List.mem_singleton] at hd; subst hd
      cases m <;> cases hb
  · rename_i op _ hb
    refine ⟨QuietB.refl _ _, ⟨[op], rfl, ?_, ?_⟩⟩
    · intro d hd
      rw [List.mem_singleton] at hd; subst hd
      cases m <;> cases hb
    · intro hd
      rw [List.mem_singleton] at hd; subst hd
      cases m <;> cases hb
  · exact ⟨QuietB.refl _ _, QuietD.refl _ _⟩

theorem handle_links (n : Stack) (s' : Int) (m : Message) (c : Nat) :
    (n.handle s' m).links c = n.links c ∨ ∃ out, (n.handle s' m).links c = (n.links c).map (Link.push out) := by
  unfold Stack.handle
  split
  · exact .inr ⟨_, rfl⟩
  · exact .inr ⟨_, rfl⟩
  · exact .inl rfl

/-- What happens on a connection that has nothing to do with the session `s` leaves it so, and leaves the session alone. -/
theorem apart_step (r : Setup) (n : Stack) (s : Int) (a : GAct) (ha : ∀ l, n.links (connOf a) = some l → Apart s l.router)
    (hc : ∀ c cfg sid, a = .act (.connect c cfg sid) → sid.val ≠ s) :
    (∀ l, (n.gstep r a).links (connOf a) = some l → Apart s l.router) ∧
      QuietB s n.broker (n.gstep r a).broker ∧ QuietD s n.dealer (n.gstep r a).dealer := by
  have hset : ∀ (n' : Stack) (c : Nat) (x : Option Link), n'.broker = n.broker → n'.dealer = n.dealer → (∀ l, x = some l → Apart s l.router) →
      (∀ l, (n'.set c x).links c = some l → Apart s l.router) ∧ QuietB s n.broker (n'.set c x).broker ∧ QuietD s n.dealer (n'.set c x).dealer := by
    intro n' c x h1 h2 hx
    refine ⟨fun l hl => hx l (by rwa [set_links, if_pos rfl] at hl), ?_, ?_⟩
    · show QuietB s n.broker n'.broker
      rw [h1]; exact QuietB.refl _ _
    · show QuietD s n.dealer n'.dealer
      rw [h2]; exact QuietD.refl _ _
  have hsame : (∀ l, n.links (connOf a) = some l → Apart s l.router) ∧ QuietB s n.broker n.broker ∧ QuietD s n.dealer n.dealer :=
    ⟨ha, QuietB.refl _ _, QuietD.refl _ _⟩
  cases a with
  | inject c b =>
    simp only [connOf] at ha hsame ⊢
    simp only [Stack.gstep]
    cases hl : n.links c with
    | none => simp only [hl] at *; exact hsame
    | some l => exact hset _ _ _ rfl rfl (by rintro l' ⟨⟩; exact ha l hl)
  | act a =>
    cases a <;> simp only [connOf] at ha hsame ⊢ <;> simp only [Stack.gstep, Stack.step]
    case connect c cfg sid =>
      split
      · exact hset _ _ _ rfl rfl (by rintro l' ⟨⟩; exact hc c cfg sid rfl)
      · exact hsame
    case carryUp c k =>
      split
      · exact hsame
      · rename_i l hl
        exact hset _ _ _ rfl rfl (by rintro l' ⟨⟩; exact ha l hl)
    case carryDown c k =>
      split
      · exact hsame
      · rename_i l hl
        exact hset _ _ _ rfl rfl (by rintro l' ⟨⟩; exact ha l hl)
    case hear c =>
      split
      · exact hsame
      · rename_i l hl
        exact hset _ _ _ rfl rfl (by rintro l' ⟨⟩; rw [hear_router]; exact ha l hl)
    case send c m =>
      split
      · exact hsame
      · rename_i l hl
        exact hset _ _ _ rfl rfl (by rintro l' ⟨⟩; rw [send_router]; exact ha l hl)
    case drop c =>
      split
      · exact hsame
      · rename_i l hl
        have h0 := ha l hl
        split
        · rename_i f s' hro
          rw [hro] at h0
          refine ⟨(fun l hl => by rw [set_links, if_pos rfl] at hl; cases hl), ⟨[.removeSession s'], rfl, ?_, ?_⟩, ⟨[.removeSession s'], rfl, ?_, ?_⟩⟩
          · intro d hd; simp at hd
          · intro hd; simp only [List.mem_singleton, Broker.Op.removeSession.injEq] at hd; exact h0 hd.symm
          · intro d hd; simp at hd
          · intro hd; simp only [List.mem_singleton, Dealer.Op.removeSession.injEq] at hd; exact h0 hd.symm
        · exact hset _ _ _ rfl rfl (by rintro l' ⟨⟩)
    case serve c env =>
      split
      · exact hsame
      · rename_i l hl
        have h0 := ha l hl
        unfold Stack.serve
        cases hro : l.router with
        | closed => exact hsame
        | greeting sid =>
          rw [hro] at h0
          refine hset _ _ _ rfl rfl ?_
          rintro l' ⟨⟩
          rcases greet_router (r := r) l sid with e | e | ⟨f', e⟩ <;> rw [e]
          · rw [hro]; exact h0
          · trivial
          · exact ⟨rfl, h0⟩
        | accepting f a =>
          rw [hro] at h0
          dsimp only
          cases hx : readOne l.upHas with
          | none => exact hsame
          | some z =>
            dsimp only
            rcases verdict_cases r f a env z.1.payload h0.1 with ⟨t, hv, -⟩ | ⟨a', t, hv, ha1, ha2, -⟩ | ⟨d, w, t, hv, hd, -, -⟩
            · rw [hv]
              exact hset _ _ _ rfl rfl (by rintro l' ⟨⟩; trivial)
            · rw [hv]
              exact hset _ _ _ rfl rfl (by rintro l' ⟨⟩; exact ⟨ha1, by rw [ha2]; exact h0.2⟩)
            · rw [hv]
              dsimp only
              have hds : d.sessionId.val ≠ s := by rw [hd]; exact h0.2
              have q1 : QuietB s n.broker (n.broker ++ [.addSession d]) :=
                ⟨_, rfl, (by intro d' hd'; simp only [List.mem_singleton, Broker.Op.addSession.injEq] at hd'; rw [hd']; exact hds), by simp⟩
              have q2 : QuietD s n.dealer (n.dealer ++ [.addSession d]) :=
                ⟨_, rfl, (by intro d' hd'; simp only [List.mem_singleton, Dealer.Op.addSession.injEq] at hd'; rw [hd']; exact hds), by simp⟩
              split
              · exact ⟨(fun l' hl' => by rw [set_links, if_pos rfl] at hl'; cases hl'; exact hds), q1, q2⟩
              · exact ⟨(fun l' hl' => by rw [set_links, if_pos rfl] at hl'; cases hl'; trivial), q1, q2⟩
        | attached f s' =>
          rw [hro] at h0
          dsimp only
          cases hx : readOne l.upHas with
          | none => exact hsame
          | some z =>
            dsimp only
            have key : ∀ l', l'.router = .attached f s' → ∀ m, (∀ l2, ((n.set c (some l')).handle s' m).links c = some l2 → Apart s l2.router) := by
              intro l' hl' m l2 hl2
              rcases handle_links (n.set c (some l')) s' m c with e | ⟨out, e⟩ <;> rw [e, set_links, if_pos rfl] at hl2
              · cases hl2; rw [hl']; exact h0
              · cases hl2; rw [push_router, hl']; exact h0
            split
            · exact hset _ _ _ rfl rfl (by rintro l' ⟨⟩; exact h0)
            · exact ⟨key _ rfl _, handle_quiet (n.set c _) s s' _⟩

/-! ## The login -/

section
variable (E : AuthEnv → Prop) (r : Setup) (cfg : Config) (d : SessionDetails)

/-- With `b` on its way up, the login goes well in at most so many exchanges, whichever of `E` the authenticator, the clock and
the random source are. -/
def GoesUp : Nat → Joiner → Acceptor → Bytes → Prop
  | 0, _, _, _ => False
  | k + 1, j, a, b => b.length < 2 ^ 24 ∧ ∀ e, E e →
    (∃ a' t j', a.receive cfg.format.wire r.crypto e b = (a', .ok (t, true)) ∧ t.length < 2 ^ 24 ∧ a'.getSessionDetails = .ok d ∧
      j.receive cfg.format.wire cfg.authenticator t = (j', .ok none) ∧ j'.getSessionDetails = .ok d) ∨
    ∃ a' t j' b', a.receive cfg.format.wire r.crypto e b = (a', .ok (t, false)) ∧ t.length < 2 ^ 24 ∧
      j.receive cfg.format.wire cfg.authenticator t = (j', .ok (some b')) ∧ GoesUp k j' a' b'

/-- The login has gone well so far, and will go on so. -/
def Well (l : Link) : Prop :=
  l.config = cfg ∧
  match l.client, l.router with
  | .greeting, .greeting sid => sid = d.sessionId ∧ sendHandshake ⟨cfg.format.type, cfg.size⟩ = .ok (l.upHas ++ l.up) ∧ l.downHas ++ l.down = []
  | .greeting, .accepting f a => f = cfg.format ∧ a = Acceptor.init r.hasAuthenticator r.roles d.sessionId ∧ l.upHas ++ l.up = [] ∧
      sendHandshake ⟨cfg.format.type, r.size⟩ = .ok (l.downHas ++ l.down)
  | .joining j, .accepting f a => f = cfg.format ∧
      ((l.downHas ++ l.down = [] ∧ ∃ k b, l.upHas ++ l.up = frame b ∧ GoesUp E r cfg d k j a b) ∨
        (l.upHas ++ l.up = [] ∧ ∃ t j' k b', l.downHas ++ l.down = frame t ∧ t.length < 2 ^ 24 ∧
          j.receive cfg.format.wire cfg.authenticator t = (j', .ok (some b')) ∧ GoesUp E r cfg d k j' a b'))
  | .joining j, .attached f s => f = cfg.format ∧ s = d.sessionId.val ∧ ∃ t rest j', l.downHas ++ l.down = frame t ++ rest ∧ t.length < 2 ^ 24 ∧
      j.receive cfg.format.wire cfg.authenticator t = (j', .ok none) ∧ j'.getSessionDetails = .ok d
  | .session _, .attached f s => f = cfg.format ∧ s = d.sessionId.val
  | _, _ => False

variable {E r cfg d}

theorem GoesUp.short {k : Nat} {j : Joiner} {a : Acceptor} {b : Bytes} (h : GoesUp E r cfg d k j a b) : b.length < 2 ^ 24 := by
  cases k with
  | zero => exact h.elim
  | succ k => exact h.1

theorem well_congr {l l' : Link} (h : Well E r cfg d l) (h1 : l'.config = l.config) (h2 : l'.client = l.client) (h3 : l'.router = l.router)
    (h4 : l'.upHas ++ l'.up = l.upHas ++ l.up) (h5 : l'.downHas ++ l'.down = l.downHas ++ l.down) : Well E r cfg d l' := by
  obtain ⟨g1, g2⟩ := h
  refine ⟨by rw [h1, g1], ?_⟩
  rw [h2, h3, h4, h5]
  exact g2

theorem well_push {l : Link} (h : Well E r cfg d l) (out : List (Int × Message)) : Well E r cfg d (l.push out) := by
  obtain ⟨cfg', cl, ro, up, upHas, down, downHas⟩ := l
  cases ro
  case attached f s =>
    obtain ⟨g1, g2⟩ := h
    cases cl
    case greeting => exact g2.elim
    case failed => exact g2.elim
    case session => exact ⟨g1, g2⟩
    obtain ⟨h1, h2, t, rest, j', h3, h4⟩ := g2
    refine ⟨g1, h1, h2, t, rest ++ stream ((inbox out s).filterMap fun m => (f.wire.serialize m).toOption), j', ?_, h4⟩
    dsimp only [Link.push] at h3 ⊢
    rw [← List.append_assoc, h3, List.append_assoc]
  all_goals exact h

theorem well_send {l : Link} (h : Well E r cfg d l) (m : Message) : Well E r cfg d (l.send m) := by
  obtain ⟨cfg', cl, ro, up, upHas, down, downHas⟩ := l
  cases cl
  case session calls => cases ro <;> exact h
  all_goals exact h

theorem verdict_done {f : Format} {a a' : Acceptor} {env : AuthEnv} {b t : Bytes} (h : a.receive f.wire r.crypto env b = (a', .ok (t, true)))
    (ht : t.length < 2 ^ 24) (hd : a'.getSessionDetails = .ok d) : verdict r f a env b = .welcome d (frame t) := by
  unfold verdict
  rw [h]
  dsimp only
  rw [hd]
  dsimp only
  rw [if_pos ht]

theorem verdict_again {f : Format} {a a' : Acceptor} {env : AuthEnv} {b t : Bytes} (h : a.receive f.wire r.crypto env b = (a', .ok (t, false)))
    (ht : t.length < 2 ^ 24) : verdict r f a env b = .more a' (frame t) := by
  unfold verdict
  rw [h]
  dsimp only
  rw [if_pos ht]

theorem well_hear {l : Link} (h : Well E r cfg d l)
    (hstart : ∃ j b k, (Joiner.init cfg.realm).sendHello cfg.format.wire cfg.authenticator cfg.roles = (j, .ok b) ∧
      GoesUp E r cfg d k j (Acceptor.init r.hasAuthenticator r.roles d.sessionId) b) : Well E r cfg d l.hear := by
  obtain ⟨cfg', cl, ro, up, upHas, down, downHas⟩ := l
  obtain ⟨g1, g2⟩ := h
  dsimp only at g1
  subst g1
  cases cl with
  | failed => cases ro <;> exact g2.elim
  | session calls =>
    simp only [Link.hear]
    split
    · exact ⟨rfl, g2⟩
    · cases ro <;> first | exact g2.elim | exact ⟨rfl, g2⟩
  | greeting =>
    simp only [Link.hear]
    by_cases hlen : downHas.length < 4
    · rw [if_pos hlen]; exact ⟨rfl, g2⟩
    · rw [if_neg hlen]
      cases ro with
      | closed => exact g2.elim
      | attached f s => exact g2.elim
      | greeting sid =>
        have := g2.2.2
        dsimp only at this
        rw [(List.append_eq_nil_iff.1 this).1] at hlen
        exact absurd (by decide) hlen
      | accepting f a =>
        obtain ⟨h1, h2, h3, h4⟩ := g2
        dsimp only at h3 h4
        obtain ⟨h5, z, h6⟩ := handshake_length h4
        rw [List.length_append] at h5
        have hd1 : down = [] := List.eq_nil_of_length_eq_zero (by omega)
        have hd2 : downHas.drop 4 = [] := List.drop_eq_nil_of_le (by omega)
        have hd3 : downHas.take 4 = downHas := List.take_of_length_le (by omega)
        rw [hd1, List.append_nil] at h6
        rw [hd3, h6, hd2]
        dsimp only
        obtain ⟨j, b, k, e1, e2⟩ := hstart
        rw [e1]
        dsimp only
        rw [if_pos e2.short]
        refine ⟨rfl, h1, .inl ⟨?_, k, b, ?_, by rw [h2]; exact e2⟩⟩
        · dsimp only; rw [hd1]; rfl
        · dsimp only; rw [← List.append_assoc, h3]; rfl
  | joining j =>
    simp only [Link.hear]
    cases hread : readOne downHas with
    | none => exact ⟨rfl, g2⟩
    | some z =>
      obtain ⟨x, rest⟩ := z
      dsimp only
      cases ro with
      | closed => exact g2.elim
      | greeting sid => exact g2.elim
      | accepting f a =>
        obtain ⟨h1, ⟨hD, -⟩ | ⟨hU, t, j', k, b', hD, ht, hj, hg⟩⟩ := g2
        · exact (readOne_nil hD hread).elim
        · obtain ⟨e1, e2⟩ := read_frame (rest := []) (by dsimp only at hD; rw [hD, List.append_nil]) ht hread
          rw [e1, hj]
          dsimp only
          rw [if_pos hg.short]
          refine ⟨rfl, h1, .inl ⟨e2, k, b', ?_, hg⟩⟩
          dsimp only at hU ⊢
          rw [← List.append_assoc, hU]; rfl
      | attached f s =>
        obtain ⟨h1, h2, t, rest', j', hD, ht, hj, hd⟩ := g2
        obtain ⟨e1, e2⟩ := read_frame hD ht hread
        rw [e1, hj]
        dsimp only
        rw [hd]
        exact ⟨rfl, h1, h2⟩

/-- The session is not known to the broker and the dealer before its connection is attached, and known to both afterwards. -/
def Standing (d : SessionDetails) (n : Stack) (l : Link) : Prop :=
  (Unused d.sessionId.val n ∧ ∀ f s, l.router ≠ .attached f s) ∨
    ((∃ f s, l.router = .attached f s) ∧ InBroker n.broker d ∧ InDealer n.dealer d)

/-- What holds of the system while this login goes on -/
structure HInv (E : AuthEnv → Prop) (r : Setup) (cfg : Config) (d : SessionDetails) (c : Nat) (n : Stack) : Prop where
  others : ∀ c' l, c' ≠ c → n.links c' = some l → Apart d.sessionId.val l.router
  well : ∃ l, n.links c = some l ∧ Well E r cfg d l ∧ Standing d n l

theorem hinv_serve {c : Nat} {n : Stack} {l : Link} (hl : n.links c = some l) (hw : Well E r cfg d l) (hs : Standing d n l)
    (hrs : ∃ b, sendHandshake ⟨cfg.format.type, r.size⟩ = .ok b) {env : AuthEnv} (he : E env) :
    ∃ l', (n.serve r c l env).links c = some l' ∧ Well E r cfg d l' ∧ Standing d (n.serve r c l env) l' := by
  have hsame : ∃ l', n.links c = some l' ∧ Well E r cfg d l' ∧ Standing d n l' := ⟨l, hl, hw, hs⟩
  have hset : ∀ l', Well E r cfg d l' → (∀ f s, l.router ≠ .attached f s) → (∀ f s, l'.router ≠ .attached f s) →
      ∃ l2, (n.set c (some l')).links c = some l2 ∧ Well E r cfg d l2 ∧ Standing d (n.set c (some l')) l2 := by
    intro l' h1 h2 h3
    refine ⟨l', by rw [set_links, if_pos rfl], h1, ?_⟩
    rcases hs with hs | ⟨⟨f, s, hs⟩, -⟩
    · exact .inl ⟨hs.1, h3⟩
    · exact absurd hs (h2 f s)
  unfold Stack.serve
  cases hro : l.router with
  | closed =>
    obtain ⟨g1, g2⟩ := hw
    rw [hro] at g2
    cases hcl : l.client <;> rw [hcl] at g2 <;> exact g2.elim
  | greeting sid =>
    dsimp only
    refine hset _ ?_ ?_ ?_
    · clear hsame hset hs hl
      obtain ⟨cfg', cl, ro, up, upHas, down, downHas⟩ := l
      obtain ⟨g1, g2⟩ := hw
      dsimp only at g1 hro
      subst g1 hro
      cases cl <;> try exact g2.elim
      obtain ⟨h0, h1, h2⟩ := g2
      dsimp only at h1 h2
      obtain ⟨h4, z, h5⟩ := handshake_length h1
      simp only [Link.greet]
      by_cases hlen : upHas.length < 4
      · rw [if_pos hlen]
        exact ⟨rfl, h0, h1, h2⟩
      · rw [if_neg hlen]
        rw [List.length_append] at h4
        have hup : up = [] := List.eq_nil_of_length_eq_zero (by omega)
        have hhas : upHas.take 4 = upHas := List.take_of_length_le (by omega)
        have hdrop : upHas.drop 4 = [] := List.drop_eq_nil_of_le (by omega)
        rw [hup, List.append_nil] at h5
        rw [hhas, h5, hdrop]
        dsimp only
        rw [type_mod, formatOfType_type]
        dsimp only
        obtain ⟨b, hb⟩ := hrs
        rw [hb]
        refine ⟨rfl, rfl, by rw [h0], by simp only [hup, List.append_nil], ?_⟩
        dsimp only
        rw [← List.append_assoc, h2]
        exact hb
    · rw [hro]; intro f s e; cases e
    · intro f s
      rcases greet_router (r := r) l sid with e | e | ⟨f', e⟩ <;> rw [e]
      · rw [hro]; intro e; cases e
      · intro e; cases e
      · intro e; cases e
  | accepting f a =>
    have hnot : ∀ f s, l.router ≠ .attached f s := by intro f s; rw [hro]; intro e; cases e
    dsimp only
    cases hread : readOne l.upHas with
    | none => exact hsame
    | some z =>
      obtain ⟨x, rest⟩ := z
      dsimp only
      obtain ⟨g1, g2⟩ := hw
      rw [hro] at g2
      cases hcl : l.client with
      | session calls => rw [hcl] at g2; exact g2.elim
      | failed => rw [hcl] at g2; exact g2.elim
      | greeting =>
        rw [hcl] at g2
        exact (readOne_nil g2.2.2.1 hread).elim
      | joining j =>
        rw [hcl] at g2
        obtain ⟨rfl, ⟨hD, k, b, hU, hg⟩ | ⟨hU, -⟩⟩ := g2
        · have hb := hg.short
          obtain ⟨e1, e2⟩ := read_frame (rest := []) (by rw [hU, List.append_nil]) hb hread
          rw [e1]
          have hdown : ∀ t : Bytes, l.downHas ++ (l.down ++ t) = t := by
            intro t
            rw [← List.append_assoc, hD]; rfl
          cases k with
          | zero => exact hg.elim
          | succ k =>
            rcases hg.2 env he with ⟨a', t, j', v1, v2, v3, v4, v5⟩ | ⟨a', t, j', b', v1, v2, v3, v4⟩
            · rw [verdict_done v1 v2 v3]
              dsimp only
              have hun : Unused d.sessionId.val n := hs.elim And.left (fun ⟨⟨f, s, h⟩, _⟩ => absurd h (hnot f s))
              have q1 := broker_fresh hun.1
              have q2 := dealer_fresh hun.2
              rw [if_pos ⟨q1, q2⟩]
              refine ⟨{ l with client := .joining j, router := .attached cfg.format d.sessionId.val, upHas := rest, down := l.down ++ frame t },
                by rw [set_links, if_pos rfl], ⟨g1, ?_⟩, .inr ⟨⟨_, _, rfl⟩, ⟨n.broker, [], rfl, q1, by simp⟩, ⟨n.dealer, [], rfl, q2, by simp⟩⟩⟩
              exact ⟨rfl, rfl, t, [], j', by dsimp only; rw [hdown, List.append_nil], v2, v4, v5⟩
            · rw [verdict_again v1 v2]
              dsimp only
              refine hset _ ⟨g1, ?_⟩ hnot (fun f s e => by cases e)
              exact ⟨rfl, .inr ⟨e2, t, j', k, b', hdown _, v2, v3, v4⟩⟩
        · exact (readOne_nil hU hread).elim
  | attached f s =>
    have hin : InBroker n.broker d ∧ InDealer n.dealer d := hs.elim (fun h => absurd hro (h.2 f s)) And.right
    dsimp only
    cases hread : readOne l.upHas with
    | none => exact hsame
    | some z =>
      obtain ⟨x, rest⟩ := z
      dsimp only
      have h1 : Well E r cfg d { l with router := .attached f s, upHas := rest } := by
        clear hset hsame hs hl hread
        obtain ⟨cfg', cl, ro, up, upHas, down, downHas⟩ := l
        dsimp only at hro
        subst hro
        cases cl <;> exact hw
      cases hm : f.wire.deserialize x.payload with
      | error e => exact ⟨_, by rw [set_links, if_pos rfl], h1, .inr ⟨⟨_, _, rfl⟩, hin⟩⟩
      | ok m =>
        dsimp only
        have hq := handle_quiet (n.set c (some { l with router := .attached f s, upHas := rest })) d.sessionId.val s m
        have hi : InBroker _ d ∧ InDealer _ d := ⟨hq.1.in_ hin.1, hq.2.in_ hin.2⟩
        rcases handle_links (n.set c (some { l with router := .attached f s, upHas := rest })) s m c with e | ⟨out, e⟩ <;>
          rw [set_links, if_pos rfl] at e
        · exact ⟨_, e, h1, .inr ⟨⟨_, _, rfl⟩, hi⟩⟩
        · exact ⟨_, e, well_push h1 out, .inr ⟨⟨_, _, rfl⟩, hi⟩⟩

theorem apart_push {s : Int} {l : Link} (h : Apart s l.router) (out : List (Int × Message)) : Apart s (l.push out).router := by
  obtain ⟨cfg', cl, ro, up, upHas, down, downHas⟩ := l
  cases ro <;> exact h

/-- Elsewhere nothing happens that concerns the session. -/
theorem others_step {n : Stack} {c : Nat} {s : Int} (a : GAct)
    (ho : ∀ c' l, c' ≠ c → n.links c' = some l → Apart s l.router) (hc : ∀ c' cfg sid, a = .act (.connect c' cfg sid) → c' ≠ c → sid.val ≠ s) :
    ∀ c' l, c' ≠ c → (n.gstep r a).links c' = some l → Apart s l.router := by
  intro c' l hne hl
  by_cases hk : c' = connOf a
  · subst hk
    exact (apart_step r n s a (fun l hl => ho _ l hne hl) (fun c' cfg sid e => hc c' cfg sid e (by rw [e] at hne; exact hne))).1 l hl
  · rcases other_links r n hk with e | ⟨out, e⟩
    · exact ho c' l hne (by rw [← e]; exact hl)
    · rw [e] at hl
      cases hk2 : n.links c' with
      | none => rw [hk2] at hl; cases hl
      | some l0 =>
        rw [hk2] at hl
        cases hl
        exact apart_push (ho c' l0 hne hk2) out

theorem hinv_step {c : Nat} {n : Stack} (h : HInv E r cfg d c n) (hrs : ∃ b, sendHandshake ⟨cfg.format.type, r.size⟩ = .ok b)
    (hstart : ∃ j b k, (Joiner.init cfg.realm).sendHello cfg.format.wire cfg.authenticator cfg.roles = (j, .ok b) ∧
      GoesUp E r cfg d k j (Acceptor.init r.hasAuthenticator r.roles d.sessionId) b) (a : GAct)
    (hi : ∀ b, a ≠ .inject c b) (hd : a ≠ .act (.drop c)) (he : ∀ e, a = .act (.serve c e) → E e)
    (hc : ∀ c' cfg sid, a = .act (.connect c' cfg sid) → c' ≠ c → sid.val ≠ d.sessionId.val) : HInv E r cfg d c (n.gstep r a) := by
  refine ⟨others_step a h.others hc, ?_⟩
  obtain ⟨l, hl, hw, hs⟩ := h.well
  by_cases hk : c = connOf a
  · have hset : ∀ l', Well E r cfg d l' → l'.router = l.router →
        ∃ l2, (n.set c (some l')).links c = some l2 ∧ Well E r cfg d l2 ∧ Standing d (n.set c (some l')) l2 := by
      intro l' h1 h2
      refine ⟨l', by rw [set_links, if_pos rfl], h1, ?_⟩
      unfold Standing
      rw [h2]
      exact hs
    cases a with
    | inject c' b => exact absurd (by rw [hk]; rfl) (hi b)
    | act a =>
      cases a <;> simp only [connOf] at hk <;> subst hk <;> simp only [Stack.gstep, Stack.step, hl]
      case connect => exact ⟨l, rfl, hw, hs⟩
      case drop => exact absurd rfl hd
      case carryUp k =>
        exact hset _ (well_congr hw rfl rfl rfl (by dsimp only; rw [List.append_assoc, List.take_append_drop]) rfl) rfl
      case carryDown k =>
        exact hset _ (well_congr hw rfl rfl rfl rfl (by dsimp only; rw [List.append_assoc, List.take_append_drop])) rfl
      case send m =>
        refine hset _ (well_send hw m) ?_
        unfold Link.send
        split <;> rfl
      case hear =>
        refine hset _ (well_hear hw hstart) ?_
        unfold Link.hear
        repeat' split
        all_goals rfl
      case serve env => exact hinv_serve hl hw hs hrs (he env rfl)
  · obtain ⟨-, q1, q2⟩ := apart_step r n d.sessionId.val a (fun l hl => h.others _ l (fun e => hk e.symm) hl)
      (fun c' cfg sid e => hc c' cfg sid e (by rintro rfl; rw [e] at hk; exact hk rfl))
    have hst : ∀ l' : Link, l'.router = l.router → Standing d (n.gstep r a) l' := by
      intro l' e
      unfold Standing
      rw [e]
      exact hs.imp (fun h => ⟨h.1.quiet q1 q2, h.2⟩) fun h => ⟨h.1, q1.in_ h.2.1, q2.in_ h.2.2⟩
    rcases other_links r n hk with e | ⟨out, e⟩ <;> rw [hl] at e
    · exact ⟨l, e, hw, hst _ rfl⟩
    · refine ⟨_, e, well_push hw out, hst _ ?_⟩
      unfold Link.push
      split <;> rfl

theorem hinv_run {c : Nat} (hrs : ∃ b, sendHandshake ⟨cfg.format.type, r.size⟩ = .ok b)
    (hstart : ∃ j b k, (Joiner.init cfg.realm).sendHello cfg.format.wire cfg.authenticator cfg.roles = (j, .ok b) ∧
      GoesUp E r cfg d k j (Acceptor.init r.hasAuthenticator r.roles d.sessionId) b) (sched : List GAct) :
    ∀ n, HInv E r cfg d c n → (∀ b, .inject c b ∉ sched) → .act (.drop c) ∉ sched → (∀ e, .act (.serve c e) ∈ sched → E e) →
      (∀ c' cfg sid, .act (.connect c' cfg sid) ∈ sched → c' ≠ c → sid.val ≠ d.sessionId.val) →
      HInv E r cfg d c (sched.foldl (Stack.gstep r) n) := by
  induction sched with
  | nil => intro n h _ _ _ _; exact h
  | cons a sched ih =>
    intro n h hi hd he hc
    exact ih _ (hinv_step h hrs hstart a (fun b e => hi b (by simp [e])) (fun e => hd (by simp [e])) (fun e h => he e (by simp [h]))
      (fun c' cfg sid e => hc c' cfg sid (by simp [e]))) (fun b h => hi b (by simp [h])) (fun h => hd (by simp [h]))
      (fun e h => he e (by simp [h])) (fun c' cfg sid h => hc c' cfg sid (by simp [h]))

/-- Before it connects -/
theorem apart_run (r : Setup) (s : Int) (sched : List GAct) (hc : ∀ c cfg sid, .act (.connect c cfg sid) ∈ sched → sid.val ≠ s) :
    (∀ c l, (grun r sched).links c = some l → Apart s l.router) ∧ Unused s (grun r sched) := by
  induction sched using snoc_induction with
  | nil => exact ⟨fun c l h => (by cases h), (by intro d h; cases h), by intro d h; cases h⟩
  | snoc sched a ih =>
    obtain ⟨i1, i2⟩ := ih fun c cfg sid h => hc c cfg sid (by simp [h])
    rw [grun_snoc]
    have ha : ∀ c cfg sid, a = .act (.connect c cfg sid) → sid.val ≠ s := fun c cfg sid h => hc c cfg sid (by simp [h])
    obtain ⟨-, q1, q2⟩ := apart_step r (grun r sched) s a (fun l hl => i1 _ l hl) ha
    refine ⟨fun c l hl => ?_, i2.quiet q1 q2⟩
    exact others_step (c := c + 1) a (fun c' l _ h => i1 c' l h) (fun c' cfg sid h _ => ha c' cfg sid h) c l (Nat.ne_of_lt (Nat.lt_succ_self c)) hl

/-- When the two sides agree, and nothing they send is too long, the login goes well. -/
theorem goes_up {a : Acceptor} {e₀ : AuthEnv} (h0 : E e₀)
    (hag : ∀ e₁ e₂, E e₁ → E e₂ → HandshakeAgrees cfg.format.wire r.crypto cfg.authenticator e₁ e₂ cfg.roles (Joiner.init cfg.realm) a d)
    (hsh : ∀ e₁ e₂, E e₁ → E e₂ →
      ∀ w ∈ transcript cfg.format.wire r.crypto cfg.authenticator e₁ e₂ cfg.roles (Joiner.init cfg.realm) a, w.length < 2 ^ 24) :
    ∃ j b k, (Joiner.init cfg.realm).sendHello cfg.format.wire cfg.authenticator cfg.roles = (j, .ok b) ∧ GoesUp E r cfg d k j a b := by
  obtain ⟨j1, b1, -, -, hs, -⟩ := hag e₀ e₀ h0 h0
  have hag1 := hag
  unfold transcript at hsh
  rw [hs] at hsh
  dsimp only at hsh
  refine ⟨j1, b1, 2, hs, hsh e₀ e₀ h0 h0 _ (by simp), fun e₁ h1 => ?_⟩
  obtain ⟨j1', b1', a1, b2, hs', hcase⟩ := hag e₁ e₀ h1 h0
  rw [hs] at hs'
  cases hs'
  have hsh1 := fun e₂ h2 => hsh e₁ e₂ h1 h2
  rcases hcase with ⟨ha, j2, g1, g2, g3⟩ | ⟨ha, j2, b3, -, -, -, g1, -⟩
  · rw [ha] at hsh1
    exact .inl ⟨a1, b2, j2, ha, hsh1 e₀ h0 _ (by simp), g3, g1, g2⟩
  · rw [ha] at hsh1
    dsimp only at hsh1
    rw [g1] at hsh1
    dsimp only at hsh1
    refine .inr ⟨a1, b2, j2, b3, ha, hsh1 e₀ h0 _ (by simp), g1, hsh1 e₀ h0 _ (by simp), fun e₂ h2 => .inl ?_⟩
    obtain ⟨j1', b1', a1', b2', hs', hcase⟩ := hag e₁ e₂ h1 h2
    rw [hs] at hs'
    cases hs'
    rw [ha] at hcase
    rcases hcase with ⟨e, -⟩ | ⟨e, j2', b3', a2, b4, j3, k1, k2, k3, k4, k5⟩
    · cases e
    · cases e
      rw [g1] at k1
      cases k1
      have hsh2 := hsh1 e₂ h2
      rw [k2] at hsh2
      exact ⟨a2, b4, j3, k2, hsh2 _ (by simp), k5, k3, k4⟩

end

end Wamp.Spec.Stack
