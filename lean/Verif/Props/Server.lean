import Verif.Spec.Server
import Verif.Props.Acceptor

/-!
# C116 — a server remembers one HELLO

Whatever an acceptor does follows from the situation it is in: nothing decided, one HELLO challenged, somebody let in, aborted.
-/

namespace Wamp.Acceptor
open Spec.Hs
variable (cr : Crypto) (au : Bool) (roles : Option PyDict) (sid : PyInt)

/-- The description of the acceptor that was made with these -/
def described : Server := ⟨cr, au, roles.getD ROUTER_ROLES, sid⟩

/-- The acceptor is in this situation. -/
def InSituation (s : Acceptor) : Situation → Prop
  | .fresh => s.state = .none ∧ s.sessionDetails = none
  | .challenged env h => s.state = .challengeSent ∧ s.sessionDetails = none ∧ s.hello = some h ∧ s.authMethod = offered h ∧
    (offered h = .str "ticket" ∨
     (offered h = .str "wampcra" ∧ ∃ r secret, env.authenticate (.wampcra h.realm h.authid h.authextra) = .ok r ∧
        r.secret? = some secret ∧ s.response = some r ∧ s.secret = some secret ∧
        s.challenge = some (generateWampcraChallenge env.nonce env.now s.sessionId r.authid r.authrole "dynamic")) ∨
     (offered h = .str "cryptosign" ∧ ∃ r key, announcedKey h = some key ∧
        env.authenticate (.cryptosign h.realm h.authid h.authextra key) = .ok r ∧ s.response = some r ∧ s.publicKey = key))
  | .joined d => s.state = .welcomeSent ∧ s.sessionDetails = some d
  | .aborted => s.state = .aborted ∧ s.sessionDetails = none

structure Simulates (s : Acceptor) (t : Situation) : Prop where
  auth : s.hasAuthenticator = au
  roles : s.roles = roles.getD ROUTER_ROLES
  sid : s.sessionId = sid
  sit : InSituation s t

/-- Both do the same. -/
def Together (o : Acceptor × Except Exc (Option Message)) (e : Reaction) : Prop := o.2 = e.2 ∧ Simulates au roles sid o.1 e.1

variable {cr au roles sid}

theorem together_welcome {s : Acceptor} (ha : s.hasAuthenticator = au) (hr : s.roles = roles.getD ROUTER_ROLES) (hs : s.sessionId = sid)
    (realm : String) (x y z : Option String) :
    Together au roles sid (s.welcome realm x y z) ((described cr au roles sid).letIn realm x y z) := by
  subst hs
  exact ⟨by simp [welcome, Server.letIn, described, hr], ha, hr, rfl, rfl, rfl⟩

theorem together_hello {s : Acceptor} (h : Simulates au roles sid s .fresh) (env : AuthEnv) (m : Hello) :
    Together au roles sid (s.receiveHello cr env m) ((described cr au roles sid).onHello env m) := by
  obtain ⟨b, ro, si, st, am, he, re, de, pk, ch, se⟩ := s
  obtain ⟨ha, hr, hs, hn, hd⟩ := h
  simp only at ha hr hs hn hd
  subst ha hr hs hn hd
  unfold receiveHello Server.onHello
  rw [if_neg (by simp)]
  simp only [described, show chooseMethod m = offered m from rfl]
  cases b with
  | false => exact together_welcome (cr := cr) rfl rfl rfl _ _ _ _
  | true =>
    simp only [not_true_eq_false, Bool.true_eq_false, if_false]
    by_cases h1 : offered m = .str "anonymous"
    · rw [if_pos h1, if_pos h1]
      cases env.authenticate (.anonymous m.realm m.authid m.authextra) with
      | ok r => exact together_welcome (cr := cr) rfl rfl rfl _ _ _ _
      | error x => exact ⟨rfl, rfl, rfl, rfl, rfl, rfl⟩
    rw [if_neg h1, if_neg h1]
    by_cases h2 : offered m = .str "cryptosign"
    · rw [if_pos h2, if_neg (by rw [h2]; simp), if_neg (by rw [h2]; simp), if_pos h2]
      cases hx : m.authextra with
      | none => exact ⟨rfl, rfl, rfl, rfl, rfl, rfl⟩
      | some x =>
        have hk : announcedKey m = PyDict.get? x "pubkey" := by simp [announcedKey, hx]
        have hg : (PyDict.get? x "pubkey").getD .none = PyDict.getD x "pubkey" := rfl
        rw [if_neg (by simp), hk]
        simp only [hg]
        by_cases hkn : PyDict.getD x "pubkey" = .none
        · rw [if_pos hkn, if_pos hkn]; exact ⟨rfl, rfl, rfl, rfl, rfl, rfl⟩
        · rw [if_neg hkn, if_neg hkn]
          cases hy : env.authenticate (.cryptosign m.realm m.authid (some x) (PyDict.getD x "pubkey")) with
          | error e => exact ⟨rfl, rfl, rfl, rfl, rfl, rfl⟩
          | ok r =>
            refine ⟨rfl, rfl, rfl, rfl, rfl, rfl, rfl, rfl, .inr (.inr ⟨h2, r, _, ?_, by rw [hx]; exact hy, rfl, rfl⟩)⟩
            rw [hk, ← hg]
            rw [← hg] at hkn
            revert hkn
            cases PyDict.get? x "pubkey" with
            | none => exact fun h => absurd rfl h
            | some k => exact fun _ => rfl
    rw [if_neg h2]
    by_cases h3 : offered m = .str "wampcra"
    · rw [if_pos h3, if_neg (by rw [h3]; simp), if_pos h3]
      cases hx : env.authenticate (.wampcra m.realm m.authid m.authextra) with
      | error x => exact ⟨rfl, rfl, rfl, rfl, rfl, rfl⟩
      | ok r =>
        cases hsec : r.secret? with
        | none => exact ⟨by simp [hsec], by simp [hsec], by simp [hsec], by simp [hsec], by simp [hsec, InSituation]⟩
        | some sec =>
          simp only [hsec, Option.isSome_some, if_true]
          exact ⟨rfl, rfl, rfl, rfl, rfl, rfl, rfl, rfl, .inr (.inl ⟨h3, r, sec, hx, hsec, rfl, rfl, rfl⟩)⟩
    rw [if_neg h3]
    by_cases h4 : offered m = .str "ticket"
    · rw [if_pos h4, if_pos h4]
      exact ⟨rfl, rfl, rfl, rfl, rfl, rfl, rfl, rfl, .inl h4⟩
    · rw [if_neg h4, if_neg h4, if_neg h3, if_neg h2]
      exact ⟨rfl, rfl, rfl, rfl, rfl, rfl⟩

theorem together_authenticate {s : Acceptor} {env : AuthEnv} {m : Hello} (h : Simulates au roles sid s (.challenged env m))
    (now : AuthEnv) (a : Authenticate) :
    Together au roles sid (s.receiveAuthenticate cr now a) ((described cr au roles sid).onAuthenticate env m now a.signature) := by
  obtain ⟨b, ro, si, st, am, he, re, de, pk, ch, se⟩ := s
  have h0 := h
  obtain ⟨ha, hr, hs, hn, hd, hh, hm, hc⟩ := h
  simp only at ha hr hs hn hd hh hm hc
  subst ha hr hs hn hd hh hm
  unfold receiveAuthenticate Server.onAuthenticate
  rw [if_neg (by simp)]
  simp only
  rcases hc with hc | ⟨hc, r, sec, h1, h2, rfl, rfl, rfl⟩ | ⟨hc, r, key, h1, h2, rfl, rfl⟩
  · rw [if_neg (by rw [hc]; simp), if_neg (by rw [hc]; simp), if_pos hc, if_pos hc]
    cases now.authenticate (.ticket m.realm m.authid m.authextra a.signature) with
    | ok r => exact together_welcome (cr := cr) rfl rfl rfl _ _ _ _
    | error x => exact ⟨rfl, h0⟩
  · rw [if_neg (by rw [hc]; simp), if_pos hc, if_neg (by rw [hc]; simp), if_pos hc, h1]
    simp only [h2, Option.getD_some]
    have : verifyWampcraSignature cr a.signature (generateWampcraChallenge env.nonce env.now si r.authid r.authrole "dynamic") (utf8 sec) =
        (described cr b roles si).craJudged env r sec a.signature := by
      unfold verifyWampcraSignature Server.craJudged
      simp only [signWampcraChallenge, b64decode_b64encode]
      cases hb : b64decode a.signature with
      | ok x => rfl
      | error e => cases e <;> rfl
    rw [this]
    cases (described cr b roles si).craJudged env r sec a.signature with
    | error e => exact ⟨rfl, h0⟩
    | ok t =>
      cases t with
      | true => exact together_welcome (cr := cr) rfl rfl rfl _ _ _ _
      | false => exact ⟨rfl, rfl, rfl, rfl, rfl, rfl⟩
  · rw [if_pos hc, if_neg (by rw [hc]; simp), if_neg (by rw [hc]; simp), h1]
    simp only [Option.getD_some, h2]
    unfold Server.signJudged verifyCryptosignSignature verifyKeyOk
    simp only [described]
    cases unhexlifyValue pk with
    | error e => exact ⟨rfl, h0⟩
    | ok k =>
      simp only
      by_cases hl : k.length = 32
      · simp only [hl, ne_eq, not_true_eq_false, if_false]
        cases unhexlify a.signature with
        | error e => exact ⟨rfl, h0⟩
        | ok x =>
          simp only [bind, Except.bind, pure, Except.pure]
          cases (cr.signOpen k x).isSome with
          | true => exact together_welcome (cr := cr) rfl rfl rfl _ _ _ _
          | false => exact ⟨rfl, rfl, rfl, rfl, rfl, rfl⟩
      · simp only [ne_eq, hl, not_false_eq_true, if_true]
        exact ⟨rfl, h0⟩

theorem together_step {s : Acceptor} {t : Situation} (h : Simulates au roles sid s t) (i : In) :
    Together au roles sid (s.receiveMessage cr i.1 i.2) ((described cr au roles sid).react t i) := by
  obtain ⟨env, m⟩ := i
  unfold receiveMessage
  obtain ⟨ha, hr, hs, ht⟩ := id h
  cases t with
  | joined d => rw [if_pos ht.1]; exact ⟨rfl, h⟩
  | fresh =>
    rw [if_neg (by rw [ht.1]; simp)]
    cases m
    case hello m => exact together_hello h env m
    case authenticate m =>
      simp only [receiveAuthenticate]; rw [if_pos (by rw [ht.1]; simp)]; exact ⟨rfl, h⟩
    case abort m => exact ⟨rfl, ha, hr, hs, rfl, ht.2⟩
    all_goals exact ⟨rfl, h⟩
  | challenged env' h' =>
    rw [if_neg (by rw [ht.1]; simp)]
    cases m
    case hello m => simp only [receiveHello]; rw [if_pos (by rw [ht.1]; simp)]; exact ⟨rfl, h⟩
    case authenticate m => exact together_authenticate h env m
    case abort m => exact ⟨rfl, ha, hr, hs, rfl, ht.2.1⟩
    all_goals exact ⟨rfl, h⟩
  | aborted =>
    rw [if_neg (by rw [ht.1]; simp)]
    cases m
    case hello m => simp only [receiveHello]; rw [if_pos (by rw [ht.1]; simp)]; exact ⟨rfl, h⟩
    case authenticate m => simp only [receiveAuthenticate]; rw [if_pos (by rw [ht.1]; simp)]; exact ⟨rfl, h⟩
    case abort m => exact ⟨rfl, ha, hr, hs, rfl, ht.2⟩
    all_goals exact ⟨rfl, h⟩

variable (cr au roles sid)

theorem simulates_after (ins : List In) :
    Simulates au roles sid (after cr (init au roles sid) ins) ((described cr au roles sid).situation ins) := by
  induction ins using snoc_induction with
  | nil => exact ⟨rfl, rfl, rfl, rfl, rfl⟩
  | snoc ins i ih =>
    rw [after_snoc, Server.situation, List.foldl_append]
    exact (together_step ih i).2

/-- Whatever messages a server has received, its answer to the next, or the exception it raises, is the one described for the
situation it is in, and so is what it reports about itself.  Nothing else of the history matters. -/
theorem C116_server (ins : List In) :
    (∀ i, reply cr (init au roles sid) ins i = ((described cr au roles sid).react ((described cr au roles sid).situation ins) i).2) ∧
    (isAborted (after cr (init au roles sid) ins) = true ↔ (described cr au roles sid).situation ins = .aborted) ∧
    (∀ d, getSessionDetails (after cr (init au roles sid) ins) = .ok d ↔ (described cr au roles sid).situation ins = .joined d) := by
  have h := simulates_after cr au roles sid ins
  refine ⟨fun i => (together_step h i).1, ?_, ?_⟩
  · have ht := h.sit
    unfold isAborted
    cases hs : (described cr au roles sid).situation ins <;> rw [hs] at ht <;> simp [ht.1]
  · intro d
    have ht := h.sit
    unfold getSessionDetails
    cases hs : (described cr au roles sid).situation ins with
    | fresh => rw [hs] at ht; rw [ht.2]; simp
    | challenged => rw [hs] at ht; rw [ht.2.1]; simp
    | joined => rw [hs] at ht; rw [ht.2]; simp
    | aborted => rw [hs] at ht; rw [ht.2]; simp

/-! ## C60, exactly -/

/-- An answer, or a ValueError -/
def Clean (r : Except Exc (Option Message)) : Prop := (∃ m, r = .ok (some m)) ∨ ∃ e, r = .error e ∧ e.isValueError = true

/-- Neither -/
def Dirty (r : Except Exc (Option Message)) : Prop := r = .ok none ∨ ∃ e, r = .error e ∧ e.isValueError = false

theorem clean_dirty {r : Except Exc (Option Message)} (h : Clean r) (h' : Dirty r) : False := by
  rcases h with ⟨m, rfl⟩ | ⟨e, rfl, he⟩ <;> rcases h' with h' | ⟨e', h', he'⟩
  · cases h'
  · cases h'
  · cases h'
  · cases h'; rw [he] at he'; cases he'

theorem hello_clean (v : Server) (env : AuthEnv) (h : Hello)
    (hn : ¬ (v.guarded = true ∧ offered h = .str "cryptosign" ∧ h.authextra = none)) : Clean (v.onHello env h).2 := by
  unfold Server.onHello
  split
  · exact .inl ⟨_, rfl⟩
  next hg =>
  have hg : v.guarded = true := by simpa using hg
  split
  · split <;> exact .inl ⟨_, rfl⟩
  split
  · exact .inl ⟨_, rfl⟩
  split
  · split
    · split
      · exact .inl ⟨_, rfl⟩
      · exact .inr ⟨_, rfl, rfl⟩
    · exact .inl ⟨_, rfl⟩
  split
  · next hc =>
    rw [if_neg (fun hx => hn ⟨hg, hc, hx⟩)]
    simp only
    split
    · exact .inr ⟨_, rfl, rfl⟩
    · split <;> exact .inl ⟨_, rfl⟩
  · exact .inr ⟨_, rfl, rfl⟩

theorem hello_dirty (v : Server) (env : AuthEnv) (h : Hello) (h1 : v.guarded = true) (h2 : offered h = .str "cryptosign")
    (h3 : h.authextra = none) : Dirty (v.onHello env h).2 := by
  unfold Server.onHello
  rw [if_neg (by simp [h1]), if_neg (by simp [h2]), if_neg (by simp [h2]), if_neg (by simp [h2]), if_pos h2, if_pos h3]
  exact .inr ⟨_, rfl, rfl⟩

theorem decide_clean (v : Server) (env : AuthEnv) (h : Hello) (r : Response) (x : Except Exc Bool)
    (hx : ∀ e, x = .error e → e.isValueError = true) : Clean (v.decide env h r x).2 := by
  cases x with
  | error e => exact .inr ⟨_, rfl, hx e rfl⟩
  | ok b => cases b <;> exact .inl ⟨_, rfl⟩

theorem craJudged_error (v : Server) (env : AuthEnv) (r : Response) (secret signature : String) (e : Exc)
    (h : v.craJudged env r secret signature = .error e) : e.isValueError = true := by
  have ht := C64_verify_total v.cr signature (v.craChallenge env r) (utf8 secret)
  have he : verifyWampcraSignature v.cr signature (v.craChallenge env r) (utf8 secret) = v.craJudged env r secret signature := by
    unfold verifyWampcraSignature Server.craJudged
    simp only [signWampcraChallenge, b64decode_b64encode]
    cases hb : b64decode signature with
    | ok x => rfl
    | error e => cases e <;> rfl
  rw [he] at ht
  cases ha : isAscii signature with
  | true => obtain ⟨b, hb⟩ := ht.1 ha; rw [hb] at h; cases h
  | false => obtain ⟨t, hb⟩ := ht.2 ha; rw [hb] at h; cases h; rfl

theorem signJudged_error (v : Server) (key : Value) (hk : (∃ t, key = .str t) ∨ ∃ b, key = .bytes b) (signature : String) (e : Exc)
    (h : v.signJudged key signature = .error e) : e.isValueError = true := by
  unfold Server.signJudged at h
  cases hu : unhexlifyValue key with
  | error e' =>
    rw [hu] at h; cases h
    rcases hk with ⟨t, rfl⟩ | ⟨b, rfl⟩
    · exact (C66_bad_challenge v.cr [] t e hu).2
    · exact unhexlifyChars_valueError _ _ hu
  | ok k =>
    rw [hu] at h
    simp only at h
    split at h
    · cases h; rfl
    · cases hs : unhexlify signature with
      | error e' => rw [hs] at h; cases h; exact (C66_bad_challenge v.cr [] _ e hs).2
      | ok x => rw [hs] at h; cases h

theorem signJudged_type (v : Server) (key : Value) (h1 : ∀ t, key ≠ .str t) (h2 : ∀ b, key ≠ .bytes b) (signature : String) :
    v.signJudged key signature = .error (.typeError "argument should be bytes, buffer or ASCII string") := by
  unfold Server.signJudged
  cases key <;> first | rfl | exact absurd rfl (h1 _) | exact absurd rfl (h2 _)

/-- The exact form of C60.  `receive`, on data that is a message, raises something else than ValueError exactly at the messages
of `Stumbles`; at all others it answers or raises ValueError. -/
theorem C60_exact {W : Type} (c : Codec W) (ins : List In) (env : AuthEnv) (data : W) (msg : Message)
    (hd : c.deserialize data = .ok msg) (hc : ∀ m, ∃ w, c.serialize m = .ok w) :
    (∃ e, ((after cr (init au roles sid) ins).receive c cr env data).2 = .error e ∧ e.isValueError = false) ↔
      Stumbles (described cr au roles sid) ((described cr au roles sid).situation ins) msg := by
  have h := simulates_after cr au roles sid ins
  have hr := (together_step (cr := cr) h (env, msg)).1
  generalize after cr (init au roles sid) ins = s at *
  generalize (described cr au roles sid).situation ins = t at *
  have key : (∃ e, (s.receive c cr env data).2 = .error e ∧ e.isValueError = false) ↔
      Dirty ((described cr au roles sid).react t (env, msg)).2 := by
    rw [← hr]
    unfold receive
    rw [hd]
    simp only
    rcases ho : s.receiveMessage cr env msg with ⟨a', e | _ | out⟩
    · constructor
      · rintro ⟨e', h1, h2⟩; cases h1; exact .inr ⟨_, rfl, h2⟩
      · rintro (h1 | ⟨e', h1, h2⟩)
        · cases h1
        · cases h1; exact ⟨_, rfl, h2⟩
    · exact ⟨fun _ => .inl rfl, fun _ => ⟨_, rfl, rfl⟩⟩
    · obtain ⟨w, hw⟩ := hc out
      constructor
      · rintro ⟨e', h1, h2⟩; simp only [hw] at h1; cases h1
      · rintro (h1 | ⟨e', h1, h2⟩) <;> cases h1
  rw [key]
  have no : ∀ {r : Except Exc (Option Message)}, Clean r → (Dirty r ↔ False) := fun h => ⟨fun h' => clean_dirty h h', False.elim⟩
  have err : ∀ t, Clean (.error (.valueError t)) := fun t => .inr ⟨_, rfl, rfl⟩
  cases t with
  | joined d => exact no (err _)
  | fresh =>
    cases msg
    case hello m =>
      refine ⟨fun h => ?_, fun h => hello_dirty _ env m h.1 h.2.1 h.2.2⟩
      refine Classical.byContradiction fun hn => ?_
      exact clean_dirty (hello_clean (described cr au roles sid) env m hn) h
    case authenticate m => exact no (err _)
    all_goals exact ⟨fun _ => trivial, fun _ => .inl rfl⟩
  | aborted =>
    cases msg
    case hello m => exact no (err _)
    case authenticate m => exact no (err _)
    all_goals exact ⟨fun _ => trivial, fun _ => .inl rfl⟩
  | challenged env' hello =>
    cases msg
    case hello m => exact no (err _)
    case authenticate m =>
      obtain ⟨-, -, -, -, hcase⟩ := h.sit
      simp only [Server.react, Server.onAuthenticate, Stumbles]
      rcases hcase with hcase | ⟨hcase, r, sec, h1, -⟩ | ⟨hcase, r, k, h1, h2, -⟩
      · rw [if_pos hcase]
        refine Iff.trans (no ?_) ⟨False.elim, fun h => by rw [hcase] at h; exact absurd h.1 (by simp)⟩
        split <;> exact .inl ⟨_, rfl⟩
      · rw [if_neg (by rw [hcase]; simp), if_pos hcase, h1]
        refine Iff.trans (no ?_) ⟨False.elim, fun h => by rw [hcase] at h; exact absurd h.1 (by simp)⟩
        exact decide_clean _ _ _ _ _ fun e he => craJudged_error _ _ _ _ _ _ he
      · rw [if_neg (by rw [hcase]; simp), if_neg (by rw [hcase]; simp), h1]
        simp only [Option.getD_some, h2]
        constructor
        · intro hdirty
          refine ⟨hcase, k, rfl, ?_, ?_⟩
          · rintro t rfl
            exact clean_dirty (decide_clean _ _ _ _ _ fun e he => signJudged_error _ _ (.inl ⟨t, rfl⟩) _ _ he) hdirty
          · rintro b rfl
            exact clean_dirty (decide_clean _ _ _ _ _ fun e he => signJudged_error _ _ (.inr ⟨b, rfl⟩) _ _ he) hdirty
        · rintro ⟨-, k', hk', h3, h4⟩
          cases hk'
          rw [signJudged_type _ _ h3 h4]
          exact .inr ⟨_, rfl, rfl⟩
    all_goals exact ⟨fun _ => trivial, fun _ => .inl rfl⟩

/-! ## Cases -/

example : (described toyCrypto true none (.int 7)).situation craStart =
    .challenged (approves (.cra (some "bob") (some "user") "pw")) (helloFor "wampcra" []) := rfl

/-- A refused HELLO changes nothing, a ticket can be tried twice, an ABORT ends it all. -/
example : (described toyCrypto true none (.int 7)).situation [(rejects, .hello (helloFor "anonymous" [])),
      (rejects, .hello (helloFor "ticket" [])), (rejects, .authenticate ⟨"x", []⟩),
      (approves (.plain (some "bob") none), .authenticate ⟨"y", []⟩), (rejects, .abort ⟨[], "bye", none, none⟩)] =
    .joined ⟨.int 7, "realm1", some "bob", none⟩ := rfl

/-- A key that is a number is challenged, and stumbled over later. -/
example : Stumbles (described toyCrypto true none (.int 7))
    ((described toyCrypto true none (.int 7)).situation
      [(approves (.plain none none), .hello (helloFor "cryptosign" [(.str "pubkey", .int 3)]))]) (.authenticate ⟨"", []⟩) :=
  ⟨rfl, .int 3, rfl, nofun, nofun⟩

example : ¬ Stumbles (described toyCrypto true none (.int 7)) ((described toyCrypto true none (.int 7)).situation craStart)
    (.authenticate ⟨"", []⟩) := fun h => absurd h.1 (by decide)

end Wamp.Acceptor
