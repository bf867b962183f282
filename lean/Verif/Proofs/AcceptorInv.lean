import Verif.Spec.Acceptor
import Verif.Proofs.Lists

/-! # The acceptor's state as a function of the history -/

namespace Wamp.Acceptor
open Spec.Hs
variable (cr : Crypto)

theorem after_snoc (a : Acceptor) (ins : List In) (i : In) :
    after cr a (ins ++ [i]) = ((after cr a ins).receiveMessage cr i.1 i.2).1 := by
  simp [after]

/-- What the acceptor remembers about an outstanding challenge. -/
def ChalInv (a0 : Acceptor) (ins : List In) (s : Acceptor) : Prop :=
  ∃ env h ch, Challenged cr a0 ins env h ch ∧ s.hello = some h ∧ s.authMethod = offered h ∧ .str ch.authmethod = offered h ∧
    ((offered h = .str "ticket" ∧ ch = ⟨"ticket", []⟩) ∨
     (offered h = .str "wampcra" ∧ ∃ r sec c, env.authenticate (.wampcra h.realm h.authid h.authextra) = .ok r ∧
        r.secret? = some sec ∧ s.response = some r ∧ s.secret = some sec ∧ s.challenge = some c ∧
        c = generateWampcraChallenge env.nonce env.now s.sessionId r.authid r.authrole "dynamic" ∧
        ch = ⟨"wampcra", [(.str "challenge", .str c)]⟩) ∨
     (offered h = .str "cryptosign" ∧ ∃ r pk, announcedKey h = some pk ∧ pk ≠ .none ∧
        env.authenticate (.cryptosign h.realm h.authid h.authextra pk) = .ok r ∧ s.response = some r ∧ s.publicKey = pk ∧
        ch = ⟨"cryptosign", [(.str "challenge", .str (hexlify env.raw))]⟩))

/-- The whole invariant. -/
structure Inv (a0 : Acceptor) (ins : List In) (s : Acceptor) : Prop where
  auth : s.hasAuthenticator = a0.hasAuthenticator
  roles : s.roles = a0.roles
  sid : s.sessionId = a0.sessionId
  chal : s.state = .challengeSent → s.hasAuthenticator = true ∧ ChalInv cr a0 ins s
  chalHello : ∀ env h ch, Challenged cr a0 ins env h ch → s.hello = some h ∧ s.state ≠ .none
  st : s.state = .welcomeSent ↔ ∃ d, s.sessionDetails = some d
  est : ∀ d, s.sessionDetails = some d ↔
    ∃ h w, Established cr a0 ins h w ∧ d = ⟨w.sessionId, h.realm, w.authid, w.authrole⟩

theorem challenged_snoc {cr : Crypto} {a : Acceptor} {ins env h ch} (hc : Challenged cr a ins env h ch) (i : In) :
    Challenged cr a (ins ++ [i]) env h ch := by
  obtain ⟨pre, post, rfl, hr⟩ := hc
  exact ⟨pre, post ++ [i], by simp, hr⟩

theorem ChalInv.snoc {cr : Crypto} {a0 : Acceptor} {ins s} (h : ChalInv cr a0 ins s) (i : In) : ChalInv cr a0 (ins ++ [i]) s := by
  obtain ⟨env, h, ch, hc, rest⟩ := h
  exact ⟨env, h, ch, challenged_snoc hc i, rest⟩

/-! ## Outcomes of single calls -/

/-- A HELLO in the initial state, with an authenticator. -/
theorem receiveHello_cases (env : AuthEnv) (s : Acceptor) (h : Hello) (hs : s.state = .none) (ha : s.hasAuthenticator = true) :
    (∃ r, offered h = .str "anonymous" ∧ env.authenticate (.anonymous h.realm h.authid h.authextra) = .ok r ∧
      s.receiveHello cr env h =
        ({ s with authMethod := offered h, hello := some h }.welcome h.realm r.authid r.authrole (some "anonymous"))) ∨
    (∃ r pk, offered h = .str "cryptosign" ∧ announcedKey h = some pk ∧ pk ≠ .none ∧
      env.authenticate (.cryptosign h.realm h.authid h.authextra pk) = .ok r ∧
      s.receiveHello cr env h =
        ({ s with authMethod := offered h, hello := some h, response := some r, publicKey := pk, state := .challengeSent },
         .ok (some (.challenge ⟨"cryptosign", [(.str "challenge", .str (hexlify env.raw))]⟩)))) ∨
    (∃ r sec, offered h = .str "wampcra" ∧ env.authenticate (.wampcra h.realm h.authid h.authextra) = .ok r ∧
      r.secret? = some sec ∧
      s.receiveHello cr env h =
        ({ s with authMethod := offered h, hello := some h, response := some r, secret := some sec, state := .challengeSent,
                  challenge := some (generateWampcraChallenge env.nonce env.now s.sessionId r.authid r.authrole "dynamic") },
         .ok (some (.challenge ⟨"wampcra", [(.str "challenge",
          .str (generateWampcraChallenge env.nonce env.now s.sessionId r.authid r.authrole "dynamic"))]⟩)))) ∨
    (offered h = .str "ticket" ∧
      s.receiveHello cr env h = ({ s with authMethod := offered h, hello := some h, state := .challengeSent },
         .ok (some (.challenge ⟨"ticket", []⟩)))) ∨
    ((s.receiveHello cr env h).1 = { s with authMethod := offered h, hello := some h } ∧
      ((∃ args, (s.receiveHello cr env h).2 = .ok (some (authFailed (some args)))) ∨
       ∃ e, (s.receiveHello cr env h).2 = .error e)) := by
  unfold receiveHello
  rw [if_neg (by simp [hs]), if_neg (by simp [ha])]
  have hm : chooseMethod h = offered h := rfl
  simp only [hm]
  by_cases h1 : offered h = .str "anonymous"
  · rw [if_pos h1]
    cases hr : env.authenticate (.anonymous h.realm h.authid h.authextra) with
    | error args => exact .inr (.inr (.inr (.inr ⟨rfl, .inl ⟨args, rfl⟩⟩)))
    | ok r => exact .inl ⟨r, h1, rfl, rfl⟩
  · rw [if_neg h1]
    by_cases h2 : offered h = .str "cryptosign"
    · rw [if_pos h2]
      cases hx : h.authextra with
      | none => exact .inr (.inr (.inr (.inr ⟨rfl, .inr ⟨_, rfl⟩⟩)))
      | some x =>
        simp only []
        by_cases hk : PyDict.getD x "pubkey" = .none
        · rw [if_pos hk]; exact .inr (.inr (.inr (.inr ⟨rfl, .inr ⟨_, rfl⟩⟩)))
        · rw [if_neg hk]
          have hkey : announcedKey h = some (PyDict.getD x "pubkey") := by
            unfold announcedKey; rw [hx]
            unfold PyDict.getD at hk ⊢
            cases hg : PyDict.get? x "pubkey" with
            | none => rw [hg] at hk; exact absurd rfl hk
            | some v => simp [hg]
          cases hr : env.authenticate (.cryptosign h.realm h.authid (some x) (PyDict.getD x "pubkey")) with
          | error args => exact .inr (.inr (.inr (.inr ⟨rfl, .inl ⟨args, rfl⟩⟩)))
          | ok r => exact .inr (.inl ⟨r, PyDict.getD x "pubkey", h2, hkey, hk, hr, rfl⟩)
    · rw [if_neg h2]
      by_cases h3 : offered h = .str "wampcra"
      · rw [if_pos h3]
        cases hr : env.authenticate (.wampcra h.realm h.authid h.authextra) with
        | error args => exact .inr (.inr (.inr (.inr ⟨rfl, .inl ⟨args, rfl⟩⟩)))
        | ok r =>
          simp only []
          cases hsec : r.secret? with
          | none => exact .inr (.inr (.inr (.inr ⟨rfl, .inr ⟨_, rfl⟩⟩)))
          | some sec => exact .inr (.inr (.inl ⟨r, sec, h3, rfl, hsec, rfl⟩))
      · rw [if_neg h3]
        by_cases h4 : offered h = .str "ticket"
        · rw [if_pos h4]; exact .inr (.inr (.inr (.inl ⟨h4, rfl⟩)))
        · rw [if_neg h4]; exact .inr (.inr (.inr (.inr ⟨rfl, .inr ⟨_, rfl⟩⟩)))

/-- An AUTHENTICATE answering an outstanding challenge. -/
theorem receiveAuthenticate_cases (a0 : Acceptor) (ins : List In) (env : AuthEnv) (s : Acceptor) (au : Authenticate)
    (hs : s.state = .challengeSent) (hc : ChalInv cr a0 ins s) :
    (∃ env' h ch r, Challenged cr a0 ins env' h ch ∧ .str ch.authmethod = offered h ∧ Approved env' env h au.signature r ∧
      (offered h = .str "wampcra" → ∃ sec c, r.secret? = some sec ∧ ch.extra = [(.str "challenge", .str c)] ∧
        verifyWampcraSignature cr au.signature c (utf8 sec) = .ok true) ∧
      (offered h = .str "cryptosign" → ∃ pk pkb, announcedKey h = some pk ∧ unhexlifyValue pk = .ok pkb ∧
        verifyCryptosignSignature cr au.signature pkb = .ok true) ∧
      s.receiveAuthenticate cr env au = s.welcome h.realm r.authid r.authrole none) ∨
    (s.receiveAuthenticate cr env au = ({ s with state := .aborted }, .ok (some (authFailed none)))) ∨
    ((s.receiveAuthenticate cr env au).1 = s ∧
      ((∃ args, (s.receiveAuthenticate cr env au).2 = .ok (some (authFailed (some args)))) ∨
       ∃ e, (s.receiveAuthenticate cr env au).2 = .error e)) := by
  obtain ⟨env', h, ch, hch, hh, hm, hcm, hcase⟩ := hc
  unfold receiveAuthenticate
  rw [if_neg (by simp [hs]), hm]
  rcases hcase with ⟨ho, rfl⟩ | ⟨ho, r, sec, c, hr, hsec, hresp, hss, hsc, hcc, rfl⟩ | ⟨ho, r, pk, hk, hkn, hr, hresp, hpk, rfl⟩
  · rw [ho, if_neg (by decide), if_neg (by decide), if_pos rfl, hh]
    simp only []
    cases hq : env.authenticate (.ticket h.realm h.authid h.authextra au.signature) with
    | error args => exact .inr (.inr ⟨rfl, .inl ⟨args, rfl⟩⟩)
    | ok r =>
      refine .inl ⟨env', h, _, r, hch, hcm, .inl ⟨ho, hq⟩, ?_, ?_, rfl⟩
      · intro h; rw [ho] at h; exact absurd h (by decide)
      · intro h; rw [ho] at h; exact absurd h (by decide)
  · rw [ho, if_neg (by decide), if_pos rfl, hss, hsc]
    simp only []
    cases hv : verifyWampcraSignature cr au.signature c (utf8 sec) with
    | error e => exact .inr (.inr ⟨rfl, .inr ⟨e, rfl⟩⟩)
    | ok b =>
      cases b with
      | false => exact .inr (.inl rfl)
      | true =>
        refine .inl ⟨env', h, _, r, hch, hcm, .inr (.inl ⟨ho, hr⟩), fun _ => ⟨sec, c, hsec, rfl, hv⟩, ?_, ?_⟩
        · intro h; rw [ho] at h; exact absurd h (by decide)
        · unfold welcomeResponse; rw [hresp, hh]
  · rw [ho, if_pos rfl, hpk]
    cases hu : unhexlifyValue pk with
    | error e => exact .inr (.inr ⟨rfl, .inr ⟨e, rfl⟩⟩)
    | ok pkb =>
      simp only []
      cases hv : verifyCryptosignSignature cr au.signature pkb with
      | error e => exact .inr (.inr ⟨rfl, .inr ⟨e, rfl⟩⟩)
      | ok b =>
        cases b with
        | false => exact .inr (.inl rfl)
        | true =>
          refine .inl ⟨env', h, _, r, hch, hcm, .inr (.inr ⟨ho, pk, hk, hr⟩), ?_, fun _ => ⟨pk, pkb, hk, hu, hv⟩, ?_⟩
          · intro h; rw [ho] at h; exact absurd h (by decide)
          · unfold welcomeResponse; rw [hresp, hh]

/-! ## Every call -/

/-- Neither WELCOME nor CHALLENGE. -/
def Quiet (r : Except Exc (Option Message)) : Prop :=
  (∀ w, r ≠ .ok (some (.welcome w))) ∧ ∀ c, r ≠ .ok (some (.challenge c))

theorem quiet_error (e) : Quiet (.error e) := ⟨(fun _ h => by cases h), (fun _ h => by cases h)⟩
theorem quiet_none : Quiet (.ok none) := ⟨(fun _ h => by cases h), (fun _ h => by cases h)⟩
theorem quiet_failed (x) : Quiet (.ok (some (authFailed x))) := ⟨(fun _ h => by cases h), (fun _ h => by cases h)⟩

/-- Why a WELCOME with this authid and authrole was sent. -/
def Why (a0 : Acceptor) (ins : List In) (i : In) (s : Acceptor) (h : Hello) (authid authrole authmethod : Option String) : Prop :=
  (s.hasAuthenticator = false ∧ i.2 = .hello h ∧ authid = some "anonymous" ∧ authrole = some "anonymous" ∧
    authmethod = some "anonymous") ∨
  (∃ r, i.2 = .hello h ∧ offered h = .str "anonymous" ∧ i.1.authenticate (.anonymous h.realm h.authid h.authextra) = .ok r ∧
    authid = r.authid ∧ authrole = r.authrole ∧ authmethod = some "anonymous") ∨
  (∃ au env ch r, i.2 = .authenticate au ∧ Challenged cr a0 ins env h ch ∧ .str ch.authmethod = offered h ∧
      Approved env i.1 h au.signature r ∧
      (offered h = .str "wampcra" → ∃ sec c, r.secret? = some sec ∧ ch.extra = [(.str "challenge", .str c)] ∧
        verifyWampcraSignature cr au.signature c (utf8 sec) = .ok true) ∧
      (offered h = .str "cryptosign" → ∃ pk pkb, announcedKey h = some pk ∧ unhexlifyValue pk = .ok pkb ∧
        verifyCryptosignSignature cr au.signature pkb = .ok true) ∧
      authid = r.authid ∧ authrole = r.authrole ∧ authmethod = none)

/-- The four kinds of outcome of `receive_message`. -/
inductive Outcome (a0 : Acceptor) (ins : List In) (i : In) (s : Acceptor) : Acceptor × Except Exc (Option Message) → Prop where
  | quiet {r} (q : Quiet r) : Outcome a0 ins i s (s, r)
  | refused {r m h} (hs : s.state = .none) (q : Quiet r) : Outcome a0 ins i s ({ s with authMethod := m, hello := some h }, r)
  | aborted {r} (hs : s.state ≠ .welcomeSent) (q : Quiet r) : Outcome a0 ins i s ({ s with state := .aborted }, r)
  | challenged {s' : Acceptor} {ch : Challenge} {h : Hello} (hs : s.state = .none) (hi : i.2 = .hello h) (ha : s.hasAuthenticator = true)
      (h1 : s'.hasAuthenticator = s.hasAuthenticator) (h2 : s'.roles = s.roles) (h3 : s'.sessionId = s.sessionId)
      (h4 : s'.state = .challengeSent) (h5 : s'.sessionDetails = s.sessionDetails) (h6 : s'.hello = some h)
      (hc : Challenged cr a0 (ins ++ [i]) i.1 h ch → ChalInv cr a0 (ins ++ [i]) s') :
      Outcome a0 ins i s (s', .ok (some (.challenge ch)))
  | welcomed {s1 : Acceptor} {h : Hello} {authid authrole authmethod : Option String} (hs : s.state ≠ .welcomeSent)
      (h1 : s1.hasAuthenticator = s.hasAuthenticator) (h2 : s1.roles = s.roles) (h3 : s1.sessionId = s.sessionId)
      (h4 : s1.hello = s.hello ∨ (s.state = .none ∧ i.2 = .hello h))
      (why : Why cr a0 ins i s h authid authrole authmethod) :
      Outcome a0 ins i s (s1.welcome h.realm authid authrole authmethod)

theorem outcome (a0 : Acceptor) (ins : List In) (i : In) (s : Acceptor) (hi : Inv cr a0 ins s) :
    Outcome cr a0 ins i s (s.receiveMessage cr i.1 i.2) := by
  obtain ⟨env, m⟩ := i
  simp only []
  unfold receiveMessage
  by_cases hw : s.state = .welcomeSent
  · rw [if_pos hw]; exact .quiet (quiet_error _)
  rw [if_neg hw]
  cases m
  case hello h =>
    simp only []
    by_cases hn : s.state = .none
    · by_cases ha : s.hasAuthenticator = true
      · rcases receiveHello_cases cr env s h hn ha with ⟨r, h1, h2, h3⟩ | ⟨r, pk, h1, h2, h3, h4, h5⟩ | ⟨r, sec, h1, h2, h3, h4⟩ | ⟨h1, h2⟩ | ⟨h1, h2⟩
        · rw [h3]
          exact .welcomed hw rfl rfl rfl (.inr ⟨hn, rfl⟩) (.inr (.inl ⟨r, rfl, h1, h2, rfl, rfl, rfl⟩))
        · rw [h5]
          exact .challenged hn rfl ha rfl rfl rfl rfl rfl rfl
            (fun hch => ⟨env, h, _, hch, rfl, rfl, h1.symm, .inr (.inr ⟨h1, r, pk, h2, h3, h4, rfl, rfl, rfl⟩)⟩)
        · rw [h4]
          exact .challenged hn rfl ha rfl rfl rfl rfl rfl rfl
            (fun hch => ⟨env, h, _, hch, rfl, rfl, h1.symm, .inr (.inl ⟨h1, r, sec, _, h2, h3, rfl, rfl, rfl, rfl, rfl⟩)⟩)
        · rw [h2]
          exact .challenged hn rfl ha rfl rfl rfl rfl rfl rfl
            (fun hch => ⟨env, h, _, hch, rfl, rfl, h1.symm, .inl ⟨h1, rfl⟩⟩)
        · generalize s.receiveHello cr env h = o at *
          obtain ⟨o1, o2⟩ := o
          simp only at h1 h2; subst h1
          refine .refused hn ?_
          rcases h2 with ⟨args, h2⟩ | ⟨e, h2⟩ <;> rw [h2]
          · exact quiet_failed _
          · exact quiet_error _
      · have ha : s.hasAuthenticator = false := by simpa using ha
        have : s.receiveHello cr env h = s.welcome h.realm (some "anonymous") (some "anonymous") (some "anonymous") := by
          unfold receiveHello; rw [if_neg (by simp [hn]), if_pos ha]
        rw [this]
        exact .welcomed hw rfl rfl rfl (.inl rfl) (.inl ⟨ha, rfl, rfl, rfl, rfl⟩)
    · have : s.receiveHello cr env h = (s, .error (.valueError "unknown state")) := by unfold receiveHello; rw [if_pos hn]
      rw [this]; exact .quiet (quiet_error _)
  case authenticate au =>
    simp only []
    by_cases hcs : s.state = .challengeSent
    · rcases receiveAuthenticate_cases cr a0 ins env s au hcs (hi.chal hcs).2 with ⟨env', h, ch, r, h1, h2, h3, h4, h5, h6⟩ | h | ⟨h, h2⟩
      · rw [h6]
        exact .welcomed hw rfl rfl rfl (.inl rfl) (.inr (.inr ⟨au, env', ch, r, rfl, h1, h2, h3, h4, h5, rfl, rfl, rfl⟩))
      · rw [h]; exact .aborted hw (quiet_failed _)
      · generalize s.receiveAuthenticate cr env au = o at *
        obtain ⟨o1, o2⟩ := o
        simp only at h h2; subst h
        refine .quiet ?_
        rcases h2 with ⟨args, h2⟩ | ⟨e, h2⟩ <;> rw [h2]
        · exact quiet_failed _
        · exact quiet_error _
    · have : s.receiveAuthenticate cr env au = (s, .error (.valueError "unknown state")) := by
        unfold receiveAuthenticate; rw [if_pos hcs]
      rw [this]; exact .quiet (quiet_error _)
  case abort ab => exact .aborted hw quiet_none
  all_goals exact .quiet quiet_none

/-! ## The invariant -/

theorem challenged_snoc_iff {a : Acceptor} {ins env h ch} {i : In} :
    Challenged cr a (ins ++ [i]) env h ch ↔
      Challenged cr a ins env h ch ∨ (i = (env, .hello h) ∧ reply cr a ins i = .ok (some (.challenge ch))) := by
  have := split_snoc_pre (l := ins) (a := i) (Q := fun _ => True)
    (P := fun pre e => e = (env, .hello h) ∧ reply cr a pre e = .ok (some (.challenge ch)))
  have e : ∀ l, Challenged cr a l env h ch ↔ ∃ pre e post, l = pre ++ e :: post ∧
      (e = (env, .hello h) ∧ reply cr a pre e = .ok (some (.challenge ch))) ∧ ∀ e' ∈ post, True := by
    intro l
    constructor
    · rintro ⟨pre, post, h, hr⟩; exact ⟨pre, _, post, h, ⟨rfl, hr⟩, fun _ _ => trivial⟩
    · rintro ⟨pre, _, post, h, ⟨rfl, hr⟩, _⟩; exact ⟨pre, post, h, hr⟩
  rw [e, e, this, and_true, Or.comm]

theorem established_snoc_iff {a : Acceptor} {ins h w} {i : In} :
    Established cr a (ins ++ [i]) h w ↔
      Established cr a ins h w ∨ (reply cr a ins i = .ok (some (.welcome w)) ∧ Answers cr a ins i h) := by
  have := split_snoc_pre (l := ins) (a := i) (Q := fun _ => True)
    (P := fun pre e => reply cr a pre e = .ok (some (.welcome w)) ∧ Answers cr a pre e h)
  simp only [implies_true, and_true] at this
  unfold Established
  rw [this, Or.comm]

theorem inv_init (au : Bool) (roles : Option PyDict) (sid : PyInt) : Inv cr (init au roles sid) [] (init au roles sid) := by
  refine ⟨rfl, rfl, rfl, (fun h => by cases h), ?_, ?_, ?_⟩
  · rintro _ _ _ ⟨pre, post, h, _⟩; cases pre <;> cases h
  · constructor
    · intro h; cases h
    · rintro ⟨d, h⟩; cases h
  · intro d
    constructor
    · intro h; cases h
    · rintro ⟨_, _, ⟨pre, _, post, h, _⟩, _⟩; cases pre <;> cases h

theorem why_answers {a0 ins i s h x y z} (hw : Why cr a0 ins i s h x y z) : Answers cr a0 ins i h := by
  rcases hw with ⟨_, h, _⟩ | ⟨_, h, _⟩ | ⟨au, env, ch, _, h, h2, _⟩
  · exact .inl h
  · exact .inl h
  · exact .inr ⟨au, env, ch, h, h2⟩

theorem inv_step (a0 : Acceptor) (ins : List In) (hi : Inv cr a0 ins (after cr a0 ins)) (i : In) :
    Inv cr a0 (ins ++ [i]) (after cr a0 (ins ++ [i])) := by
  rw [after_snoc]
  have hrep : reply cr a0 ins i = ((after cr a0 ins).receiveMessage cr i.1 i.2).2 := rfl
  have ho := outcome cr a0 ins i _ hi
  generalize after cr a0 ins = s at *
  generalize s.receiveMessage cr i.1 i.2 = o at *
  have qch : ∀ {r}, Quiet r → reply cr a0 ins i = r → ∀ env h ch, Challenged cr a0 (ins ++ [i]) env h ch ↔ Challenged cr a0 ins env h ch := by
    intro r q hr env h ch
    rw [challenged_snoc_iff, hr]
    exact ⟨(fun h => h.elim id (fun h => absurd h.2 (q.2 _))), .inl⟩
  have qest : ∀ {r}, (∀ w, r ≠ .ok (some (.welcome w))) → reply cr a0 ins i = r → ∀ h w, Established cr a0 (ins ++ [i]) h w ↔ Established cr a0 ins h w := by
    intro r q hr h w
    rw [established_snoc_iff, hr]
    exact ⟨(fun h => h.elim id (fun h => absurd h.1 (q _))), .inl⟩
  cases ho with
  | @quiet r q =>
    exact ⟨hi.auth, hi.roles, hi.sid, fun h => ⟨(hi.chal h).1, ChalInv.snoc (hi.chal h).2 i⟩,
      fun env h ch hc => hi.chalHello env h ch ((qch q hrep env h ch).1 hc), hi.st,
      fun d => by simp only [qest q.1 hrep]; exact hi.est d⟩
  | @refused r m h hs q =>
    exact ⟨hi.auth, hi.roles, hi.sid, (fun h => by simp only [hs] at h; cases h),
      fun env h ch hc => absurd hs (hi.chalHello env h ch ((qch q hrep env h ch).1 hc)).2, hi.st,
      fun d => by simp only [qest q.1 hrep]; exact hi.est d⟩
  | @aborted r hs q =>
    exact ⟨hi.auth, hi.roles, hi.sid, (fun h => by cases h),
      fun env h ch hc => ⟨(hi.chalHello env h ch ((qch q hrep env h ch).1 hc)).1, by simp⟩,
      ⟨(fun h => by cases h), fun h => absurd (hi.st.2 h) hs⟩,
      fun d => by simp only [qest q.1 hrep]; exact hi.est d⟩
  | @challenged s' ch h hs hih ha h1 h2 h3 h4 h5 h6 hc =>
    have hch : Challenged cr a0 (ins ++ [i]) i.1 h ch := by
      rw [challenged_snoc_iff]
      exact .inr ⟨by rw [← hih], hrep⟩
    refine ⟨h1.trans hi.auth, h2.trans hi.roles, h3.trans hi.sid, fun _ => ⟨h1.trans ha, hc hch⟩, ?_, ?_, ?_⟩
    · intro env h' ch' hc'
      rw [challenged_snoc_iff] at hc'
      rcases hc' with hc' | ⟨rfl, hc'⟩
      · exact absurd hs (hi.chalHello _ _ _ hc').2
      · injection hih with hih; subst hih
        exact ⟨h6, by simp [h4]⟩
    · simp only [h4, h5]
      constructor
      · intro h; cases h
      · intro h; exact absurd ((hi.st.2 h).symm.trans hs) (by decide)
    · intro d
      simp only [qest (fun w h => by cases h) hrep, h5]
      exact hi.est d
  | @welcomed s1 h authid authrole authmethod hs h1 h2 h3 h4 why =>
    have hr : reply cr a0 ins i = .ok (some (.welcome ⟨s1.sessionId, s1.roles, authid, authrole, authmethod, []⟩)) := hrep
    have noest : ∀ h w, ¬ Established cr a0 ins h w := fun h w he =>
      hs (hi.st.2 ⟨_, (hi.est _).2 ⟨h, w, he, rfl⟩⟩)
    refine ⟨h1.trans hi.auth, h2.trans hi.roles, h3.trans hi.sid, (fun h => by cases h), ?_, ?_, ?_⟩
    · intro env h' ch' hc'
      rw [challenged_snoc_iff, hr] at hc'
      rcases hc' with hc' | ⟨_, hc'⟩
      · refine ⟨?_, (fun h => by cases h)⟩
        rcases h4 with h4 | ⟨h4, _⟩
        · exact h4.trans (hi.chalHello _ _ _ hc').1
        · exact absurd h4 (hi.chalHello _ _ _ hc').2
      · cases hc'
    · exact ⟨fun _ => ⟨_, rfl⟩, fun _ => rfl⟩
    · intro d
      constructor
      · intro hd
        refine ⟨h, _, established_snoc_iff cr |>.2 (.inr ⟨hr, why_answers cr why⟩), ?_⟩
        injection hd with hd; exact hd.symm
      · rintro ⟨h', w, he, rfl⟩
        rw [established_snoc_iff] at he
        rcases he with he | ⟨he, ha⟩
        · exact absurd he (noest _ _)
        · rw [hr] at he
          injection he with he; injection he with he; injection he with he; subst he
          have : h' = h := by
            rcases ha with ha | ⟨au, env, ch, ha, hc⟩ <;> rcases why_answers cr why with hb | ⟨au', env', ch', hb, hc'⟩
            · rw [ha] at hb; injection hb
            · rw [ha] at hb; cases hb
            · rw [ha] at hb; cases hb
            · have e1 := (hi.chalHello _ _ _ hc).1
              have e2 := (hi.chalHello _ _ _ hc').1
              rw [e1] at e2; injection e2
          subst this; rfl

theorem inv_after (au : Bool) (roles : Option PyDict) (sid : PyInt) (ins : List In) :
    Inv cr (init au roles sid) ins (after cr (init au roles sid) ins) := by
  induction ins using snoc_induction with
  | nil => exact inv_init cr au roles sid
  | snoc ins i ih => exact inv_step cr _ ins ih i

/-! ## Consequences -/

/-- At most one HELLO is ever challenged, once. -/
theorem challenged_unique {au : Bool} {roles : Option PyDict} {sid : PyInt} {ins : List In} {env env' h h' ch ch'}
    (hc : Challenged cr (init au roles sid) ins env h ch) (hc' : Challenged cr (init au roles sid) ins env' h' ch') :
    env = env' ∧ h = h' ∧ ch = ch' := by
  have onlyNone : ∀ ins i ch, reply cr (init au roles sid) ins i = .ok (some (.challenge ch)) →
      (after cr (init au roles sid) ins).state = .none := by
    intro ins i ch hr
    have ho := outcome cr _ ins i _ (inv_after cr au roles sid ins)
    unfold reply at hr
    generalize (after cr (init au roles sid) ins).receiveMessage cr i.1 i.2 = o at *
    cases ho with
    | quiet q => exact absurd hr (q.2 _)
    | refused _ q => exact absurd hr (q.2 _)
    | aborted _ q => exact absurd hr (q.2 _)
    | challenged hs => exact hs
    | welcomed => cases hr
  induction ins using snoc_induction with
  | nil => obtain ⟨pre, post, h, _⟩ := hc; cases pre <;> cases h
  | snoc ins i ih =>
    rw [challenged_snoc_iff] at hc hc'
    have hi := inv_after cr au roles sid ins
    rcases hc with hc | ⟨rfl, hr⟩ <;> rcases hc' with hc' | ⟨e, hr'⟩
    · exact ih hc hc'
    · exact absurd (onlyNone _ _ _ hr') (hi.chalHello _ _ _ hc).2
    · exact absurd (onlyNone _ _ _ hr) (hi.chalHello _ _ _ hc').2
    · injection e with e1 e2; injection e2 with e2; subst e1; subst e2
      rw [hr] at hr'; injection hr' with hr'; injection hr' with hr'; injection hr' with hr'
      exact ⟨rfl, rfl, hr'⟩

theorem emitted_answers (au : Bool) (roles : Option PyDict) (sid : PyInt) (ins : List In) (i : In) (w : Welcome)
    (hr : reply cr (init au roles sid) ins i = .ok (some (.welcome w))) : ∃ h, Answers cr (init au roles sid) ins i h := by
  have ho := outcome cr _ ins i _ (inv_after cr au roles sid ins)
  unfold reply at hr
  generalize (after cr (init au roles sid) ins).receiveMessage cr i.1 i.2 = o at *
  cases ho with
  | quiet q => exact absurd hr (q.1 _)
  | refused _ q => exact absurd hr (q.1 _)
  | aborted _ q => exact absurd hr (q.1 _)
  | challenged => cases hr
  | welcomed _ _ _ _ _ why => exact ⟨_, why_answers cr why⟩

theorem state_welcome_iff (au : Bool) (roles : Option PyDict) (sid : PyInt) (ins : List In) :
    (after cr (init au roles sid) ins).state = .welcomeSent ↔ ∃ w, Emitted cr (init au roles sid) ins w := by
  have hi := inv_after cr au roles sid ins
  rw [hi.st]
  constructor
  · rintro ⟨d, hd⟩
    obtain ⟨h, w, ⟨pre, i, post, e, hr, _⟩, _⟩ := (hi.est d).1 hd
    exact ⟨w, pre, i, post, e, hr⟩
  · rintro ⟨w, pre, i, post, e, hr⟩
    obtain ⟨h, ha⟩ := emitted_answers cr au roles sid pre i w hr
    exact ⟨_, (hi.est _).2 ⟨h, w, ⟨pre, i, post, e, hr, ha⟩, rfl⟩⟩

/-- An aborted acceptor stays so. -/
theorem aborted_step (s : Acceptor) (hs : s.state = .aborted) (env : AuthEnv) (m : Message) :
    (s.receiveMessage cr env m).1.state = .aborted := by
  unfold receiveMessage
  rw [if_neg (by simp [hs])]
  cases m <;> simp [receiveHello, receiveAuthenticate, hs]

theorem aborted_reply (s : Acceptor) (hs : s.state = .aborted) (env : AuthEnv) (m : Message) :
    (∃ t, (s.receiveMessage cr env m).2 = .error (.valueError t)) ∨ (s.receiveMessage cr env m).2 = .ok none := by
  unfold receiveMessage
  rw [if_neg (by simp [hs])]
  cases m <;> simp [receiveHello, receiveAuthenticate, hs]

theorem welcomes_snoc (a : Acceptor) (ins : List In) (i : In) :
    welcomes cr a (ins ++ [i]) = welcomes cr a ins + if isWelcome (reply cr a ins i) then 1 else 0 := by
  unfold welcomes
  rw [List.length_append, List.length_singleton, List.range_succ, List.countP_append]
  congr 1
  · apply List.countP_congr
    intro n hn
    have hn : n < ins.length := by simpa using hn
    rw [List.getElem?_append_left hn, List.take_append_of_le_length (by omega)]
  · simp only [List.countP_singleton, List.getElem?_append_right (Nat.le_refl _), Nat.sub_self, List.getElem?_cons_zero,
      List.take_left']

end Wamp.Acceptor
