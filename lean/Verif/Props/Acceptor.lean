import Verif.Spec.Roles
import Verif.Proofs.AcceptorInv
import Verif.Props.Auth

/-!
# The server side of the handshake, C53–C60 and the acceptor's half of C65

Everything is for an acceptor `init au roles sid` that has received any messages `ins` (each with whatever the
authenticator, the random generator and the clock would answer during that call), and any cryptographic primitives `cr`.
`reply cr a ins i` is what `receive_message` returns or raises for the message `i` received after `ins`.
-/

namespace Wamp.Acceptor
open Spec Spec.Hs
variable (cr : Crypto) (au : Bool) (roles : Option PyDict) (sid : PyInt) (ins : List In) (i : In)

/-! ## Inputs for the examples -/

/-- An outside that approves every request with the given response. -/
def approves (r : Response) : AuthEnv := ⟨fun _ => .ok r, [1], "now", [2, 3]⟩
/-- An outside that rejects every request. -/
def rejects : AuthEnv := ⟨fun _ => .error [.str "no"], [1], "now", [2, 3]⟩
/-- A HELLO offering one method. -/
def helloFor (method : String) (extra : PyDict) : Hello := ⟨"realm1", [], some "bob", some [.str method], some extra⟩
/-- A handshake as far as the challenge. -/
def craStart : List In := [(approves (.cra (some "bob") (some "user") "pw"), .hello (helloFor "wampcra" []))]

/-- The text of the challenge in it -/
def craText : String :=
  "{\"nonce\": \"01\", \"authprovider\": \"dynamic\", \"authid\": \"bob\", \"authrole\": \"user\", " ++
  "\"authmethod\": \"wampcra\", \"session\": 7, \"timestamp\": \"now\"}"

theorem craText_eq : generateWampcraChallenge [1] "now" (.int 7) (some "bob") (some "user") "dynamic" = craText := by
  have : Json.integer 7 = ['7'] := by simp [Json.integer, Json.decimal, Json.digits]
  unfold generateWampcraChallenge
  simp only [Json.text, Json.textMembers, PyInt.toValue, this]
  decide +kernel

/-! ## C53 -/

/-- With an authenticator, a WELCOME is sent only in answer to a HELLO offering "anonymous" that the authenticator
approved, or to an AUTHENTICATE after the CHALLENGE answering a HELLO whose request the authenticator approved (for
"ticket" with the ticket just presented); it carries the authid and authrole of that approval. -/
theorem C53_welcome_justified (w : Welcome) (h : reply cr (init true roles sid) ins i = .ok (some (.welcome w))) :
    ∃ hello r, Justified cr (init true roles sid) ins i hello r ∧ w.authid = r.authid ∧ w.authrole = r.authrole := by
  have hi := inv_after cr true roles sid ins
  have ho := outcome cr _ ins i _ hi
  unfold reply at h
  generalize (after cr (init true roles sid) ins).receiveMessage cr i.1 i.2 = o at *
  cases ho with
  | quiet q => exact absurd h (q.1 _)
  | refused _ q => exact absurd h (q.1 _)
  | aborted _ q => exact absurd h (q.1 _)
  | challenged => cases h
  | welcomed hs h1 h2 h3 h4 why =>
    injection h with h; injection h with h; injection h with h; subst h
    rcases why with ⟨hf, _⟩ | ⟨r, h1, h2, h3, rfl, rfl, rfl⟩ | ⟨a, env, ch, r, h1, h2, h3, h4, _, _, rfl, rfl, rfl⟩
    · rw [hi.auth] at hf; cases hf
    · exact ⟨_, r, .inl ⟨h1, h2, h3⟩, rfl, rfl⟩
    · exact ⟨_, r, .inr ⟨a, env, ch, h1, h2, h3, h4⟩, rfl, rfl⟩

/-- Every WELCOME carries the acceptor's session id and roles: by default dealer and broker, with no features. -/
theorem C53_welcome_fields (w : Welcome) (h : reply cr (init au roles sid) ins i = .ok (some (.welcome w))) :
    w.sessionId = sid ∧ w.roles = roles.getD (Spec.plainRoles ["dealer", "broker"]) := by
  have hi := inv_after cr au roles sid ins
  have ho := outcome cr _ ins i _ hi
  unfold reply at h
  generalize (after cr (init au roles sid) ins).receiveMessage cr i.1 i.2 = o at *
  cases ho with
  | quiet q => exact absurd h (q.1 _)
  | refused _ q => exact absurd h (q.1 _)
  | aborted _ q => exact absurd h (q.1 _)
  | challenged => cases h
  | welcomed hs h1 h2 h3 h4 why =>
    injection h with h; injection h with h; injection h with h; subst h
    exact ⟨h3.trans hi.sid, h2.trans hi.roles⟩

example : reply toyCrypto (init true none (.int 7)) [] (approves (.plain (some "bob") (some "user")), .hello (helloFor "anonymous" [])) =
    .ok (some (.welcome ⟨.int 7, ROUTER_ROLES, some "bob", some "user", some "anonymous", []⟩)) := by decide
example : reply toyCrypto (init true none (.int 7)) [] (rejects, .hello (helloFor "anonymous" [])) =
    .ok (some (.abort ⟨[], "wamp.error.authentication_failed", some [.str "no"], none⟩)) := by decide

/-! ## C54 -/

/-- If the HELLO was challenged by wampcra, a WELCOME is sent only in answer to an AUTHENTICATE whose signature is the
base64 of the MAC of exactly the challenge sent, under the secret the authenticator returned for that HELLO. -/
theorem C54_wampcra_welcome (w : Welcome) (env : AuthEnv) (hello : Hello) (ch : Challenge)
    (hc : Challenged cr (init au roles sid) ins env hello ch) (hm : ch.authmethod = "wampcra")
    (h : reply cr (init au roles sid) ins i = .ok (some (.welcome w))) :
    ∃ a r secret c, i.2 = .authenticate a ∧ env.authenticate (.wampcra hello.realm hello.authid hello.authextra) = .ok r ∧
      r.secret? = some secret ∧ ch.extra = [(.str "challenge", .str c)] ∧
      b64decode a.signature = .ok (cr.hmac (utf8 secret) (utf8 c)) ∧ w.authid = r.authid ∧ w.authrole = r.authrole := by
  have hi := inv_after cr au roles sid ins
  have ho := outcome cr _ ins i _ hi
  unfold reply at h
  generalize hoo : (after cr (init au roles sid) ins).receiveMessage cr i.1 i.2 = o at *
  cases ho with
  | quiet q => exact absurd h (q.1 _)
  | refused _ q => exact absurd h (q.1 _)
  | aborted _ q => exact absurd h (q.1 _)
  | challenged => cases h
  | welcomed hs h1 h2 h3 h4 why =>
    injection h with h; injection h with h; injection h with h; subst h
    have notHello : ∀ h', i.2 ≠ .hello h' := by
      intro h' hih
      have hst := (hi.chalHello _ _ _ hc).2
      have : (after cr (init au roles sid) ins).receiveMessage cr i.1 i.2 = (after cr (init au roles sid) ins, .error (.valueError "unknown state")) := by
        rw [hih]; unfold receiveMessage; rw [if_neg hs]; unfold receiveHello; simp only []; rw [if_pos hst]
      have := congrArg Prod.snd (hoo.symm.trans this); cases this
    rcases why with ⟨_, h, _⟩ | ⟨r, h, _⟩ | ⟨a, env', ch', r, h1, h2, h3, h4, h5, _, rfl, rfl, rfl⟩
    · exact absurd h (notHello _)
    · exact absurd h (notHello _)
    · obtain ⟨rfl, rfl, rfl⟩ := challenged_unique cr hc h2
      have ho : offered hello = .str "wampcra" := by rw [← h3, hm]
      obtain ⟨sec, c, e1, e2, e3⟩ := h5 ho
      rcases h4 with ⟨x, _⟩ | ⟨_, h4⟩ | ⟨x, _⟩
      · rw [ho] at x; exact absurd x (by decide)
      · exact ⟨a, r, sec, c, h1, h4, e1, e2, (C64_verify_iff ..).1 e3, rfl, rfl⟩
      · rw [ho] at x; exact absurd x (by decide)

/-- The right answer is accepted, unless an ABORT or a WELCOME came before. -/
theorem C54_wampcra_accepted (env now : AuthEnv) (hello : Hello) (ch : Challenge) (a : Authenticate) (r : Response)
    (secret c : String) (hc : Challenged cr (init au roles sid) ins env hello ch) (hm : ch.authmethod = "wampcra")
    (hr : env.authenticate (.wampcra hello.realm hello.authid hello.authextra) = .ok r) (hsec : r.secret? = some secret)
    (hch : ch.extra = [(.str "challenge", .str c)])
    (hw : ∀ w, ¬ Emitted cr (init au roles sid) ins w) (hab : isAborted (after cr (init au roles sid) ins) = false)
    (hs : b64decode a.signature = .ok (cr.hmac (utf8 secret) (utf8 c))) :
    reply cr (init au roles sid) ins (now, .authenticate a) =
      .ok (some (.welcome ⟨sid, roles.getD ROUTER_ROLES, r.authid, r.authrole, none, []⟩)) := by
  have hi := inv_after cr au roles sid ins
  have hn := (hi.chalHello _ _ _ hc).2
  have hnw := mt (state_welcome_iff cr au roles sid ins).1 (fun ⟨w, h⟩ => hw w h)
  have hcs : (after cr (init au roles sid) ins).state = .challengeSent := by
    unfold isAborted at hab
    have : (after cr (init au roles sid) ins).state ≠ .aborted := by simpa using hab
    generalize (after cr (init au roles sid) ins).state = s at *
    cases s <;> simp_all
  obtain ⟨env', h', ch', hc', hh, hmeth, hcm, hcase⟩ := (hi.chal hcs).2
  obtain ⟨rfl, rfl, rfl⟩ := challenged_unique cr hc hc'
  have ho : offered hello = .str "wampcra" := by rw [← hcm, hm]
  rcases hcase with ⟨x, _⟩ | ⟨_, r', sec', c', e1, e2, e3, e4, e5, e6, e7⟩ | ⟨x, _⟩
  · rw [ho] at x; exact absurd x (by decide)
  · rw [hr] at e1; injection e1 with e1; subst e1
    rw [hsec] at e2; injection e2 with e2; subst e2
    rw [e7] at hch; simp only [List.cons.injEq, Prod.mk.injEq, Value.str.injEq, true_and, and_true] at hch; subst hch
    have hv := (C64_verify_iff cr a.signature c' (utf8 secret)).2 hs
    unfold reply receiveMessage
    rw [if_neg hnw]
    simp only []
    unfold receiveAuthenticate
    rw [if_neg (by simp [hcs]), hmeth, ho, if_neg (by decide), if_pos rfl, e4, e5]
    simp only [hv]
    unfold welcomeResponse
    rw [e3, hh]
    simp only [welcome, hi.sid, hi.roles]
    rfl
  · rw [ho] at x; exact absurd x (by decide)

example : Challenged toyCrypto (init true none (.int 7)) craStart (approves (.cra (some "bob") (some "user") "pw"))
    (helloFor "wampcra" []) ⟨"wampcra", [(.str "challenge", .str craText)]⟩ := ⟨[], [], rfl, by rw [← craText_eq]; rfl⟩

/-! ## C55 -/

/-- False of the code: a signature the client made over *any* message, at any time, is accepted for every challenge. -/
theorem C55_replay (law : SignatureScheme cr) (r : Response) (env now : AuthEnv) (hello : Hello) (seed old : Bytes)
    (extra : PyDict) (rest : List Value) (hm : hello.authmethods = some (.str "cryptosign" :: rest)) (hx : hello.authextra = some extra)
    (hk : PyDict.get? extra "pubkey" = some (.str (hexlify (cr.publicKey seed))))
    (ha : env.authenticate (.cryptosign hello.realm hello.authid hello.authextra (.str (hexlify (cr.publicKey seed)))) = .ok r) :
    reply cr (init true roles sid) [] (env, .hello hello) =
        .ok (some (.challenge ⟨"cryptosign", [(.str "challenge", .str (hexlify env.raw))]⟩)) ∧
    reply cr (init true roles sid) [(env, .hello hello)] (now, .authenticate ⟨hexlify (cr.sign seed old ++ old), []⟩) =
        .ok (some (.welcome ⟨sid, roles.getD ROUTER_ROLES, r.authid, r.authrole, none, []⟩)) := by
  have step : (init true roles sid).receiveMessage cr env (.hello hello) =
      ({ (init true roles sid) with authMethod := .str "cryptosign", hello := some hello, response := some r, publicKey := .str (hexlify (cr.publicKey seed)), state := .challengeSent },
        .ok (some (.challenge ⟨"cryptosign", [(.str "challenge", .str (hexlify env.raw))]⟩))) := by
    rw [hx] at ha
    simp [receiveMessage, receiveHello, init, chooseMethod, hm, hx, PyDict.getD, hk, ha, generateCryptosignChallenge]
  have hv : verifyCryptosignSignature cr (hexlify (cr.sign seed old ++ old)) (cr.publicKey seed) = .ok true :=
    (C66_verify_iff ..).2 ⟨law.key_length _, _, old, unhexlify_hexlify _, law.open_sign ..⟩
  constructor
  · unfold reply; simp only [after, List.foldl_nil, step]
  · unfold reply
    simp only [after, List.foldl_cons, List.foldl_nil, step]
    simp [receiveMessage, receiveAuthenticate, unhexlifyValue, unhexlify_hexlify, hv, welcomeResponse, welcome, init]

/-- So a signature over another message than the challenge is accepted. -/
theorem C55_cryptosign_welcome_false : ∃ (cr : Crypto) (_ : SignatureScheme cr) (ins : List In) (i : In) (env : AuthEnv) (hello : Hello)
    (c : String) (a : Authenticate) (w : Welcome) (pk signed : Bytes),
    Challenged cr (init true none (.int 7)) ins env hello ⟨"cryptosign", [(.str "challenge", .str c)]⟩ ∧
    announcedKey hello = some (.str (hexlify pk)) ∧
    i.2 = .authenticate a ∧ unhexlify a.signature = .ok signed ∧
    reply cr (init true none (.int 7)) ins i = .ok (some (.welcome w)) ∧
    ∀ m, cr.signOpen pk signed = some m → unhexlify c ≠ .ok m := by
  refine ⟨toyCrypto, toyCrypto_law, [(approves (.plain none none),
    .hello (helloFor "cryptosign" [(.str "pubkey", .str (hexlify (toyCrypto.publicKey [])))]))],
    (rejects, .authenticate ⟨hexlify (toyCrypto.sign [] [9] ++ [9]), []⟩), approves (.plain none none), _,
    hexlify [2, 3], _, ⟨.int 7, ROUTER_ROLES, none, none, none, []⟩, toyCrypto.publicKey [], toyCrypto.sign [] [9] ++ [9],
    ⟨[], [], rfl, ?_⟩, rfl, rfl, unhexlify_hexlify _, ?_, ?_⟩
  · exact (C55_replay toyCrypto none (.int 7) toyCrypto_law (.plain none none) (approves (.plain none none)) rejects
      (helloFor "cryptosign" [(.str "pubkey", .str (hexlify (toyCrypto.publicKey [])))]) [] [9] _ [] rfl rfl rfl rfl).1
  · exact (C55_replay toyCrypto none (.int 7) toyCrypto_law (.plain none none) (approves (.plain none none)) rejects
      (helloFor "cryptosign" [(.str "pubkey", .str (hexlify (toyCrypto.publicKey [])))]) [] [9] _ [] rfl rfl rfl rfl).2
  · intro m hm
    have := toyCrypto_law.open_sign [] [9]
    rw [this] at hm; injection hm with hm; subst hm
    rw [unhexlify_hexlify]; decide

/-- What holds: a WELCOME for a HELLO challenged by cryptosign is sent only in answer to an AUTHENTICATE carrying a valid
signature, under the public key announced in that HELLO and approved by the authenticator, over *some* message.
Missing: that this message is the challenge sent. -/
theorem C55_cryptosign_welcome_partial (w : Welcome) (env : AuthEnv) (hello : Hello) (ch : Challenge)
    (hc : Challenged cr (init au roles sid) ins env hello ch) (hm : ch.authmethod = "cryptosign")
    (h : reply cr (init au roles sid) ins i = .ok (some (.welcome w))) :
    ∃ a r pk pkb signed msg, i.2 = .authenticate a ∧ announcedKey hello = some pk ∧
      env.authenticate (.cryptosign hello.realm hello.authid hello.authextra pk) = .ok r ∧
      unhexlifyValue pk = .ok pkb ∧ pkb.length = 32 ∧ unhexlify a.signature = .ok signed ∧ cr.signOpen pkb signed = some msg ∧
      w.authid = r.authid ∧ w.authrole = r.authrole := by
  have hi := inv_after cr au roles sid ins
  have ho := outcome cr _ ins i _ hi
  unfold reply at h
  generalize hoo : (after cr (init au roles sid) ins).receiveMessage cr i.1 i.2 = o at *
  cases ho with
  | quiet q => exact absurd h (q.1 _)
  | refused _ q => exact absurd h (q.1 _)
  | aborted _ q => exact absurd h (q.1 _)
  | challenged => cases h
  | welcomed hs h1 h2 h3 h4 why =>
    injection h with h; injection h with h; injection h with h; subst h
    have notHello : ∀ h', i.2 ≠ .hello h' := by
      intro h' hih
      have hst := (hi.chalHello _ _ _ hc).2
      have : (after cr (init au roles sid) ins).receiveMessage cr i.1 i.2 = (after cr (init au roles sid) ins, .error (.valueError "unknown state")) := by
        rw [hih]; unfold receiveMessage; rw [if_neg hs]; unfold receiveHello; simp only []; rw [if_pos hst]
      have := congrArg Prod.snd (hoo.symm.trans this); cases this
    rcases why with ⟨_, h, _⟩ | ⟨r, h, _⟩ | ⟨a, env', ch', r, h1, h2, h3, h4, _, h5, rfl, rfl, rfl⟩
    · exact absurd h (notHello _)
    · exact absurd h (notHello _)
    · obtain ⟨rfl, rfl, rfl⟩ := challenged_unique cr hc h2
      have ho : offered hello = .str "cryptosign" := by rw [← h3, hm]
      obtain ⟨pk, pkb, e1, e2, e3⟩ := h5 ho
      obtain ⟨f1, signed, msg, f2, f3⟩ := (C66_verify_iff ..).1 e3
      rcases h4 with ⟨x, _⟩ | ⟨x, _⟩ | ⟨_, pk', h4, h6⟩
      · rw [ho] at x; exact absurd x (by decide)
      · rw [ho] at x; exact absurd x (by decide)
      · rw [e1] at h4; injection h4 with h4; subst h4
        exact ⟨a, r, pk, pkb, signed, msg, h1, e1, h6, e2, f1, f2, f3, rfl, rfl⟩

/-! ## C56 -/

/-- At most one WELCOME is ever emitted. -/
theorem C56_at_most_one_welcome : welcomes cr (init au roles sid) ins ≤ 1 := by
  suffices h : welcomes cr (init au roles sid) ins ≤ 1 ∧
      (welcomes cr (init au roles sid) ins = 1 → ∃ w, Emitted cr (init au roles sid) ins w) from h.1
  induction ins using snoc_induction with
  | nil => simp [welcomes]
  | snoc ins i ih =>
    obtain ⟨h1, h2⟩ := ih
    rw [welcomes_snoc]
    by_cases hw : ∃ w, Emitted cr (init au roles sid) ins w
    · have hst := (state_welcome_iff cr au roles sid ins).2 hw
      have : reply cr (init au roles sid) ins i = .error (.valueError "session was established, not expecting any new messages") := by
        unfold reply receiveMessage; rw [if_pos hst]
      have hf : isWelcome (reply cr (init au roles sid) ins i) = false := by rw [this]; rfl
      obtain ⟨w, pre, j, post, rfl, hr⟩ := hw
      rw [hf]
      exact ⟨by simpa using h1, fun _ => ⟨w, pre, j, post ++ [i], by simp, hr⟩⟩
    · have h0 : welcomes cr (init au roles sid) ins = 0 := by
        have := mt h2 hw; omega
      rw [h0]
      cases hb : isWelcome (reply cr (init au roles sid) ins i) with
      | false => simp
      | true =>
        refine ⟨by simp, fun _ => ?_⟩
        unfold isWelcome at hb
        split at hb
        · next w hw => exact ⟨w, ins, i, [], rfl, hw⟩
        · cases hb

/-- Once a WELCOME was emitted every message raises ValueError and changes nothing. -/
theorem C56_closed_after_welcome (w : Welcome) (h : Emitted cr (init au roles sid) ins w) :
    (∃ t, reply cr (init au roles sid) ins i = .error (.valueError t)) ∧
    after cr (init au roles sid) (ins ++ [i]) = after cr (init au roles sid) ins := by
  have hst := (state_welcome_iff cr au roles sid ins).2 ⟨w, h⟩
  rw [after_snoc]
  unfold reply receiveMessage
  rw [if_pos hst]
  exact ⟨⟨_, rfl⟩, rfl⟩

example : ∃ w, Emitted toyCrypto (init true none (.int 7))
    [(approves (.plain (some "bob") (some "user")), .hello (helloFor "anonymous" [])), (rejects, .goodbye ⟨[], "x"⟩)] w :=
  ⟨_, [], _, _, rfl, rfl⟩

/-! ## C57 -/

/-- What holds: after receiving an ABORT, or sending one because of a bad signature, no WELCOME or CHALLENGE (indeed
nothing at all) is ever sent, and `is_aborted()` is True.
Missing: the ABORT sent because the authenticator rejected the request. -/
theorem C57_abort_terminal_partial (h : AbortSeen cr (init au roles sid) ins) :
    isAborted (after cr (init au roles sid) ins) = true ∧
    ((∃ t, reply cr (init au roles sid) ins i = .error (.valueError t)) ∨ reply cr (init au roles sid) ins i = .ok none) := by
  have hst : (after cr (init au roles sid) ins).state = .aborted := by
    obtain ⟨pre, j, post, rfl, h⟩ := h
    have first : (after cr (init au roles sid) (pre ++ [j])).state = .aborted := by
      rw [after_snoc]
      rcases h with ⟨⟨ab, hj⟩, hw⟩ | ⟨a, ab, env, hello, ch, hj, hr, hc, hm⟩
      · have := mt (state_welcome_iff cr au roles sid pre).1 (fun ⟨w, h⟩ => hw w h)
        rw [hj]; unfold receiveMessage; rw [if_neg this]
      · have hi := inv_after cr au roles sid pre
        unfold reply at hr
        rw [hj] at hr ⊢
        generalize after cr (init au roles sid) pre = s at *
        unfold receiveMessage at hr ⊢
        by_cases hw : s.state = .welcomeSent
        · rw [if_pos hw] at hr; cases hr
        · rw [if_neg hw] at hr ⊢
          simp only [] at hr ⊢
          by_cases hcs : s.state = .challengeSent
          · obtain ⟨env', h', ch', hc', hh, hmeth, hcm, hcase⟩ := (hi.chal hcs).2
            obtain ⟨rfl, rfl, rfl⟩ := challenged_unique cr hc hc'
            have hnt : offered hello ≠ .str "ticket" := by
              rw [← hcm]; intro e; injection e with e; exact hm e
            rcases receiveAuthenticate_cases cr _ pre j.1 s a hcs (hi.chal hcs).2 with ⟨_, _, _, _, _, _, _, _, _, h6⟩ | h6 | ⟨_, h2⟩
            · rw [h6] at hr; cases hr
            · rw [h6]
            · exfalso
              unfold receiveAuthenticate at hr
              rw [if_neg (by simp [hcs]), hmeth] at hr
              rcases h2 with ⟨args, h2⟩ | ⟨e, h2⟩
              · unfold receiveAuthenticate at h2
                rw [if_neg (by simp [hcs]), hmeth] at h2
                rcases hcase with ⟨x, _⟩ | ⟨x, r, sec, c, e1, e2, e3, e4, e5, e6, e7⟩ | ⟨x, r, pk, e1, e2, e3, e4, e5, e6⟩
                · exact hnt x
                · rw [x, if_neg (by decide), if_pos rfl, e4, e5] at h2
                  simp only [] at h2
                  split at h2
                  · cases h2
                  · cases h2
                  · unfold welcomeResponse at h2; rw [e3, hh] at h2; cases h2
                · rw [x, if_pos rfl] at h2
                  split at h2
                  · cases h2
                  · split at h2
                    · cases h2
                    · cases h2
                    · unfold welcomeResponse at h2; rw [e4, hh] at h2; cases h2
              · unfold receiveAuthenticate at h2
                rw [if_neg (by simp [hcs]), hmeth] at h2
                rw [hr] at h2; cases h2
          · unfold receiveAuthenticate at hr
            rw [if_pos hcs] at hr; cases hr
    have : pre ++ j :: post = (pre ++ [j]) ++ post := by simp
    rw [this]
    clear this
    generalize pre ++ [j] = l at *
    induction post using snoc_induction with
    | nil => simpa using first
    | snoc post k ih =>
      rw [← List.append_assoc, after_snoc]
      exact aborted_step cr _ ih _ _
  refine ⟨by unfold isAborted; simp [hst], ?_⟩
  unfold reply
  exact aborted_reply cr _ hst _ _

example : AbortSeen toyCrypto (init true none (.int 7))
    (craStart ++ [(rejects, .authenticate ⟨"AAAA", []⟩), (rejects, .hello (helloFor "anonymous" []))]) :=
  ⟨craStart, _, _, rfl, .inr ⟨_, ⟨[], "wamp.error.authentication_failed", none, none⟩, _, _, _, rfl, by
    have hv : verifyWampcraSignature toyCrypto "AAAA" craText (utf8 "pw") = .ok false := by decide +kernel
    rw [← craText_eq] at hv
    simp [reply, after, craStart, receiveMessage, receiveHello, receiveAuthenticate, init, approves, helloFor, chooseMethod,
      Response.secret?, Response.authid, Response.authrole, hv, authFailed, AUTHENTICATION_FAILED], ⟨[], [], rfl, rfl⟩, by decide⟩⟩

/-- False of the code: after an ABORT because the authenticator rejected the HELLO, `is_aborted()` is False and a second
HELLO is handled as if it were the first. -/
theorem C57_rejected_hello_retry (env now : AuthEnv) (hello hello2 : Hello) (args : List Value) (r : Response)
    (hm : hello.authmethods = none) (ha : env.authenticate (.anonymous hello.realm hello.authid hello.authextra) = .error args)
    (hm2 : hello2.authmethods = none) (ha2 : now.authenticate (.anonymous hello2.realm hello2.authid hello2.authextra) = .ok r) :
    reply cr (init true roles sid) [] (env, .hello hello) = .ok (some (.abort ⟨[], "wamp.error.authentication_failed", some args, none⟩)) ∧
    isAborted (after cr (init true roles sid) [(env, .hello hello)]) = false ∧
    reply cr (init true roles sid) [(env, .hello hello)] (now, .hello hello2) =
      .ok (some (.welcome ⟨sid, roles.getD ROUTER_ROLES, r.authid, r.authrole, some "anonymous", []⟩)) := by
  have step : (init true roles sid).receiveMessage cr env (.hello hello) =
      ({ (init true roles sid) with authMethod := .str "anonymous", hello := some hello },
        .ok (some (.abort ⟨[], "wamp.error.authentication_failed", some args, none⟩))) := by
    simp [receiveMessage, receiveHello, init, chooseMethod, hm, ha, authFailed, AUTHENTICATION_FAILED]
  refine ⟨by unfold reply; simp only [after, List.foldl_nil, step], ?_, ?_⟩
  · simp only [after, List.foldl_cons, List.foldl_nil, step]; rfl
  · unfold reply
    simp only [after, List.foldl_cons, List.foldl_nil, step]
    simp [receiveMessage, receiveHello, init, chooseMethod, hm2, ha2, welcome]

/-- False of the code: after an ABORT because the authenticator rejected the ticket, `is_aborted()` is False and another
ticket may be tried; if that is approved a WELCOME is sent. -/
theorem C57_rejected_ticket_retry (env bad good : AuthEnv) (hello : Hello) (t t' : String) (args : List Value) (r : Response)
    (rest : List Value) (hm : hello.authmethods = some (.str "ticket" :: rest))
    (ha : bad.authenticate (.ticket hello.realm hello.authid hello.authextra t) = .error args)
    (ha2 : good.authenticate (.ticket hello.realm hello.authid hello.authextra t') = .ok r) :
    reply cr (init true roles sid) [(env, .hello hello)] (bad, .authenticate ⟨t, []⟩) =
      .ok (some (.abort ⟨[], "wamp.error.authentication_failed", some args, none⟩)) ∧
    isAborted (after cr (init true roles sid) [(env, .hello hello), (bad, .authenticate ⟨t, []⟩)]) = false ∧
    reply cr (init true roles sid) [(env, .hello hello), (bad, .authenticate ⟨t, []⟩)] (good, .authenticate ⟨t', []⟩) =
      .ok (some (.welcome ⟨sid, roles.getD ROUTER_ROLES, r.authid, r.authrole, none, []⟩)) := by
  have step : (init true roles sid).receiveMessage cr env (.hello hello) =
      ({ (init true roles sid) with authMethod := .str "ticket", hello := some hello, state := .challengeSent },
        .ok (some (.challenge ⟨"ticket", []⟩))) := by
    simp [receiveMessage, receiveHello, init, chooseMethod, hm]
  have step2 : ({ (init true roles sid) with authMethod := .str "ticket", hello := some hello, state := .challengeSent } : Acceptor).receiveMessage cr bad
      (.authenticate ⟨t, []⟩) =
      ({ (init true roles sid) with authMethod := .str "ticket", hello := some hello, state := .challengeSent },
        .ok (some (.abort ⟨[], "wamp.error.authentication_failed", some args, none⟩))) := by
    simp [receiveMessage, receiveAuthenticate, init, ha, authFailed, AUTHENTICATION_FAILED]
  refine ⟨?_, ?_, ?_⟩
  · unfold reply; simp only [after, List.foldl_cons, List.foldl_nil, step, step2]
  · simp only [after, List.foldl_cons, List.foldl_nil, step, step2]; rfl
  · unfold reply
    simp only [after, List.foldl_cons, List.foldl_nil, step, step2]
    simp [receiveMessage, receiveAuthenticate, init, ha2, welcome]

example : rejects.authenticate (.anonymous "r" none none) = .error [.str "no"] := rfl

/-! ## C58 -/

/-- `get_session_details()` succeeds exactly after a WELCOME was emitted, and returns the session id, authid and authrole
of that WELCOME and the realm of the HELLO it answers; before, it raises ValueError. -/
theorem C58_session_details (d : SessionDetails) :
    getSessionDetails (after cr (init au roles sid) ins) = .ok d ↔
      ∃ hello w, Established cr (init au roles sid) ins hello w ∧ d = ⟨w.sessionId, hello.realm, w.authid, w.authrole⟩ := by
  rw [← (inv_after cr au roles sid ins).est d]
  unfold getSessionDetails
  cases (after cr (init au roles sid) ins).sessionDetails <;> simp

theorem C58_not_yet (h : ∀ w, ¬ Emitted cr (init au roles sid) ins w) :
    ∃ t, getSessionDetails (after cr (init au roles sid) ins) = .error (.valueError t) := by
  unfold getSessionDetails
  cases hd : (after cr (init au roles sid) ins).sessionDetails with
  | none => exact ⟨_, rfl⟩
  | some d =>
    obtain ⟨hello, w, ⟨pre, i, post, e, hr, _⟩, _⟩ := ((inv_after cr au roles sid ins).est d).1 hd
    exact absurd ⟨pre, i, post, e, hr⟩ (h w)

/-- Every emitted WELCOME answers some HELLO, so the details are available as soon as one was emitted. -/
theorem C58_emitted (w : Welcome) (h : Emitted cr (init au roles sid) ins w) :
    ∃ hello, Established cr (init au roles sid) ins hello w := by
  obtain ⟨pre, i, post, rfl, hr⟩ := h
  obtain ⟨hello, hh⟩ := emitted_answers cr au roles sid pre i w hr
  exact ⟨hello, pre, i, post, rfl, hr, hh⟩

example : getSessionDetails (after toyCrypto (init false none (.int 7)) [(rejects, .hello (helloFor "ticket" []))]) =
    .ok ⟨.int 7, "realm1", some "anonymous", some "anonymous"⟩ := by decide

/-! ## C59 -/

/-- AUTHENTICATE without a CHALLENGE before raises ValueError and changes nothing. -/
theorem C59_authenticate_needs_challenge (env : AuthEnv) (a : Authenticate)
    (h : ∀ env hello ch, ¬ Challenged cr (init au roles sid) ins env hello ch) :
    (∃ t, reply cr (init au roles sid) ins (env, .authenticate a) = .error (.valueError t)) ∧
    after cr (init au roles sid) (ins ++ [(env, .authenticate a)]) = after cr (init au roles sid) ins := by
  have hi := inv_after cr au roles sid ins
  have hst : (after cr (init au roles sid) ins).state ≠ .challengeSent := by
    intro hc
    obtain ⟨env, h', ch, hch, _⟩ := (hi.chal hc).2
    exact h env h' ch hch
  rw [after_snoc]
  unfold reply receiveMessage
  by_cases hw : (after cr (init au roles sid) ins).state = .welcomeSent
  · rw [if_pos hw]; exact ⟨⟨_, rfl⟩, rfl⟩
  · rw [if_neg hw]; simp only []
    unfold receiveAuthenticate
    rw [if_pos hst]; exact ⟨⟨_, rfl⟩, rfl⟩

/-- HELLO after a CHALLENGE raises ValueError and changes nothing. -/
theorem C59_no_second_hello (env now : AuthEnv) (hello hello2 : Hello) (ch : Challenge)
    (h : Challenged cr (init au roles sid) ins env hello ch) :
    (∃ t, reply cr (init au roles sid) ins (now, .hello hello2) = .error (.valueError t)) ∧
    after cr (init au roles sid) (ins ++ [(now, .hello hello2)]) = after cr (init au roles sid) ins := by
  have hst := ((inv_after cr au roles sid ins).chalHello _ _ _ h).2
  rw [after_snoc]
  unfold reply receiveMessage
  by_cases hw : (after cr (init au roles sid) ins).state = .welcomeSent
  · rw [if_pos hw]; exact ⟨⟨_, rfl⟩, rfl⟩
  · rw [if_neg hw]; simp only []
    unfold receiveHello
    rw [if_pos hst]; exact ⟨⟨_, rfl⟩, rfl⟩

example : ∃ env hello ch, Challenged toyCrypto (init true none (.int 7)) craStart env hello ch := ⟨_, _, _, [], [], rfl, rfl⟩

/-! ## C60 -/

/-- `receive` decodes, runs `receive_message` and encodes the reply; it reports completion exactly for WELCOME and ABORT. -/
theorem C60_receive_reply {W : Type} (c : Codec W) (env : AuthEnv) (a : Acceptor) (data w : W) (done : Bool)
    (h : (a.receive c cr env data).2 = .ok (w, done)) :
    ∃ msg out, c.deserialize data = .ok msg ∧ (a.receiveMessage cr env msg).2 = .ok (some out) ∧ c.serialize out = .ok w ∧
      (done = true ↔ (∃ m, out = .welcome m) ∨ ∃ m, out = .abort m) := by
  unfold receive at h
  cases hd : c.deserialize data with
  | error e => rw [hd] at h; cases h
  | ok msg =>
    rw [hd] at h; simp only [] at h
    rcases ho : a.receiveMessage cr env msg with ⟨a', e | _ | out⟩
    · rw [ho] at h; cases h
    · rw [ho] at h; cases h
    · rw [ho] at h; simp only [] at h
      cases hs : c.serialize out with
      | error e => rw [hs] at h; cases h
      | ok w' =>
        rw [hs] at h
        injection h with h; injection h with h1 h2; subst h1
        refine ⟨msg, out, rfl, by rw [ho], hs, ?_⟩
        rw [← h2]
        cases out <;> simp

/-- Bytes that do not decode raise the decoder's exception and change nothing; otherwise the acceptor changes as
`receive_message` says. -/
theorem C60_receive_state {W : Type} (c : Codec W) (env : AuthEnv) (a : Acceptor) (data : W) :
    (∀ e, c.deserialize data = .error e → a.receive c cr env data = (a, .error e)) ∧
    (∀ msg, c.deserialize data = .ok msg → (a.receive c cr env data).1 = (a.receiveMessage cr env msg).1) := by
  constructor
  · intro e h; unfold receive; rw [h]
  · intro msg h; unfold receive; rw [h]; simp only []
    rcases a.receiveMessage cr env msg with ⟨a', e | _ | out⟩ <;> rfl

/-- False of the code: an ABORT, which is a well-formed handshake message, makes `receive` raise AttributeError. -/
theorem C60_fails_abort {W : Type} (c : Codec W) (env : AuthEnv) (data : W) (ab : Abort) (hd : c.deserialize data = .ok (.abort ab)) :
    ((init au roles sid).receive c cr env data).2 = .error .attributeError ∧ Exc.isValueError .attributeError = false := by
  constructor
  · unfold receive; rw [hd]; rfl
  · rfl

/-- False of the code: a HELLO offering cryptosign without authextra makes it raise AttributeError. -/
theorem C60_fails_no_authextra {W : Type} (c : Codec W) (env : AuthEnv) (data : W) (h : Hello) (rest : List Value)
    (hm : h.authmethods = some (.str "cryptosign" :: rest)) (hx : h.authextra = none) (hd : c.deserialize data = .ok (.hello h)) :
    ((init true roles sid).receive c cr env data).2 = .error .attributeError := by
  unfold receive; rw [hd]
  simp [receiveMessage, receiveHello, init, chooseMethod, hm, hx]

/-- What holds: HELLO and AUTHENTICATE are answered or raise ValueError, if a HELLO offering cryptosign first carries
authextra and the challenged HELLO's public key, if any, is text or bytes, and the codec can encode the reply.
Missing: every other message (ABORT), a HELLO for cryptosign without authextra, and public keys of other types. -/
theorem C60_always_answers_partial {W : Type} (c : Codec W) (env : AuthEnv) (data : W) (msg : Message)
    (hd : c.deserialize data = .ok msg) (hc : ∀ m, ∃ w, c.serialize m = .ok w)
    (hm : (∃ h, msg = .hello h ∧ (offered h = .str "cryptosign" → h.authextra ≠ none)) ∨
      ∃ a, msg = .authenticate a ∧ ∀ env h ch pk, Challenged cr (init au roles sid) ins env h ch → announcedKey h = some pk →
        (∃ s, pk = .str s) ∨ ∃ b, pk = .bytes b) :
    (∃ w done, ((after cr (init au roles sid) ins).receive c cr env data).2 = .ok (w, done)) ∨
    ∃ e, ((after cr (init au roles sid) ins).receive c cr env data).2 = .error e ∧ e.isValueError = true := by
  have hi := inv_after cr au roles sid ins
  suffices h : (∃ out, ((after cr (init au roles sid) ins).receiveMessage cr env msg).2 = .ok (some out)) ∨
      ∃ e, ((after cr (init au roles sid) ins).receiveMessage cr env msg).2 = .error e ∧ e.isValueError = true by
    unfold receive; rw [hd]; simp only []
    rcases ho : (after cr (init au roles sid) ins).receiveMessage cr env msg with ⟨a', e | _ | out⟩
    · rw [ho] at h; rcases h with ⟨_, h⟩ | ⟨e', h, he⟩
      · cases h
      · injection h with h; subst h; exact .inr ⟨_, rfl, he⟩
    · rw [ho] at h; rcases h with ⟨_, h⟩ | ⟨e', h, he⟩
      · cases h
      · cases h
    · obtain ⟨w, hw⟩ := hc out
      simp only [hw]; exact .inl ⟨w, _, rfl⟩
  generalize after cr (init au roles sid) ins = s at *
  unfold receiveMessage
  by_cases hw : s.state = .welcomeSent
  · rw [if_pos hw]; exact .inr ⟨_, rfl, rfl⟩
  rw [if_neg hw]
  rcases hm with ⟨h, rfl, hx⟩ | ⟨a, rfl, hpk⟩
  · simp only []
    unfold receiveHello
    split
    · exact .inr ⟨_, rfl, rfl⟩
    split
    · exact .inl ⟨_, rfl⟩
    have hm : chooseMethod h = offered h := rfl
    simp only [hm]
    split
    · split
      · exact .inl ⟨_, rfl⟩
      · exact .inl ⟨_, rfl⟩
    split
    · next hcs =>
      cases hx' : h.authextra with
      | none => exact absurd hx' (hx hcs)
      | some x =>
        simp only []
        split
        · exact .inr ⟨_, rfl, rfl⟩
        · split
          · exact .inl ⟨_, rfl⟩
          · exact .inl ⟨_, rfl⟩
    split
    · split
      · exact .inl ⟨_, rfl⟩
      · split
        · exact .inr ⟨_, rfl, rfl⟩
        · exact .inl ⟨_, rfl⟩
    split
    · exact .inl ⟨_, rfl⟩
    · exact .inr ⟨_, rfl, rfl⟩
  · simp only []
    unfold receiveAuthenticate
    by_cases hcs : s.state = .challengeSent
    · rw [if_neg (by simp [hcs])]
      obtain ⟨env', h, ch, hch, hh, hmeth, hcm, hcase⟩ := (hi.chal hcs).2
      rw [hmeth]
      rcases hcase with ⟨x, _⟩ | ⟨x, r, sec, c, e1, e2, e3, e4, e5, e6, e7⟩ | ⟨x, r, pk, e1, e2, e3, e4, e5, e6⟩
      · rw [x, if_neg (by decide), if_neg (by decide), if_pos rfl, hh]
        simp only []
        split
        · exact .inl ⟨_, rfl⟩
        · exact .inl ⟨_, rfl⟩
      · rw [x, if_neg (by decide), if_pos rfl, e4, e5]
        simp only []
        split
        · next e he =>
          refine .inr ⟨_, rfl, ?_⟩
          have ht := C64_verify_total cr a.signature c (utf8 sec)
          cases ha : isAscii a.signature with
          | true => obtain ⟨b, hb⟩ := ht.1 ha; rw [hb] at he; cases he
          | false => obtain ⟨t, hb⟩ := ht.2 ha; rw [hb] at he; cases he; rfl
        · exact .inl ⟨_, rfl⟩
        · unfold welcomeResponse; rw [e3, hh]; exact .inl ⟨_, rfl⟩
      · rw [x, if_pos rfl, e5]
        cases hu : unhexlifyValue pk with
        | error e =>
          refine .inr ⟨_, rfl, ?_⟩
          rcases hpk _ _ _ _ hch e1 with ⟨t, rfl⟩ | ⟨b, rfl⟩
          · exact (C66_bad_challenge cr [] t e hu).2
          · exact unhexlifyChars_valueError _ _ hu
        | ok pkb =>
          simp only []
          cases hv : verifyCryptosignSignature cr a.signature pkb with
          | error e =>
            refine .inr ⟨_, rfl, ?_⟩
            unfold verifyCryptosignSignature verifyKeyOk at hv
            split at hv
            · cases hs : unhexlify a.signature with
              | error e' =>
                rw [hs] at hv; simp only [bind, Except.bind] at hv; injection hv with hv; subst hv
                exact (C66_bad_challenge cr [] _ _ hs).2
              | ok b => rw [hs] at hv; cases hv
            · cases hv; rfl
          | ok b =>
            cases b with
            | false => exact .inl ⟨_, rfl⟩
            | true => simp only []; unfold welcomeResponse; rw [e4, hh]; exact .inl ⟨_, rfl⟩
    · rw [if_pos hcs]; exact .inr ⟨_, rfl, rfl⟩

example : ∃ h : Hello, offered h = .str "cryptosign" ∧ h.authextra ≠ none := ⟨helloFor "cryptosign" [], rfl, by decide⟩

/-! ## C65, the acceptor's half -/

/-- False of the code: no CHALLENGE ever announces a salt, iterations or keylen, whatever the authenticator responds. -/
theorem C65_acceptor_never_announces_salt (env : AuthEnv) (hello : Hello) (ch : Challenge)
    (h : Challenged cr (init au roles sid) ins env hello ch) :
    PyDict.get? ch.extra "salt" = none ∧ PyDict.get? ch.extra "iterations" = none ∧ PyDict.get? ch.extra "keylen" = none := by
  obtain ⟨pre, post, rfl, hr⟩ := h
  have key : ch.extra = [] ∨ ∃ c, ch.extra = [(.str "challenge", .str c)] := by
    have hi := inv_after cr au roles sid pre
    unfold reply at hr
    generalize after cr (init au roles sid) pre = s at *
    unfold receiveMessage at hr
    by_cases hw : s.state = .welcomeSent
    · rw [if_pos hw] at hr; cases hr
    rw [if_neg hw] at hr
    simp only [] at hr
    by_cases hn : s.state = .none
    · by_cases ha : s.hasAuthenticator = true
      · rcases receiveHello_cases cr env s hello hn ha with ⟨r, h1, h2, h3⟩ | ⟨r, pk, h1, h2, h3, h4, h5⟩ | ⟨r, sec, h1, h2, h3, h4⟩ | ⟨h1, h2⟩ | ⟨h1, ⟨_, h2⟩ | ⟨_, h2⟩⟩
        · rw [h3] at hr; cases hr
        · rw [h5] at hr; injection hr with hr; injection hr with hr; injection hr with hr; subst hr; exact .inr ⟨_, rfl⟩
        · rw [h4] at hr; injection hr with hr; injection hr with hr; injection hr with hr; subst hr; exact .inr ⟨_, rfl⟩
        · rw [h2] at hr; injection hr with hr; injection hr with hr; injection hr with hr; subst hr; exact .inl rfl
        · rw [h2] at hr; cases hr
        · rw [h2] at hr; cases hr
      · unfold receiveHello at hr
        rw [if_neg (by simp [hn]), if_pos (by simpa using ha)] at hr
        cases hr
    · unfold receiveHello at hr
      rw [if_pos hn] at hr; cases hr
  rcases key with h | ⟨c, h⟩ <;> rw [h] <;> simp [PyDict.get?]

/-- False of the code: a client knowing the password behind a salted response cannot log in.  The authenticator returns
the derived key as secret; the client, not told the salt, signs with the password and gets ABORT (unless the MACs under
password and derived key happen to collide). -/
theorem C65_salted_login_fails (env now : AuthEnv) (hello : Hello) (rest : List Value) (authid authrole : Option String)
    (password secret salt : String) (iterations keylen : Int)
    (hm : hello.authmethods = some (.str "wampcra" :: rest))
    (ha : env.authenticate (.wampcra hello.realm hello.authid hello.authextra) = .ok (.salted authid authrole secret salt iterations keylen))
    (hk : ∀ m, cr.hmac (utf8 password) m ≠ cr.hmac (utf8 secret) m) :
    ∃ ch a, reply cr (init true roles sid) [] (env, .hello hello) = .ok (some (.challenge ch)) ∧
      wampcraAuthenticate cr password ch = .ok a ∧
      reply cr (init true roles sid) [(env, .hello hello)] (now, .authenticate a) =
        .ok (some (.abort ⟨[], "wamp.error.authentication_failed", none, none⟩)) := by
  generalize hcc : generateWampcraChallenge env.nonce env.now sid authid authrole "dynamic" = c
  have step : (init true roles sid).receiveMessage cr env (.hello hello) =
      ({ (init true roles sid) with authMethod := .str "wampcra", hello := some hello, response := some (.salted authid authrole secret salt iterations keylen), secret := some secret, state := .challengeSent, challenge := some c },
        .ok (some (.challenge ⟨"wampcra", [(.str "challenge", .str c)]⟩))) := by
    simp [receiveMessage, receiveHello, init, chooseMethod, hm, ha, Response.secret?, Response.authid, Response.authrole, hcc]
  refine ⟨⟨"wampcra", [(.str "challenge", .str c)]⟩, _, by unfold reply; simp only [after, List.foldl_nil, step],
    C65_client_plain cr password c _ (.inl (by simp [PyDict.get?])) (by simp [PyDict.get?]), ?_⟩
  have hv : verifyWampcraSignature cr (b64encode (cr.hmac (utf8 password) (utf8 c))) c (utf8 secret) = .ok false := by
    obtain ⟨b, hb⟩ := (C64_verify_total cr (b64encode (cr.hmac (utf8 password) (utf8 c))) c (utf8 secret)).1 (isAscii_b64encode _)
    cases b with
    | false => exact hb
    | true => exact absurd ((C64_no_other cr c c (utf8 password) (utf8 secret)).1 hb) (hk _)
  unfold reply
  simp only [after, List.foldl_cons, List.foldl_nil, step]
  simp [receiveMessage, receiveAuthenticate, hv, authFailed, AUTHENTICATION_FAILED, init]

example : ∀ m, toyCrypto.hmac (utf8 "pw") m ≠ toyCrypto.hmac (utf8 "kd") m := by
  intro m h; exact absurd (List.append_cancel_right h) (by decide)

end Wamp.Acceptor
