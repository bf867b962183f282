import Verif.Proofs.Strangers
import Verif.Props.Acceptor
import Verif.Props.Stack

/-! # C121: nobody the authenticator has not approved of reaches the broker or the dealer -/

namespace Wamp.Spec.Stack
open RawSocket Net Hs

/-- Whatever bytes come in on whatever connections, in whatever pieces and whatever order: each call made on the broker adds a session
the authenticator has consented to, or is on behalf of such a session, which the broker has added and not removed. -/
theorem C121_broker (r : Setup) (hr : r.hasAuthenticator = true) (sched : List GAct) (pre post : List Broker.Op) (op : Broker.Op)
    (h : (grun r sched).broker = pre ++ op :: post) :
    ∃ d, Consented r sched d ∧ (op = .addSession d ∨ brokerFor op = some d.sessionId.val ∧ InBroker pre d) := by
  have hi := ginv_run hr sched
  cases ho : brokerFor op with
  | none =>
    obtain ⟨d, h1, h2⟩ := hi.badd op (by rw [h]; simp) ho
    exact ⟨d, h2, .inl h1⟩
  | some s =>
    obtain ⟨d, h1, h2, h3⟩ := hi.bops pre op post s h ho
    exact ⟨d, h3, .inr ⟨by rw [h1], h2⟩⟩

/-- The same for the dealer. -/
theorem C121_dealer (r : Setup) (hr : r.hasAuthenticator = true) (sched : List GAct) (pre post : List Dealer.Op) (op : Dealer.Op)
    (h : (grun r sched).dealer = pre ++ op :: post) :
    ∃ d, Consented r sched d ∧ (op = .addSession d ∨ dealerFor op = some d.sessionId.val ∧ InDealer pre d) := by
  have hi := ginv_run hr sched
  cases ho : dealerFor op with
  | none =>
    obtain ⟨d, h1, h2⟩ := hi.dadd op (by rw [h]; simp) ho
    exact ⟨d, h2, .inl h1⟩
  | some s =>
    obtain ⟨d, h1, h2, h3⟩ := hi.dops pre op post s h ho
    exact ⟨d, h3, .inr ⟨by rw [h1], h2⟩⟩

/-! ## What consent means for the authenticator -/

/-- What the authenticator said to a login message was said while the router served a connection. -/
theorem dialog_envs {r : Setup} {sched : List GAct} {c : Nat} :
    ∀ {sid : PyInt} {ins : List Acceptor.In}, dialog r sched c = some (sid, ins) → ∀ i ∈ ins, .act (.serve c i.1) ∈ sched := by
  induction sched using snoc_induction with
  | nil => intro sid ins h; cases h
  | snoc l a ih =>
    intro sid ins h i hi
    rw [dialog_snoc] at h
    cases a with
    | inject c' b => exact List.mem_append_left _ (ih h i hi)
    | act a =>
      cases a with
      | connect c' cfg sid' =>
        simp only [dialogStep] at h
        split at h
        · cases h; cases hi
        · exact List.mem_append_left _ (ih h i hi)
      | serve c' env =>
        simp only [dialogStep] at h
        split at h
        · rename_i hc
          subst hc
          split at h
          · rename_i sid' ins' m hd hm
            cases h
            rcases List.mem_append.1 hi with hi | hi
            · exact List.mem_append_left _ (ih hd i hi)
            · rw [List.mem_singleton] at hi
              subst hi
              simp
          · exact List.mem_append_left _ (ih h i hi)
        · exact List.mem_append_left _ (ih h i hi)
      | drop c' =>
        simp only [dialogStep] at h
        split at h
        · cases h
        · exact List.mem_append_left _ (ih h i hi)
      | carryUp c' k => exact List.mem_append_left _ (ih h i hi)
      | carryDown c' k => exact List.mem_append_left _ (ih h i hi)
      | hear c' => exact List.mem_append_left _ (ih h i hi)
      | send c' m => exact List.mem_append_left _ (ih h i hi)

/-- The realm a request asks for -/
def realmOf : Request → String
  | .anonymous realm _ _ => realm
  | .ticket realm _ _ _ => realm
  | .wampcra realm _ _ => realm
  | .cryptosign realm _ _ _ => realm

/-- While the router served some connection, the authenticator approved of a request for this realm, and gave this identity. -/
def ApprovedOf (sched : List GAct) (d : SessionDetails) : Prop :=
  ∃ c env q response, .act (.serve c env) ∈ sched ∧ env.authenticate q = .ok response ∧ realmOf q = d.realm ∧
    response.authid = d.authid ∧ response.authrole = d.authrole

theorem Consented.approvedOf {r : Setup} {sched : List GAct} {d : SessionDetails} (h : Consented r sched d) : ApprovedOf sched d := by
  obtain ⟨pre, c, env, post, ins, m, hello, resp, rfl, -, hdia, -, hj, hd⟩ := h
  have hrealm : hello.realm = d.realm := by rw [hd]
  have hid : resp.authid = d.authid := by rw [hd]
  have hrole : resp.authrole = d.authrole := by rw [hd]
  rcases hj with ⟨-, -, hq⟩ | ⟨au, env', ch, -, ⟨p, q, hp, -⟩, -, hap⟩
  · exact ⟨c, env, _, resp, by simp, hq, hrealm, hid, hrole⟩
  · have henv : GAct.act (.serve c env') ∈ pre ++ .act (.serve c env) :: post :=
      List.mem_append_left _ (dialog_envs hdia (env', .hello hello) (by rw [hp]; simp))
    rcases hap with ⟨-, hq⟩ | ⟨-, hq⟩ | ⟨-, pk, -, hq⟩
    · exact ⟨c, env, _, resp, by simp, hq, hrealm, hid, hrole⟩
    · exact ⟨c, env', _, resp, henv, hq, hrealm, hid, hrole⟩
    · exact ⟨c, env', _, resp, henv, hq, hrealm, hid, hrole⟩

/-- Every session that is added anywhere is in a realm the authenticator was asked about and approved of, and has the identity it
gave. -/
theorem C121_identity (r : Setup) (hr : r.hasAuthenticator = true) (sched : List GAct) (d : SessionDetails)
    (h : .addSession d ∈ (grun r sched).broker ∨ .addSession d ∈ (grun r sched).dealer) : ApprovedOf sched d := by
  have hi := ginv_run hr sched
  rcases h with h | h
  · obtain ⟨d', e, hc⟩ := hi.badd _ h rfl
    cases e
    exact hc.approvedOf
  · obtain ⟨d', e, hc⟩ := hi.dadd _ h rfl
    cases e
    exact hc.approvedOf

/-- As long as the authenticator approves of nothing, nothing at all happens to the broker and the dealer. -/
theorem C121_refused (r : Setup) (hr : r.hasAuthenticator = true) (sched : List GAct)
    (h : ∀ c env q response, .act (.serve c env) ∈ sched → env.authenticate q ≠ .ok response) :
    (grun r sched).broker = [] ∧ (grun r sched).dealer = [] := by
  have hno : ∀ d, ¬ Consented r sched d := by
    intro d hd
    obtain ⟨c, env, q, resp, h1, h2, -⟩ := hd.approvedOf
    exact h c env q resp h1 h2
  constructor
  · cases hb : (grun r sched).broker with
    | nil => rfl
    | cons op post =>
      obtain ⟨d, hd, -⟩ := C121_broker r hr sched [] post op hb
      exact absurd hd (hno d)
  · cases hb : (grun r sched).dealer with
    | nil => rfl
    | cons op post =>
      obtain ⟨d, hd, -⟩ := C121_dealer r hr sched [] post op hb
      exact absurd hd (hno d)

/-- With an authenticator that approves of WAMP-CRA only, a session is added only after the MAC of the challenge that was sent on this
connection, under the secret the authenticator gave for this HELLO, has come in on this connection. -/
theorem C121_wampcra (r : Setup) (hr : r.hasAuthenticator = true) (sched : List GAct) (d : SessionDetails)
    (honly : ∀ c env q response, .act (.serve c env) ∈ sched → env.authenticate q = .ok response → ∃ realm i x, q = .wampcra realm i x)
    (h : .addSession d ∈ (grun r sched).broker ∨ .addSession d ∈ (grun r sched).dealer) :
    ∃ pre c now post sid ins au env hello ch response secret text, sched = pre ++ .act (.serve c now) :: post ∧
      (grun r pre).hears c = some (.authenticate au) ∧ dialog r pre c = some (sid, ins) ∧
      Challenged r.crypto (Acceptor.init true r.roles sid) ins env hello ch ∧ ch.extra = [(.str "challenge", .str text)] ∧
      env.authenticate (.wampcra hello.realm hello.authid hello.authextra) = .ok response ∧ response.secret? = some secret ∧
      b64decode au.signature = .ok (r.crypto.hmac (utf8 secret) (utf8 text)) ∧
      d = ⟨sid, hello.realm, response.authid, response.authrole⟩ := by
  have hi := ginv_run hr sched
  have hc : Consented r sched d := by
    rcases h with h | h
    · obtain ⟨d', e, hc⟩ := hi.badd _ h rfl
      cases e
      exact hc
    · obtain ⟨d', e, hc⟩ := hi.dadd _ h rfl
      cases e
      exact hc
  obtain ⟨pre, c, env, post, ins, m, hello, resp, rfl, hh, hdia, ⟨w, hw⟩, hj, hd⟩ := hc
  have hnow : GAct.act (.serve c env) ∈ pre ++ .act (.serve c env) :: post := by simp
  rcases hj with ⟨-, -, hq⟩ | ⟨au, env', ch, hm, hch, hmeth, hap⟩
  · obtain ⟨_, _, _, e⟩ := honly c env _ resp hnow hq
    cases e
  · obtain ⟨p, q, hp, -⟩ := id hch
    have henv : GAct.act (.serve c env') ∈ pre ++ .act (.serve c env) :: post :=
      List.mem_append_left _ (dialog_envs hdia (env', .hello hello) (by rw [hp]; simp))
    rcases hap with ⟨-, hq⟩ | ⟨ho, hq⟩ | ⟨-, pk, -, hq⟩
    · obtain ⟨_, _, _, e⟩ := honly c env _ resp hnow hq
      cases e
    · have hcm : ch.authmethod = "wampcra" := by rw [ho] at hmeth; injection hmeth
      obtain ⟨au', resp', secret, text, g1, g2, g3, g4, g5, -⟩ := Acceptor.C54_wampcra_welcome _ _ _ _ _ _ w env' hello ch hch hcm hw
      dsimp only at hm g1
      rw [hm] at g1
      cases g1
      rw [hq] at g2
      cases g2
      rw [hm] at hh
      exact ⟨pre, c, env, post, d.sessionId, ins, au, env', hello, ch, resp, secret, text, rfl, hh, hdia, hch, g4, hq, g3, g5, hd⟩
    · obtain ⟨_, _, _, e⟩ := honly c env' _ resp henv hq
      cases e

/-! ## Examples -/

/-- The two clients of C120's example are in, and both have been heard by the broker. -/
example : ∃ pre op post, (grun demoSetup (demo.map .act)).broker = pre ++ op :: post ∧ brokerFor op = some 12 := by
  have h : (match (grun demoSetup (demo.map .act)).broker with
    | [_, _, _, op] => brokerFor op
    | _ => none) = some 12 := by decide +kernel
  split at h
  · rename_i x y z op e
    exact ⟨[x, y, z], op, [], e, h⟩
  · cases h

/-- What a stranger sends: a handshake, a HELLO, and a SUBSCRIBE without waiting for an answer -/
def hostile : Bytes :=
  frame ((Format.cbor.wire.serialize (.hello ⟨"realm1", CLIENT_ROLES, some "joe", some [.str "anonymous"], some []⟩)).toOption.getD []) ++
  frame ((Format.cbor.wire.serialize (.subscribe ⟨.int 1, "a", []⟩)).toOption.getD [])

/-- The authenticator only knows those who have a secret. -/
def craEnv : AuthEnv :=
  ⟨fun q => match q with | .wampcra _ _ _ => .ok (.cra (some "joe") (some "user") "s") | _ => .error [], [1, 2, 3], "now", []⟩

/-- A toy MAC -/
def craCrypto : Crypto := { demoSetup.crypto with hmac := fun k d => k ++ d }
def craSetup : Setup := { demoSetup with crypto := craCrypto }

/-- A stranger, and somebody who has the secret -/
def intrusion : List GAct :=
  [.act (.connect 0 ⟨.cbor, 700, "realm1", anonymousAuthenticator "" none, none⟩ (.int 11)), .inject 0 hostile, .act (.carryUp 0 500),
   .act (.serve 0 craEnv), .act (.serve 0 craEnv), .act (.serve 0 craEnv),
   .act (.connect 1 ⟨.msgpack, 700, "realm1", wampcraAuthenticator craCrypto "joe" "s" none, none⟩ (.int 12)),
   .act (.carryUp 1 4), .act (.serve 1 craEnv), .act (.carryDown 1 4), .act (.hear 1), .act (.carryUp 1 900), .act (.serve 1 craEnv),
   .act (.carryDown 1 900), .act (.hear 1), .act (.carryUp 1 900), .act (.serve 1 craEnv), .inject 0 hostile, .act (.carryUp 0 500),
   .act (.serve 0 craEnv)]

/-- The router has heard the stranger's HELLO, but only the other one is in. -/
theorem intrusion_fails : (match (grun craSetup (intrusion.take 4)).hears 0 with | some (.hello _) => true | _ => false) = true ∧
    (grun craSetup intrusion).broker = [.addSession ⟨.int 12, "realm1", some "joe", some "user"⟩] := by
  decide +kernel

/-- The hypotheses of `C121_wampcra` are met. -/
example : ∃ pre c now post au, intrusion = pre ++ .act (.serve c now) :: post ∧ (grun craSetup pre).hears c = some (.authenticate au) := by
  obtain ⟨pre, c, now, post, sid, ins, au, -, -, -, -, -, -, h1, h2, -⟩ := C121_wampcra craSetup rfl intrusion
    ⟨.int 12, "realm1", some "joe", some "user"⟩ (by
      intro c env q response h he
      have : env = craEnv := by
        simp only [intrusion, List.mem_cons, reduceCtorEq, GAct.act.injEq, SAct.serve.injEq, List.not_mem_nil, or_false, false_or] at h
        rcases h with h | h | h | h | h | h | h <;> exact h.2
      subst this
      cases q <;> first | exact ⟨_, _, _, rfl⟩ | cases he)
    (.inl (by rw [intrusion_fails.2]; simp))
  exact ⟨pre, c, now, post, au, h1, h2⟩

/-- The authenticator approves of nobody: the router has heard a HELLO and a SUBSCRIBE, and still nothing has happened. -/
example : (grun demoSetup [.act (.connect 0 ⟨.cbor, 700, "realm1", anonymousAuthenticator "" none, none⟩ (.int 11)), .inject 0 hostile,
      .act (.carryUp 0 500), .act (.serve 0 ⟨fun _ => .error [], [], "", []⟩), .act (.serve 0 ⟨fun _ => .error [], [], "", []⟩)]).broker = [] :=
  (C121_refused demoSetup rfl _ (by
    intro c env q response h he
    simp only [List.mem_cons, reduceCtorEq, GAct.act.injEq, SAct.serve.injEq, List.not_mem_nil, or_false, false_or, or_self] at h
    obtain ⟨-, rfl⟩ := h
    cases he)).1

end Wamp.Spec.Stack
