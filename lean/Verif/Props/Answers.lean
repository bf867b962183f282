import Verif.Spec.Answers
import Verif.Props.Auth
import Verif.Props.Joiner

/-!
# C107: which challenges a client answers, and how

The four authenticators of the package, for every CHALLENGE a server may send.
-/

namespace Wamp
open Spec

theorem zero_getD (d : PyDict) (k : String) : IsZero d k ↔ ((PyDict.get? d k).getD (.int 0)).eqInt 0 = true := by
  unfold IsZero
  cases PyDict.get? d k with
  | none => simp [Value.eqInt]
  | some v => simp

/-- What is left to do once the key is known -/
def craSign (cr : Crypto) (extra : PyDict) (k : Bytes) : Except Exc Authenticate :=
  match PyDict.get? extra "challenge" with
  | none => .error .keyError
  | some (.str c) => .ok ⟨b64encode (cr.hmac k (utf8 c)), []⟩
  | some _ => .error .attributeError

theorem craSign_ok {cr : Crypto} {extra : PyDict} {k : Bytes} {a : Authenticate} :
    craSign cr extra k = .ok a ↔ ∃ c, PyDict.get? extra "challenge" = some (.str c) ∧ a = ⟨b64encode (cr.hmac k (utf8 c)), []⟩ := by
  unfold craSign
  split
  · rename_i h; simp [h]
  · rename_i c h
    constructor
    · intro e; cases e; exact ⟨c, h, rfl⟩
    · rintro ⟨c', h', rfl⟩; rw [h] at h'; cases h'; rfl
  · rename_i v hv h
    constructor
    · intro e; cases e
    · rintro ⟨c', h', rfl⟩; rw [h] at h'; cases h'; exact absurd rfl (hv c')

theorem craSign_error {cr : Crypto} {extra : PyDict} {k : Bytes} {e : Exc} :
    craSign cr extra k = .error e ↔ (e = .keyError ∧ PyDict.get? extra "challenge" = none) ∨
      (e = .attributeError ∧ ∃ v, PyDict.get? extra "challenge" = some v ∧ ∀ s, v ≠ .str s) := by
  unfold craSign
  split
  · rename_i h; simp [h, eq_comm]
  · rename_i c h; simp [h]
  · rename_i v hv h
    simp only [h, reduceCtorEq, and_false, false_or, Option.some.injEq]
    constructor
    · intro e; cases e; exact ⟨rfl, v, rfl, fun s hs => hv s hs⟩
    · rintro ⟨rfl, _⟩; rfl

/-- The key, or why there is none -/
def craChoose (cr : Crypto) (secret : String) (extra : PyDict) : Except Exc Bytes :=
  if PyDict.getD extra "salt" ≠ .none then
    deriveCraKey cr (PyDict.getD extra "salt") secret ((PyDict.get? extra "iterations").getD (.int 0)) ((PyDict.get? extra "keylen").getD (.int 0))
  else .ok (utf8 secret)

theorem authenticate_eq (cr : Crypto) (secret m : String) (extra : PyDict) :
    wampcraAuthenticate cr secret ⟨m, extra⟩ = (craChoose cr secret extra).bind (craSign cr extra) := by
  unfold wampcraAuthenticate craChoose
  simp only [bind, Except.bind]
  split <;> split <;> try rfl
  all_goals
    unfold craSign
    simp only [signWampcraChallenge]
    split <;> simp_all [throw, throwThe, MonadExceptOf.throw, pure, Except.pure]
  rename_i x h1 h2
  exact x _ h1.symm

theorem deriveCraKey_str (cr : Crypto) (s secret : String) (i k : Value) : deriveCraKey cr (.str s) secret i k =
    if i.eqInt 0 then .error (.valueError "iterations string required in extra & should be greater than 0")
    else if k.eqInt 0 then .error (.valueError "keylen string missing in extra & should be greater than 0")
    else (cr.pbkdf2 (utf8 secret) (utf8 s) i k).map fun dk => utf8 (b64encode dk) := by
  unfold deriveCraKey
  cases h1 : i.eqInt 0 <;> cases h2 : k.eqInt 0 <;> simp [bind, Except.bind, throw, throwThe, MonadExceptOf.throw, pure, Except.pure] <;>
    cases cr.pbkdf2 (utf8 secret) (utf8 s) i k <;> rfl

theorem deriveCraKey_odd (cr : Crypto) (v : Value) (secret : String) (i k : Value) (h : ∀ s, v ≠ .str s) :
    deriveCraKey cr v secret i k = .error .attributeError := by
  cases v <;> first | rfl | exact absurd rfl (h _)

theorem not_unset {d : PyDict} {k : String} (h : ¬ Unset d k) : ∃ v, PyDict.get? d k = some v ∧ v ≠ .none := by
  unfold Unset at h
  cases hs : PyDict.get? d k with
  | none => exact absurd (.inl hs) h
  | some v => exact ⟨v, rfl, fun e => h (.inr (by rw [hs, e]))⟩

theorem getD_none {extra : PyDict} {k : String} : PyDict.getD extra k = .none ↔ Unset extra k := by
  unfold PyDict.getD Unset
  cases PyDict.get? extra k <;> simp

theorem getD_str {extra : PyDict} {k s : String} : PyDict.getD extra k = .str s ↔ PyDict.get? extra k = some (.str s) := by
  unfold PyDict.getD
  cases PyDict.get? extra k <;> simp

theorem not_zero {d : PyDict} {k : String} (h : ¬ IsZero d k) : ∃ v, PyDict.get? d k = some v ∧ v.eqInt 0 = false := by
  unfold IsZero at h
  simp only [Classical.not_forall] at h
  obtain ⟨v, h1, h2⟩ := h
  exact ⟨v, h1, by simpa using h2⟩

theorem craChoose_unset {cr : Crypto} {secret : String} {extra : PyDict} (h : Unset extra "salt") :
    craChoose cr secret extra = .ok (utf8 secret) := by
  rw [craChoose, if_neg (by rw [ne_eq, getD_none, Classical.not_not]; exact h)]

theorem craChoose_odd {cr : Crypto} {secret : String} {extra : PyDict} {v : Value} (h : PyDict.get? extra "salt" = some v)
    (h1 : v ≠ .none) (h2 : ∀ s, v ≠ .str s) : craChoose cr secret extra = .error .attributeError := by
  have e : PyDict.getD extra "salt" = v := by rw [PyDict.getD, h]; rfl
  rw [craChoose, e, if_pos h1, deriveCraKey_odd _ _ _ _ _ h2]

theorem craChoose_str {cr : Crypto} {secret s : String} {extra : PyDict} (h : PyDict.get? extra "salt" = some (.str s)) :
    craChoose cr secret extra =
    if ((PyDict.get? extra "iterations").getD (.int 0)).eqInt 0 then
      .error (.valueError "iterations string required in extra & should be greater than 0")
    else if ((PyDict.get? extra "keylen").getD (.int 0)).eqInt 0 then
      .error (.valueError "keylen string missing in extra & should be greater than 0")
    else (cr.pbkdf2 (utf8 secret) (utf8 s) ((PyDict.get? extra "iterations").getD (.int 0))
      ((PyDict.get? extra "keylen").getD (.int 0))).map fun dk => utf8 (b64encode dk) := by
  rw [craChoose, getD_str.2 h, if_pos (by simp), deriveCraKey_str]

theorem salt_cases (extra : PyDict) : Unset extra "salt" ∨ (∃ s, PyDict.get? extra "salt" = some (.str s)) ∨
    ∃ v, PyDict.get? extra "salt" = some v ∧ v ≠ .none ∧ ∀ s, v ≠ .str s := by
  by_cases h : Unset extra "salt"
  · exact .inl h
  · obtain ⟨v, h1, h2⟩ := not_unset h
    by_cases h3 : ∃ s, v = .str s
    · obtain ⟨s, rfl⟩ := h3; exact .inr (.inl ⟨s, h1⟩)
    · exact .inr (.inr ⟨v, h1, h2, fun s e => h3 ⟨s, e⟩⟩)

/-- Either there is a key, or the client refuses. -/
theorem craChoose_cases (cr : Crypto) (secret : String) (extra : PyDict) :
    (∃ k, craChoose cr secret extra = .ok k ∧ CraKey cr secret extra k) ∨
    (∃ e, craChoose cr secret extra = .error e ∧ CraRefusal cr secret extra e) := by
  rcases salt_cases extra with h | ⟨s, h⟩ | ⟨v, h, h1, h2⟩
  · exact .inl ⟨_, craChoose_unset h, .plain h⟩
  · by_cases hi : IsZero extra "iterations"
    · exact .inr ⟨_, by rw [craChoose_str h, if_pos ((zero_getD ..).1 hi)], .iterations s h hi⟩
    by_cases hk : IsZero extra "keylen"
    · refine .inr ⟨_, ?_, .keylen s h hi hk⟩
      rw [craChoose_str h, if_neg (fun e => hi ((zero_getD ..).2 e)), if_pos ((zero_getD ..).1 hk)]
    obtain ⟨i, hi1, hi2⟩ := not_zero hi
    obtain ⟨l, hk1, hk2⟩ := not_zero hk
    cases hp : cr.pbkdf2 (utf8 secret) (utf8 s) i l with
    | error e => exact .inr ⟨e, by simp [craChoose_str h, hi1, hk1, hi2, hk2, hp, Except.map], .pbkdf2 s i l e h hi1 hk1 hi2 hk2 hp⟩
    | ok dk => exact .inl ⟨_, by simp [craChoose_str h, hi1, hk1, hi2, hk2, hp, Except.map], .salted s i l dk h hi1 hk1 hi2 hk2 hp⟩
  · exact .inr ⟨_, craChoose_odd h h1 h2, .oddSalt v h h1 h2⟩

theorem craKey_choose {cr : Crypto} {secret : String} {extra : PyDict} {k : Bytes} (h : CraKey cr secret extra k) :
    craChoose cr secret extra = .ok k := by
  cases h with
  | plain h => exact craChoose_unset h
  | salted s i l dk h1 h2 h3 h4 h5 h6 => simp [craChoose_str h1, h2, h3, h4, h5, h6, Except.map]

theorem refusal_error {cr : Crypto} {secret : String} {extra : PyDict} {e : Exc} (h : CraRefusal cr secret extra e) (m : String) :
    wampcraAuthenticate cr secret ⟨m, extra⟩ = .error e := by
  rw [authenticate_eq]
  cases h with
  | oddSalt v h h1 h2 => rw [craChoose_odd h h1 h2]; rfl
  | iterations s h h1 => rw [craChoose_str h, if_pos ((zero_getD ..).1 h1)]; rfl
  | keylen s h h1 h2 => rw [craChoose_str h, if_neg (fun e => h1 ((zero_getD ..).2 e)), if_pos ((zero_getD ..).1 h2)]; rfl
  | pbkdf2 s i l _ h1 h2 h3 h4 h5 h6 => simp [craChoose_str h1, h2, h3, h4, h5, h6, Except.map, Except.bind]
  | missing k h h1 =>
    rw [craKey_choose h]
    exact craSign_error.2 (.inl ⟨rfl, h1⟩)
  | oddChallenge k v h h1 h2 =>
    rw [craKey_choose h]
    exact craSign_error.2 (.inr ⟨rfl, v, h1, h2⟩)

/-- A WAMP-CRA client answers exactly if the CHALLENGE has a text to sign and what it takes to derive the key, whatever authmethod it
names; otherwise it raises what `CraRefusal` says. -/
theorem C107_wampcra_partial (cr : Crypto) (authid secret : String) (ax : Option PyDict) (m : String) (extra : PyDict) :
    (∀ a, (wampcraAuthenticator cr authid secret ax).authenticate ⟨m, extra⟩ = .ok a ↔
      ∃ k c, CraKey cr secret extra k ∧ PyDict.get? extra "challenge" = some (.str c) ∧ a = ⟨b64encode (cr.hmac k (utf8 c)), []⟩) ∧
    (∀ e, (wampcraAuthenticator cr authid secret ax).authenticate ⟨m, extra⟩ = .error e ↔ CraRefusal cr secret extra e) := by
  show (∀ a, wampcraAuthenticate cr secret ⟨m, extra⟩ = .ok a ↔ _) ∧ ∀ e, wampcraAuthenticate cr secret ⟨m, extra⟩ = .error e ↔ _
  have hm := authenticate_eq cr secret m extra
  rcases craChoose_cases cr secret extra with ⟨k, hk, h⟩ | ⟨e, hk, h⟩
  · rw [hk] at hm
    rw [hm]
    show (∀ a, craSign cr extra k = .ok a ↔ _) ∧ ∀ e, craSign cr extra k = .error e ↔ _
    refine ⟨fun a => ?_, fun e => ⟨fun h' => ?_, fun h' => ?_⟩⟩
    · rw [craSign_ok]
      constructor
      · rintro ⟨c, h1, h2⟩; exact ⟨k, c, h, h1, h2⟩
      · rintro ⟨k', c, h1, h2, h3⟩
        rw [craKey_choose h1] at hk; cases hk
        exact ⟨c, h2, h3⟩
    · rcases craSign_error.1 h' with ⟨rfl, h1⟩ | ⟨rfl, v, h1, h2⟩
      · exact .missing k h h1
      · exact .oddChallenge k v h h1 h2
    · rw [refusal_error h' m] at hm; exact hm.symm
  · rw [hk] at hm
    rw [hm]
    refine ⟨fun a => ⟨fun h' => (by cases h'), ?_⟩, fun e' => ⟨fun h' => ?_, fun h' => ?_⟩⟩
    · rintro ⟨k', c, h1, -, -⟩
      rw [craKey_choose h1] at hk; cases hk
    · cases h'; exact h
    · rw [refusal_error h' m] at hm; exact hm.symm

/-- Salted, plain, and two that are refused -/
example : (∃ a, (wampcraAuthenticator toyCrypto "joe" "s" none).authenticate ⟨"wampcra", [(.str "challenge", .str "c")]⟩ = .ok a) ∧
    (wampcraAuthenticator toyCrypto "joe" "s" none).authenticate ⟨"wampcra", []⟩ = .error .keyError ∧
    (wampcraAuthenticator toyCrypto "joe" "s" none).authenticate ⟨"wampcra", [(.str "challenge", .int 3)]⟩ = .error .attributeError :=
  ⟨⟨_, rfl⟩, rfl, rfl⟩

/-- A cryptosign client answers exactly if the CHALLENGE has a hexadecimal text; it raises ValueError if there is none, or it is not
hexadecimal, and TypeError or ValueError if it is no text. -/
theorem C107_cryptosign_partial (cr : Crypto) (authid key : String) (ax : Option PyDict) (client : ClientAuthenticator)
    (hc : cryptosignAuthenticator cr authid key ax = .ok client) (m : String) (extra : PyDict) :
    ∃ seed, unhexlify key = .ok seed ∧
    (∀ a, client.authenticate ⟨m, extra⟩ = .ok a ↔
      ∃ c raw, PyDict.get? extra "challenge" = some (.str c) ∧ unhexlify c = .ok raw ∧ a = ⟨hexlify (cr.sign seed raw) ++ c, []⟩) ∧
    (Unset extra "challenge" → client.authenticate ⟨m, extra⟩ = .error (.valueError "challenge string missing in extra")) ∧
    (∀ c e, PyDict.get? extra "challenge" = some (.str c) → unhexlify c = .error e →
      client.authenticate ⟨m, extra⟩ = .error e ∧ e.isValueError = true) ∧
    (∀ v, PyDict.get? extra "challenge" = some v → v ≠ .none → (∀ s, v ≠ .str s) →
      (∃ t, client.authenticate ⟨m, extra⟩ = .error (.typeError t)) ∨
      (∃ b e, v = .bytes b ∧ client.authenticate ⟨m, extra⟩ = .error e ∧ e.isValueError = true)) := by
  unfold cryptosignAuthenticator at hc
  cases hs : unhexlify key with
  | error e => rw [hs] at hc; cases hc
  | ok seed =>
    rw [hs] at hc
    simp only [bind, Except.bind] at hc
    split at hc
    · cases hc
    cases hc
    refine ⟨seed, rfl, ?_⟩
    show (∀ a, cryptosignAuthenticate cr seed ⟨m, extra⟩ = .ok a ↔ _) ∧ (_ → cryptosignAuthenticate cr seed ⟨m, extra⟩ = _) ∧
      (∀ c e, _ → _ → cryptosignAuthenticate cr seed ⟨m, extra⟩ = _ ∧ _) ∧ ∀ v, _ → _ → _ →
        (∃ t, cryptosignAuthenticate cr seed ⟨m, extra⟩ = _) ∨ ∃ b e, _ ∧ cryptosignAuthenticate cr seed ⟨m, extra⟩ = _ ∧ _
    have h0 : Unset extra "challenge" →
        cryptosignAuthenticate cr seed ⟨m, extra⟩ = .error (.valueError "challenge string missing in extra") := by
      intro h
      simp [cryptosignAuthenticate, getD_none.2 h, bind, Except.bind, throw, throwThe, MonadExceptOf.throw]
    have h1 : ∀ c, PyDict.get? extra "challenge" = some (.str c) →
        cryptosignAuthenticate cr seed ⟨m, extra⟩ = (unhexlify c).map fun raw => ⟨hexlify (cr.sign seed raw) ++ c, []⟩ := by
      intro c h
      rw [cryptosignAuthenticate, getD_str.2 h]
      cases hu : unhexlify c <;>
        simp [signCryptosignChallenge, unhexlifyValue, hu, bind, Except.bind, pure, Except.pure, Except.map]
    have h2 : ∀ v, PyDict.get? extra "challenge" = some v → v ≠ .none → (∀ s, v ≠ .str s) →
        (∃ t, cryptosignAuthenticate cr seed ⟨m, extra⟩ = .error (.typeError t)) ∨
        (∃ b e, v = .bytes b ∧ cryptosignAuthenticate cr seed ⟨m, extra⟩ = .error e ∧ e.isValueError = true) := by
      intro v h hn hs
      have e : PyDict.getD extra "challenge" = v := by rw [PyDict.getD, h]; rfl
      unfold cryptosignAuthenticate
      simp only [e]
      rw [if_neg hn]
      cases v with
      | none => exact absurd rfl hn
      | str s => exact absurd rfl (hs s)
      | bytes b =>
        cases hu : unhexlifyChars (b.map fun x => Char.ofNat x.toNat) with
        | ok raw => exact .inl ⟨_, by simp [signCryptosignChallenge, unhexlifyValue, hu, bind, Except.bind, throw, throwThe, MonadExceptOf.throw]; rfl⟩
        | error x =>
          exact .inr ⟨b, x, rfl, by simp [signCryptosignChallenge, unhexlifyValue, hu, bind, Except.bind], unhexlifyChars_valueError _ _ hu⟩
      | _ => exact .inl ⟨_, by simp [signCryptosignChallenge, unhexlifyValue, bind, Except.bind]; rfl⟩
    refine ⟨fun a => ⟨fun h => ?_, ?_⟩, h0, ?_, h2⟩
    · by_cases hu : Unset extra "challenge"
      · rw [h0 hu] at h; cases h
      · obtain ⟨v, hv, hn⟩ := not_unset hu
        by_cases hs : ∃ s, v = .str s
        · obtain ⟨c, rfl⟩ := hs
          rw [h1 c hv] at h
          cases hx : unhexlify c with
          | error e => rw [hx] at h; cases h
          | ok raw => rw [hx] at h; cases h; exact ⟨c, raw, hv, hx, rfl⟩
        · rcases h2 v hv hn (fun s e => hs ⟨s, e⟩) with ⟨t, h3⟩ | ⟨_, _, _, h3, _⟩ <;> rw [h3] at h <;> cases h
    · rintro ⟨c, raw, hv, hx, rfl⟩
      rw [h1 c hv, hx]; rfl
    · intro c e hv hx
      rw [h1 c hv, hx]
      exact ⟨rfl, (C66_bad_challenge cr seed c e hx).2⟩

example : ∃ client, cryptosignAuthenticator toyCrypto "joe" (String.ofList (List.replicate 64 'a')) none = .ok client ∧
    (∃ a, client.authenticate ⟨"cryptosign", [(.str "challenge", .str "00ff")]⟩ = .ok a) ∧
    client.authenticate ⟨"cryptosign", [(.str "challenge", .str "0g")]⟩ = .error .binasciiError ∧
    (∃ t, client.authenticate ⟨"cryptosign", [(.str "challenge", .int 1)]⟩ = .error (.typeError t)) :=
  ⟨_, rfl, ⟨_, rfl⟩, rfl, ⟨_, rfl⟩⟩

/-- A ticket client answers every CHALLENGE with its ticket, an anonymous client none. -/
theorem C107_ticket_partial (authid ticket : String) (ax : Option PyDict) (ch : Challenge) :
    (ticketAuthenticator authid ticket ax).authenticate ch = .ok ⟨ticket, []⟩ ∧
    (anonymousAuthenticator authid ax).authenticate ch = .error .notImplementedError := ⟨rfl, rfl⟩

namespace Joiner
open Spec.Jn

/-- A CHALLENGE that the client does not answer leaves it waiting: it answers the next one it can. -/
theorem C107_next_challenge (realm : String) (cs : List Op) (au au' : ClientAuthenticator) (ch ch' : Challenge) (e : Exc) (a : Authenticate)
    (h : AwaitsChallenge (init realm) cs) (h1 : au.authenticate ch = .error e) (h2 : au'.authenticate ch' = .ok a) :
    reply (init realm) cs au (.challenge ch) = .error e ∧
    reply (init realm) (cs ++ [.receive au (.challenge ch)]) au' (.challenge ch') = .ok (some (.authenticate a)) := by
  obtain ⟨h3, h4⟩ := ((C61_challenge realm cs au ch).1 h).2 e h1
  refine ⟨h3, ?_⟩
  have h5 := ((C61_challenge realm cs au' ch').1 h).1 a h2
  unfold reply at h5 ⊢
  rw [h4]; exact h5

/-- "A client answers only challenges of the method it offered" is false: authmethod is not looked at.  A client that offered a ticket
hands it to a server that asks for a cryptosign signature. -/
theorem C107_own_method_false : ¬ ∀ (realm : String) (au : ClientAuthenticator) (ch : Challenge) (a : Authenticate),
    (∃ authid ticket ax, au = ticketAuthenticator authid ticket ax) →
    reply (init realm) [.sendHello au none] au (.challenge ch) = .ok (some (.authenticate a)) → ch.authmethod = au.authMethod := by
  intro h
  have := h "realm1" (ticketAuthenticator "joe" "secret" none) ⟨"cryptosign", [(.str "challenge", .str "00")]⟩ ⟨"secret", []⟩
    ⟨_, _, _, rfl⟩ rfl
  exact absurd this (by decide)

end Joiner
end Wamp
