import Verif.Proofs.LoginSucceeds
import Verif.Props.LoginEnds
import Verif.Props.HandshakeFormats

/-! # C124: who has the credentials gets in -/

namespace Wamp.Spec.Stack
open RawSocket Net Hs

/-- A client connects with a session id nobody else is given.  If its joiner and the router's acceptor come to an agreement when
they are left to themselves, whichever of the calls on this connection sees which answer of the authenticator, then after three
exchanges the client is in, under this id and with these details; whatever others do meanwhile, whoever they are, and however slowly
the bytes arrive. -/
theorem C124_gets_in (r : Setup) (cfg : Config) (sid : PyInt) (authid authrole : Option String) (before after : List GAct) (c : Nat)
    (hfree : (grun r before).links c = none)
    (hcs : ∃ b, sendHandshake ⟨cfg.format.type, cfg.size⟩ = .ok b) (hrs : ∃ b, sendHandshake ⟨cfg.format.type, r.size⟩ = .ok b)
    (hfresh : ∀ c' cfg' sid', .act (.connect c' cfg' sid') ∈ before ++ after → sid'.val ≠ sid.val)
    (hag : ∀ e₁ e₂, .act (.serve c e₁) ∈ after → .act (.serve c e₂) ∈ after →
      HandshakeAgrees cfg.format.wire r.crypto cfg.authenticator e₁ e₂ cfg.roles (Joiner.init cfg.realm)
        (Acceptor.init r.hasAuthenticator r.roles sid) ⟨sid, cfg.realm, authid, authrole⟩ ∧
      ∀ w ∈ transcript cfg.format.wire r.crypto cfg.authenticator e₁ e₂ cfg.roles (Joiner.init cfg.realm)
        (Acceptor.init r.hasAuthenticator r.roles sid), w.length < 2 ^ 24)
    (hi : ∀ b, .inject c b ∉ after) (hd : .act (.drop c) ∉ after) (u₁ d₁ u₂ d₂ u₃ d₃ : Nat) (e₁ e₂ e₃ : AuthEnv)
    (hn : ∀ k ∈ [u₁, d₁, u₂, d₂, u₃, d₃], 2 ^ 24 + 4 ≤ k)
    (hs : (exchange c u₁ d₁ e₁ ++ exchange c u₂ d₂ e₂ ++ exchange c u₃ d₃ e₃).Sublist after) :
    ∃ l calls, (grun r (before ++ .act (.connect c cfg sid) :: after)).links c = some l ∧ l.client = .session calls ∧
      l.router = .attached cfg.format sid.val ∧
      InBroker (grun r (before ++ .act (.connect c cfg sid) :: after)).broker ⟨sid, cfg.realm, authid, authrole⟩ ∧
      InDealer (grun r (before ++ .act (.connect c cfg sid) :: after)).dealer ⟨sid, cfg.realm, authid, authrole⟩ := by
  obtain ⟨b, hb⟩ := hcs
  obtain ⟨a1, a2⟩ := apart_run r sid.val before fun c' cfg' sid' h => hfresh c' cfg' sid' (List.mem_append_left _ h)
  have hone : (grun r before).gstep r (.act (.connect c cfg sid)) = (grun r before).set c (some { config := cfg, router := .greeting sid, up := b }) := by
    simp only [Stack.gstep, Stack.step, hfree, hb]
  have hstart := goes_up (E := fun e => .act (.serve c e) ∈ after) (r := r) (cfg := cfg) (d := ⟨sid, cfg.realm, authid, authrole⟩)
    (a := Acceptor.init r.hasAuthenticator r.roles sid) (e₀ := e₁) (hs.subset (by simp [exchange]))
    (fun e₁ e₂ h1 h2 => (hag e₁ e₂ h1 h2).1) (fun e₁ e₂ h1 h2 => (hag e₁ e₂ h1 h2).2)
  have h0 : HInv (fun e => .act (.serve c e) ∈ after) r cfg ⟨sid, cfg.realm, authid, authrole⟩ c
      ((grun r before).gstep r (.act (.connect c cfg sid))) := by
    rw [hone]
    refine ⟨?_, { config := cfg, router := .greeting sid, up := b }, by rw [set_links, if_pos rfl], ⟨rfl, rfl, hb, rfl⟩, .inl ⟨a2, by intro f s e; cases e⟩⟩
    intro c' l hne hl
    rw [set_links, if_neg hne] at hl
    exact a1 c' l hl
  rw [gfold_append, List.foldl_cons]
  have hinv := hinv_run hrs hstart after _ h0 hi hd (fun e h => h)
    (fun c' cfg' sid' h _ => hfresh c' cfg' sid' (List.mem_append_right _ h))
  have hk : (2 ^ 24 + 4 ≤ u₁ ∧ 2 ^ 24 + 4 ≤ d₁) ∧ (2 ^ 24 + 4 ≤ u₂ ∧ 2 ^ 24 + 4 ≤ d₂) ∧ 2 ^ 24 + 4 ≤ u₃ ∧ 2 ^ 24 + 4 ≤ d₃ := by
    refine ⟨⟨hn _ ?_, hn _ ?_⟩, ⟨hn _ ?_, hn _ ?_⟩, hn _ ?_, hn _ ?_⟩ <;> simp
  obtain ⟨⟨k1, k2⟩, ⟨k3, k4⟩, k5, k6⟩ := hk
  have hneed : Needs c 0 (exchange c u₁ d₁ e₁ ++ exchange c u₂ d₂ e₂ ++ exchange c u₃ d₃ e₃) :=
    show Needs c 0 [_, _, _, _, _, _, _, _, _, _, _, _] from
    ⟨⟨rfl, k1⟩, rfl, ⟨rfl, k2⟩, rfl, ⟨rfl, k3⟩, rfl, ⟨rfl, k4⟩, rfl, ⟨rfl, k5⟩, rfl, ⟨rfl, k6⟩, rfl, Nat.le_refl 12⟩
  obtain ⟨l', h1, h2, h3⟩ := login_run r c after ((grun r before).gstep r (.act (.connect c cfg sid)))
    { config := cfg, router := .greeting sid, up := b } 0 _ (by rw [hone, set_links, if_pos rfl])
    ⟨hb, rfl⟩ (Nat.zero_le _) hneed hs hi hd
  have hend := ended_of_pos h2 h3
  obtain ⟨l, hl, hw, hst⟩ := hinv.well
  obtain rfl : l = l' := by rw [hl] at h1; exact Option.some.inj h1
  have hw2 := hw.2
  rcases hend with ⟨calls, f, s, e1, e2⟩ | e | e
  · rw [e1, e2] at hw2
    obtain ⟨rfl, rfl⟩ := hw2
    refine ⟨l, calls, hl, e1, e2, ?_⟩
    exact hst.elim (fun h => absurd e2 (h.2 _ _)) And.right
  · rw [e] at hw2
    cases hr : l.router <;> rw [hr] at hw2 <;> exact hw2.elim
  · rw [e] at hw2
    cases hr : l.client <;> rw [hr] at hw2 <;> exact hw2.elim

theorem wire_carries (f : Format) (m : Message) (h : Fits f.limits (.list m.marshal)) : Carries f.wire m := wire_restores f _ h

section
variable (r : Setup) (cfg : Config) (sid : PyInt) (before after : List GAct) (c : Nat) (resp : Response)

/-- What is the same whatever the method: the client connects on a free connection with an id of its own, goes through three exchanges,
and nobody interferes with the connection; roles, realm, id and what the authenticator returns can be encoded; nothing that is sent
in a login is longer than a frame can be. -/
structure Undisturbed : Prop where
  free : (grun r before).links c = none
  client : ∃ b, sendHandshake ⟨cfg.format.type, cfg.size⟩ = .ok b
  router : ∃ b, sendHandshake ⟨cfg.format.type, r.size⟩ = .ok b
  fresh : ∀ c' cfg' sid', .act (.connect c' cfg' sid') ∈ before ++ after → sid'.val ≠ sid.val
  short : ∀ e₁ e₂, .act (.serve c e₁) ∈ after → .act (.serve c e₂) ∈ after →
    ∀ w ∈ transcript cfg.format.wire r.crypto cfg.authenticator e₁ e₂ cfg.roles (Joiner.init cfg.realm)
      (Acceptor.init r.hasAuthenticator r.roles sid), w.length < 2 ^ 24
  alone : ∀ b, .inject c b ∉ after
  stays : .act (.drop c) ∉ after
  exchanges : ∃ u₁ d₁ u₂ d₂ u₃ d₃ e₁ e₂ e₃, (∀ k ∈ [u₁, d₁, u₂, d₂, u₃, d₃], 2 ^ 24 + 4 ≤ k) ∧
    (exchange c u₁ d₁ e₁ ++ exchange c u₂ d₂ e₂ ++ exchange c u₃ d₃ e₃).Sublist after
  roles : RolesOk (cfg.roles.getD CLIENT_ROLES) ∧ Fits cfg.format.limits (.dict (cfg.roles.getD CLIENT_ROLES))
  routerRoles : RolesOk (r.roles.getD ROUTER_ROLES) ∧ Fits cfg.format.limits (.dict (r.roles.getD ROUTER_ROLES))
  id : IdOk sid
  realm : cfg.format.limits.size cfg.realm.utf8ByteSize
  names : FitsStr cfg.format resp.authid ∧ FitsStr cfg.format resp.authrole

/-- The client is in, under this id and with what the authenticator returned. -/
def In (n : Stack) : Prop :=
  ∃ l calls, n.links c = some l ∧ l.client = .session calls ∧ l.router = .attached cfg.format sid.val ∧
    InBroker n.broker ⟨sid, cfg.realm, resp.authid, resp.authrole⟩ ∧ InDealer n.dealer ⟨sid, cfg.realm, resp.authid, resp.authrole⟩

variable {r cfg sid before after c resp} (h : Undisturbed r cfg sid before after c resp)
include h

theorem Undisturbed.gets_in (hag : ∀ e₁ e₂, .act (.serve c e₁) ∈ after → .act (.serve c e₂) ∈ after →
    HandshakeAgrees cfg.format.wire r.crypto cfg.authenticator e₁ e₂ cfg.roles (Joiner.init cfg.realm)
      (Acceptor.init r.hasAuthenticator r.roles sid) ⟨sid, cfg.realm, resp.authid, resp.authrole⟩) :
    In cfg sid c resp (grun r (before ++ .act (.connect c cfg sid) :: after)) := by
  obtain ⟨u₁, d₁, u₂, d₂, u₃, d₃, e₁, e₂, e₃, hn, hs⟩ := h.exchanges
  exact C124_gets_in r cfg sid resp.authid resp.authrole before after c h.free h.client h.router h.fresh
    (fun e₁ e₂ h1 h2 => ⟨hag e₁ e₂ h1 h2, h.short e₁ e₂ h1 h2⟩) h.alone h.stays u₁ d₁ u₂ d₂ u₃ d₃ e₁ e₂ e₃ hn hs

/-- With WAMP-CRA: who has the secret the authenticator knows -/
theorem C124_wampcra (hr : r.hasAuthenticator = true) (authid secret : String) (extra : Option PyDict)
    (hau : cfg.authenticator = wampcraAuthenticator r.crypto authid secret extra) (hsec : resp.secret? = some secret)
    (ha : ∀ e, .act (.serve c e) ∈ after → e.authenticate (.wampcra cfg.realm (some authid) (some (extra.getD []))) = .ok resp)
    (fid : cfg.format.limits.size authid.utf8ByteSize) (fx : Fits cfg.format.limits (.dict (extra.getD [])))
    (fch : ∀ e, .act (.serve c e) ∈ after → ∀ ch, ch = generateWampcraChallenge e.nonce e.now sid resp.authid resp.authrole "dynamic" →
      cfg.format.limits.size ch.utf8ByteSize ∧ cfg.format.limits.size (b64encode (r.crypto.hmac (utf8 secret) (utf8 ch))).utf8ByteSize) :
    In cfg sid c resp (grun r (before ++ .act (.connect c cfg sid) :: after)) := by
  refine h.gets_in fun e₁ e₂ h1 _ => ?_
  obtain ⟨f1, f2⟩ := fch e₁ h1 _ rfl
  rw [hau, hr]
  exact C63_wampcra _ r.crypto e₁ e₂ cfg.roles r.roles cfg.realm sid resp h.roles.1 h.routerRoles.1 h.id authid secret extra (ha e₁ h1) hsec _ rfl
    (wire_carries _ _ (hello_fits _ _ h.realm h.roles.2 fid "wampcra" rfl (Format.size_small _ _ (by decide)) _ rfl fx))
    (wire_carries _ _ (challenge_fits _ "wampcra" (by decide) _ f1))
    (wire_carries _ _ (authenticate_fits _ _ f2))
    (wire_carries _ _ (welcome_fits _ _ h.id h.routerRoles.2 h.names.1 h.names.2 trivial rfl))

/-- With a ticket the authenticator accepts -/
theorem C124_ticket (hr : r.hasAuthenticator = true) (authid ticket : String) (extra : Option PyDict)
    (hau : cfg.authenticator = ticketAuthenticator authid ticket extra)
    (ha : ∀ e, .act (.serve c e) ∈ after → e.authenticate (.ticket cfg.realm (some authid) (some (extra.getD [])) ticket) = .ok resp)
    (fid : cfg.format.limits.size authid.utf8ByteSize) (fx : Fits cfg.format.limits (.dict (extra.getD [])))
    (ft : cfg.format.limits.size ticket.utf8ByteSize) :
    In cfg sid c resp (grun r (before ++ .act (.connect c cfg sid) :: after)) := by
  refine h.gets_in fun e₁ e₂ _ h2 => ?_
  rw [hau, hr]
  exact C63_ticket _ r.crypto e₁ e₂ cfg.roles r.roles cfg.realm sid resp h.roles.1 h.routerRoles.1 h.id authid ticket extra (ha e₂ h2)
    (wire_carries _ _ (hello_fits _ _ h.realm h.roles.2 fid "ticket" rfl (Format.size_small _ _ (by decide)) _ rfl fx))
    (wire_carries _ _ ⟨Format.size_small _ 3 (by decide), Format.int_id _ 4 (by decide) (by decide), Format.size_small _ _ (by decide),
      ⟨Format.size_small _ 0 (by decide), List.nodup_nil, trivial⟩, trivial⟩)
    (wire_carries _ _ (authenticate_fits _ _ ft))
    (wire_carries _ _ (welcome_fits _ _ h.id h.routerRoles.2 h.names.1 h.names.2 trivial rfl))

/-- With the private key to the public key the authenticator knows -/
theorem C124_cryptosign (law : SignatureScheme r.crypto) (hr : r.hasAuthenticator = true) (authid privateKey : String) (extra : Option PyDict)
    (seed : Bytes) (pk : Value) (hau : cryptosignAuthenticator r.crypto authid privateKey extra = .ok cfg.authenticator)
    (hseed : unhexlify privateKey = .ok seed) (hk : PyDict.get? cfg.authenticator.authExtra "pubkey" = some pk)
    (hkk : unhexlifyValue pk = .ok (r.crypto.publicKey seed))
    (ha : ∀ e, .act (.serve c e) ∈ after →
      e.authenticate (.cryptosign cfg.realm (some authid) (some cfg.authenticator.authExtra) pk) = .ok resp)
    (fid : cfg.format.limits.size authid.utf8ByteSize) (fx : Fits cfg.format.limits (.dict cfg.authenticator.authExtra))
    (fch : ∀ e, .act (.serve c e) ∈ after → cfg.format.limits.size (hexlify e.raw).utf8ByteSize ∧
      cfg.format.limits.size (hexlify (r.crypto.sign seed e.raw) ++ hexlify e.raw).utf8ByteSize) :
    In cfg sid c resp (grun r (before ++ .act (.connect c cfg sid) :: after)) := by
  refine h.gets_in fun e₁ e₂ h1 _ => ?_
  obtain ⟨f1, f2⟩ := fch e₁ h1
  have hid : cfg.authenticator.authid = some authid ∧ cfg.authenticator.authMethod = "cryptosign" := by
    unfold cryptosignAuthenticator at hau
    rw [hseed] at hau
    simp only [bind, Except.bind, pure, Except.pure] at hau
    split at hau
    · cases hau
    · injection hau with hau; rw [← hau]; exact ⟨rfl, rfl⟩
  rw [hr]
  exact C63_cryptosign _ r.crypto e₁ e₂ cfg.roles r.roles cfg.realm sid resp h.roles.1 h.routerRoles.1 h.id law authid privateKey extra seed _ pk hau
    hseed hk hkk (ha e₁ h1)
    (wire_carries _ _ (hello_fits _ _ h.realm h.roles.2 (by show FitsStr _ cfg.authenticator.authid; rw [hid.1]; exact fid) "cryptosign"
      (by show some [Value.str cfg.authenticator.authMethod] = _; rw [hid.2]) (Format.size_small _ _ (by decide)) _ rfl fx))
    (wire_carries _ _ (challenge_fits _ "cryptosign" (by decide) _ f1))
    (wire_carries _ _ (authenticate_fits _ _ f2))
    (wire_carries _ _ (welcome_fits _ _ h.id h.routerRoles.2 h.names.1 h.names.2 trivial rfl))

/-- Anonymously, if the authenticator has no objection -/
theorem C124_anonymous (hr : r.hasAuthenticator = true) (authid : String) (extra : Option PyDict)
    (hau : cfg.authenticator = anonymousAuthenticator authid extra)
    (ha : ∀ e, .act (.serve c e) ∈ after → e.authenticate (.anonymous cfg.realm (some authid) (some (extra.getD []))) = .ok resp)
    (fid : cfg.format.limits.size authid.utf8ByteSize) (fx : Fits cfg.format.limits (.dict (extra.getD []))) :
    In cfg sid c resp (grun r (before ++ .act (.connect c cfg sid) :: after)) := by
  refine h.gets_in fun e₁ e₂ h1 _ => ?_
  rw [hau, hr]
  exact C63_anonymous _ r.crypto e₁ e₂ cfg.roles r.roles cfg.realm sid resp h.roles.1 h.routerRoles.1 h.id authid extra (ha e₁ h1)
    (wire_carries _ _ (hello_fits _ _ h.realm h.roles.2 fid "anonymous" rfl (Format.size_small _ _ (by decide)) _ rfl fx))
    (wire_carries _ _ (welcome_fits _ _ h.id h.routerRoles.2 h.names.1 h.names.2 (Format.size_small _ _ (by decide)) rfl))

end

/-! ## The hypotheses can be met -/

def slowlyBefore : List GAct :=
  [.act (.connect 0 ⟨.cbor, 700, "realm1", anonymousAuthenticator "" none, none⟩ (.int 11)), .inject 0 hostile, .act (.carryUp 0 500)]
def joe : Config := ⟨.msgpack, 700, "realm1", wampcraAuthenticator craCrypto "joe" "s" none, none⟩

theorem slowly_serves {e : AuthEnv} (h : .act (.serve 1 e) ∈ slowly) : e = craEnv := by
  simp [slowly, exchange] at h
  exact h

theorem joe_short : ∀ w ∈ transcript joe.format.wire craSetup.crypto joe.authenticator craEnv craEnv joe.roles (Joiner.init joe.realm)
      (Acceptor.init craSetup.hasAuthenticator craSetup.roles (.int 12)), w.length < 2 ^ 24 := by
  decide +kernel

theorem joe_undisturbed : Undisturbed craSetup joe (.int 12) slowlyBefore slowly 1 (.cra (some "joe") (some "user") "s") where
  free := rfl
  client := ⟨_, rfl⟩
  router := ⟨_, rfl⟩
  fresh := by
    intro c cfg sid h
    simp [slowlyBefore, slowly, exchange] at h
    rw [h.2.2]
    decide
  short := by
    intro e₁ e₂ h1 h2
    rw [slowly_serves h1, slowly_serves h2]
    exact joe_short
  alone := by simp [slowly, exchange]
  stays := by simp [slowly, exchange]
  exchanges := ⟨2 ^ 24 + 4, 2 ^ 24 + 4, 2 ^ 24 + 4, 2 ^ 24 + 4, 2 ^ 24 + 4, 2 ^ 24 + 4, craEnv, craEnv, craEnv, by simp, by
    unfold slowly
    exact List.Sublist.append (List.Sublist.trans (List.Sublist.append ((List.sublist_append_right _ _).trans (List.sublist_append_left _ _))
      (List.Sublist.refl _)) (List.sublist_append_left _ _)) (List.Sublist.refl _)⟩
  roles := ⟨rolesOk_client, clientRoles_fits .msgpack⟩
  routerRoles := ⟨rolesOk_router, routerRoles_fits .msgpack⟩
  id := by decide
  realm := Format.size_small .msgpack _ (by decide)
  names := ⟨Format.size_small .msgpack _ (by decide), Format.size_small .msgpack _ (by decide)⟩

example : In joe (.int 12) 1 (.cra (some "joe") (some "user") "s") (grun craSetup (slowlyBefore ++ .act (.connect 1 joe (.int 12)) :: slowly)) :=
  C124_wampcra joe_undisturbed rfl "joe" "s" none rfl rfl (fun e h => by rw [slowly_serves h]; rfl)
    (Format.size_small .msgpack _ (by decide)) (feature_fits .msgpack 0 (by decide) _ trivial (by simp) rfl)
    (fun e h ch hch => by
      rw [slowly_serves h] at hch; subst hch
      exact ⟨Format.size_small .msgpack _ (by decide +kernel), Format.size_small .msgpack _ (by decide +kernel)⟩)

/-- Client 1 is served by `e`, while a stranger is on connection 0. -/
def patiently (e : AuthEnv) : List GAct :=
  let k := 2 ^ 24 + 4
  exchange 1 k k e ++ [.inject 0 hostile, .act (.carryUp 1 1)] ++ exchange 1 k k e ++ [.act (.serve 0 craEnv), .act (.hear 1)] ++ exchange 1 k k e

theorem patiently_serves {e e' : AuthEnv} (h : .act (.serve 1 e') ∈ patiently e) : e' = e := by
  simp [patiently, exchange] at h
  exact h

theorem patiently_undisturbed (r : Setup) (cfg : Config) (resp : Response) (e : AuthEnv) (hr : r.roles = none) (hs : r.size = 1000) (hc : cfg.roles = none)
    (hz : cfg.size = 700) (hrealm : cfg.realm = "realm1") (hn : FitsStr cfg.format resp.authid ∧ FitsStr cfg.format resp.authrole)
    (hf : cfg.format = .cbor)
    (hshort : ∀ w ∈ transcript cfg.format.wire r.crypto cfg.authenticator e e cfg.roles (Joiner.init cfg.realm)
      (Acceptor.init r.hasAuthenticator r.roles (.int 12)), w.length < 2 ^ 24) :
    Undisturbed r cfg (.int 12) slowlyBefore (patiently e) 1 resp where
  free := by obtain ⟨cr, b, ro, sz⟩ := r; subst hs hr; rfl
  client := by rw [hz, hf]; exact ⟨_, rfl⟩
  router := by rw [hs, hf]; exact ⟨_, rfl⟩
  fresh := by
    intro c cfg sid h
    simp [slowlyBefore, patiently, exchange] at h
    rw [h.2.2]
    decide
  short := by
    intro e₁ e₂ h1 h2
    rw [patiently_serves h1, patiently_serves h2]
    exact hshort
  alone := by simp [patiently, exchange]
  stays := by simp [patiently, exchange]
  exchanges := ⟨2 ^ 24 + 4, 2 ^ 24 + 4, 2 ^ 24 + 4, 2 ^ 24 + 4, 2 ^ 24 + 4, 2 ^ 24 + 4, e, e, e, by simp, by
    unfold patiently
    exact List.Sublist.append (List.Sublist.trans (List.Sublist.append (List.sublist_append_left _ _)
      (List.Sublist.refl _)) (List.sublist_append_left _ _)) (List.Sublist.refl _)⟩
  roles := by rw [hc]; exact ⟨rolesOk_client, clientRoles_fits _⟩
  routerRoles := by rw [hr]; exact ⟨rolesOk_router, routerRoles_fits _⟩
  id := by decide
  realm := by rw [hrealm]; exact Format.size_small _ _ (by decide)
  names := hn

/-- The router of these examples: it asks `guests`. -/
def openHouse : Setup := ⟨toyCrypto, true, none, 1000⟩
def withTicket : Config := ⟨.cbor, 700, "realm1", ticketAuthenticator "bob" "pw" none, none⟩
def asGuest : Config := ⟨.cbor, 700, "realm1", anonymousAuthenticator "x" none, none⟩
def withKey : Config := ⟨.cbor, 700, "realm1", bobsKey, none⟩

example : In withTicket (.int 12) 1 (.plain (some "bob") (some "user"))
    (grun openHouse (slowlyBefore ++ .act (.connect 1 withTicket (.int 12)) :: patiently guests)) :=
  C124_ticket (patiently_undisturbed _ _ _ _ rfl rfl rfl rfl rfl ⟨Format.size_small _ _ (by decide), Format.size_small _ _ (by decide)⟩ rfl
    (by decide +kernel)) rfl "bob" "pw" none rfl (fun e h => by rw [patiently_serves h]; rfl) (Format.size_small _ _ (by decide)) (noExtra_fits _)
    (Format.size_small _ _ (by decide))

example : In asGuest (.int 12) 1 (.plain (some "guest") (some "visitor"))
    (grun openHouse (slowlyBefore ++ .act (.connect 1 asGuest (.int 12)) :: patiently guests)) :=
  C124_anonymous (patiently_undisturbed _ _ _ _ rfl rfl rfl rfl rfl ⟨Format.size_small _ _ (by decide), Format.size_small _ _ (by decide)⟩ rfl
    (by decide +kernel)) rfl "x" none rfl (fun e h => by rw [patiently_serves h]; rfl) (Format.size_small _ _ (by decide)) (noExtra_fits _)

example : In withKey (.int 12) 1 (.plain (some "bob") (some "user"))
    (grun openHouse (slowlyBefore ++ .act (.connect 1 withKey (.int 12)) :: patiently guests)) :=
  C124_cryptosign (patiently_undisturbed _ _ _ _ rfl rfl rfl rfl rfl ⟨Format.size_small _ _ (by decide), Format.size_small _ _ (by decide)⟩ rfl
    (by decide +kernel)) toyCrypto_law rfl "bob" _ none _ _ bobsKey_eq (unhexlify_hexlify _) rfl (unhexlify_hexlify _)
    (fun e h => by rw [patiently_serves h]; simp [guests, withKey]) (Format.size_small _ _ (by decide)) (bobsExtra_fits _)
    (fun e h => by rw [patiently_serves h]; exact ⟨Format.size_small _ _ (by decide +kernel), Format.size_small _ _ (by decide +kernel)⟩)

end Wamp.Spec.Stack
