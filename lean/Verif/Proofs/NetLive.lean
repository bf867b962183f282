import Verif.Proofs.NetOnce

/-! # The network: no call is lost -/

namespace Wamp.Spec.Net
open Wamp.Spec.Ses

variable {W : Type} (c : Codec W)

theorem tokens_send_ge (S : WAMPSession) (up down : List Message) (m : Message) (i : Int) (h : i ∈ tokens S up down) :
    i ∈ tokens (S.sendMessage c m).1 (if returned (S.sendMessage c m).2 then up ++ [m] else up) down ∨
      ((∃ e, c.serialize m = .error e) ∧ ansId m = some i ∧ i ∈ S.invocationRequests) := by
  simp only [tokens, List.mem_append] at h ⊢
  have hup : ∀ b : Bool, i ∈ up.filterMap ansId → i ∈ (if b then up ++ [m] else up).filterMap ansId := by
    intro b hb; cases b
    · exact hb
    · simp only [if_true, List.filterMap_append, List.mem_append]; exact .inl hb
  have same : (S.sendMessage c m).1.invocationRequests = S.invocationRequests →
      (i ∈ down.filterMap invId ∨ i ∈ (S.sendMessage c m).1.invocationRequests) ∨
      i ∈ (if returned (S.sendMessage c m).2 then up ++ [m] else up).filterMap ansId := by
    intro e; rw [e]
    rcases h with h | h
    · exact .inl h
    · exact .inr (hup _ h)
  have moved : ∀ j, ansId m = some j → (S.sendMessage c m).1.invocationRequests = S.invocationRequests.discard j →
      (S.sendMessage c m).2 = c.serialize m →
      ((i ∈ down.filterMap invId ∨ i ∈ (S.sendMessage c m).1.invocationRequests) ∨
      i ∈ (if returned (S.sendMessage c m).2 then up ++ [m] else up).filterMap ansId) ∨
      ((∃ e, c.serialize m = .error e) ∧ ansId m = some i ∧ i ∈ S.invocationRequests) := by
    intro j hj e hr; rw [e]
    rcases h with (h | h) | h
    · exact .inl (.inl (.inl h))
    · by_cases he : i = j
      · subst he
        cases hw : c.serialize m with
        | error x => exact .inr ⟨⟨x, rfl⟩, hj, h⟩
        | ok w =>
          left; right
          rw [hr, hw]; simp [returned, hj]
      · exact .inl (.inl (.inr (IdSet.mem_discard.2 ⟨h, he⟩)))
    · exact .inl (.inr (hup _ h))
  cases m
  case yield_ y =>
    by_cases hy : y.requestId.val ∈ S.invocationRequests
    · exact moved _ rfl (by simp only [WAMPSession.sendMessage, hy, if_true]) (by simp only [WAMPSession.sendMessage, hy, if_true])
    · exact .inl (same (by simp only [WAMPSession.sendMessage, hy, if_false]))
  case error e =>
    by_cases ht : e.messageType.val ≠ Invocation.TYPE
    · exact .inl (same (by simp only [WAMPSession.sendMessage, if_pos ht]))
    · exact moved _ rfl (by simp only [WAMPSession.sendMessage, if_neg ht]) (by simp only [WAMPSession.sendMessage, if_neg ht])
  case publish p => exact .inl (same (by simp only [WAMPSession.sendMessage]; split <;> rfl))
  all_goals exact .inl (same rfl)

theorem tokens_deliver_ge {S : WAMPSession} {up rest : List Message} {m : Message}
    (ha : isRpc m = true → (S.receiveMessage m).2 = .ok m) (i : Int) (h : i ∈ tokens S up (m :: rest)) :
    i ∈ tokens (S.receiveMessage m).1 up rest := by
  cases hi : invId m with
  | none =>
    unfold tokens at h ⊢
    rw [recv_inv S m hi]
    simpa only [List.filterMap_cons, hi] using h
  | some j =>
    cases m <;> simp only [invId, reduceCtorEq] at hi
    case invocation m =>
      have hr : m.registrationId.val ∈ S.registrations := by
        by_cases e : m.registrationId.val ∈ S.registrations
        · exact e
        · have := ha rfl; simp only [WAMPSession.receiveMessage, e, if_false] at this; cases this
      have hS : (S.receiveMessage (.invocation m)).1.invocationRequests = S.invocationRequests.add m.requestId.val := by
        simp only [WAMPSession.receiveMessage, hr, if_true]
      simp only [tokens, List.mem_append, List.filterMap_cons, invId, List.mem_cons] at h ⊢
      rw [hS, IdSet.mem_add]
      rcases h with ((h | h) | h) | h
      · exact .inl (.inr (.inl h))
      · exact .inl (.inl h)
      · exact .inl (.inr (.inr h))
      · exact .inr h

/-- Every outstanding CALL is somewhere, or it is lost (`L`). -/
def Served (L : Int → Int → Prop) (n : Net W) : Prop :=
  ∀ s k r, n.conns s = some k → (WAMPSession.after c k.calls).has .call r →
    (.call, r) ∈ inFlight rpc k.up k.down ∨
      (∃ x ∈ pendings n.dealer, x.caller = s ∧ x.request.val = r ∧ Live c n.conns x) ∨ L s r

/-- What is lost stays lost, as long as the caller waits. -/
def Keeps (n : Net W) (L L' : Int → Int → Prop) : Prop :=
  ∀ s k r, n.conns s = some k → (WAMPSession.after c k.calls).has .call r → L s r → L' s r

variable {c}

theorem served_route {n : Net W} {L L' : Int → Int → Prop} (hL : Keeps c n L L') (h : Served c L n) {s : Int} {k : Conn W} (hk : n.conns s = some k) {m : Message}
    {rest : List Message} (hu : k.up = m :: rest) (B : List Broker.Op) (D : List Dealer.Op) (out : List (Int × Message))
    (hreq : ∀ r, requestOf m = some (.call, r) → (∃ b, (s, b) ∈ out ∧ replyTo b = some (.call, r)) ∨
      ∃ x ∈ pendings D, x.caller = s ∧ x.request.val = r ∧
        Live c ((⟨B, D, (n.setConn s (some { k with up := rest })).conns⟩ : Net W).push out).conns x)
    (hp : ∀ x ∈ pendings n.dealer, Live c n.conns x →
      (x ∈ pendings D ∧ (x.callee = s → ansId m ≠ some x.inv)) ∨
      ∃ b, (x.caller, b) ∈ out ∧ replyTo b = some (.call, x.request.val)) :
    Served c L' ((⟨B, D, (n.setConn s (some { k with up := rest })).conns⟩ : Net W).push out) := by
  intro s' k' r hk' hh
  obtain ⟨k0, h0, h1, h2, h3⟩ := route_some hk hk'
  rw [h1] at hh
  have answered : (∃ b, (s', b) ∈ out ∧ replyTo b = some (.call, r)) → (.call, r) ∈ inFlight rpc k'.up k'.down := by
    rintro ⟨b, g1, g2⟩
    exact mem_inFlight.2 ⟨rfl, .inr ⟨b, by rw [h3]; exact List.mem_append_right _ (mem_inbox.2 g1), g2⟩⟩
  rcases h s' k0 r h0 hh with hf | ⟨x, hx, rfl, rfl, hlv⟩ | hlost
  · rcases mem_inFlight.1 hf with ⟨-, ⟨m', hm', e⟩ | ⟨m', hm', e⟩⟩
    · rcases h2 with ⟨rfl, h2⟩ | ⟨-, h2⟩
      · rw [hk] at h0; cases h0
        rw [hu] at hm'
        rcases List.mem_cons.1 hm' with rfl | hm'
        · rcases hreq r e with g | g
          · exact .inl (answered g)
          · exact .inr (.inl g)
        · exact .inl (mem_inFlight.2 ⟨rfl, .inl ⟨m', by rw [h2]; exact hm', e⟩⟩)
      · exact .inl (mem_inFlight.2 ⟨rfl, .inl ⟨m', by rw [h2]; exact hm', e⟩⟩)
    · exact .inl (mem_inFlight.2 ⟨rfl, .inr ⟨m', by rw [h3]; exact List.mem_append_left _ hm', e⟩⟩)
  · rcases hp x hx hlv with ⟨g1, g2⟩ | g
    · refine .inr (.inl ⟨x, g1, rfl, rfl, ?_⟩)
      obtain ⟨kt, ht, htok⟩ := hlv
      by_cases e : x.callee = s
      · refine ⟨⟨k.calls, rest, k.down ++ inbox out x.callee⟩, ?_, ?_⟩
        · rw [conns_push]
          simp only [setConn_conns, e, if_true, Option.map_some]
        · rw [e, hk] at ht; cases ht
          rw [hu] at htok
          have hne := g2 e
          simp only [tokens, List.mem_append, List.filterMap_append, List.filterMap_cons] at htok ⊢
          rcases htok with (htok | htok) | htok
          · exact .inl (.inl (.inl htok))
          · exact .inl (.inr htok)
          · right
            cases ha : ansId m with
            | none => rw [ha] at htok; exact htok
            | some j =>
              rw [ha] at htok hne
              rcases List.mem_cons.1 htok with e' | htok
              · rw [e'] at hne; exact absurd rfl hne
              · exact htok
      · refine ⟨⟨kt.calls, kt.up, kt.down ++ inbox out x.callee⟩, ?_, ?_⟩
        · rw [conns_push]
          simp only [setConn_conns, e, if_false, ht, Option.map_some]
        · simp only [tokens, List.mem_append, List.filterMap_append] at htok ⊢
          rcases htok with (htok | htok) | htok
          · exact .inl (.inl (.inl htok))
          · exact .inl (.inr htok)
          · exact .inr htok
    · exact .inl (answered g)
  · exact .inr (.inr (hL s' k0 r h0 hh hlost))

/-- Whoever holds a registration is connected. -/
theorem held_conn {n : Net W} {N : Nat} (hb : Base n N) (hN : N < 2 ^ 53) {t i : Int} (h : HeldD n.dealer t i) :
    (n.conns t).isSome := (hb.dk t).1 (heldD_known (Nat.lt_of_le_of_lt hb.dl hN) h)

theorem served_call {n : Net W} {N : Nat} (hb : Base n N) (hN : N < 2 ^ 53) (hi : RpcInv c n) {L L' : Int → Int → Prop}
    (hL : Keeps c n L L') (h : Served c L n) {s : Int}
    {k : Conn W} (hk : n.conns s = some k) {m : Call} {rest : List Message} (hu : k.up = .call m :: rest) :
    Served c L' ((⟨n.broker, n.dealer ++ [.receiveMessage s (.call m)], (n.setConn s (some { k with up := rest })).conns⟩ : Net W).push
      (dealerOut (Dealer.outcome n.dealer (.receiveMessage s (.call m))))) := by
  have hl : n.dealer.length < 2 ^ 53 := Nat.lt_of_le_of_lt hb.dl hN
  have hd := Dealer.C30_ids_not_exhausted _ hl
  have hplain := hi.plain s k m hk (by rw [hu]; exact List.mem_cons_self ..)
  obtain ⟨hr, hc⟩ := rels n.dealer hl
  have hwf := Dealer.wf_after n.dealer
  cases hp : (Dealer.after n.dealer).registrationsByProcedure.get m.procedure with
  | none =>
    have hcl := Dealer.call_none _ s m hp
    have ho : Dealer.outcome n.dealer (.receiveMessage s (.call m)) = _ := congrArg Prod.snd hcl
    rw [ho]
    simp only [dealerOut]
    have hsame : pendings (n.dealer ++ [.receiveMessage s (.call m)]) = pendings n.dealer := by
      rw [pendings_snoc, ho]; rfl
    refine served_route hL h hk hu _ _ _ ?_ ?_
    · intro r e; cases e
      exact .inl ⟨_, List.mem_singleton.2 rfl, by simp [replyTo, kindOfCode, Call.TYPE, PyInt.val]⟩
    · intro x hx _; exact .inl ⟨by rw [hsame]; exact hx, fun _ => (by simp [ansId])⟩
  | some r =>
    obtain ⟨-, ⟨q, hq⟩, -⟩ := hwf.proc _ _ hp
    have hcl := Dealer.call_new _ s m r q hp hq (.inl hplain)
    have ho : Dealer.outcome n.dealer (.receiveMessage s (.call m)) = _ := congrArg Prod.snd hcl
    have hid : (Dealer.after n.dealer).idgen.next.2 = ((Rpc.view (Dealer.trace n.dealer)).drawn : Int) + 1 := by
      rw [hc.gen, Dealer.idgen_next]; exact Dealer.draw_small hd
    have hnew : ∀ x ∈ (Rpc.view (Dealer.trace n.dealer)).issued, x.inv ≠ (Dealer.after n.dealer).idgen.next.2 := by
      intro x hx e; have := hc.range x hx; omega
    have hpend : pendings (n.dealer ++ [.receiveMessage s (.call m)]) = pendings n.dealer ++
        [⟨(Dealer.after n.dealer).idgen.next.2, s, m.requestId, q, PyDict.flag m.options "receive_progress"⟩] := by
      rw [pendings_snoc, ho, Dealer.next_call_new hnew]
    have hqc : (n.conns q).isSome := held_conn hb hN ⟨m.procedure, (hr.held _ _ _).2 ⟨r, hp, hq, rfl⟩⟩
    rw [ho]
    simp only [dealerOut]
    refine served_route hL h hk hu _ _ _ ?_ ?_
    · intro r' e; cases e
      refine .inr ⟨_, by rw [hpend]; exact List.mem_append_right _ (List.mem_singleton.2 rfl), rfl, rfl, ?_⟩
      have : ∃ k1, (n.setConn s (some { k with up := rest })).conns q = some k1 := by
        rw [setConn_conns]; split
        · exact ⟨_, rfl⟩
        · exact Option.isSome_iff_exists.1 hqc
      obtain ⟨k1, hk1⟩ := this
      refine ⟨_, by rw [conns_push, hk1]; rfl, ?_⟩
      refine mem_tokens_down (m := .invocation (Dealer.invocationFor m (Dealer.after n.dealer).idgen.next.2
        ((Dealer.after n.dealer).heap r).id)) ?_ rfl
      simp only
      exact List.mem_append_right _ (mem_inbox.2 (List.mem_singleton.2 rfl))
    · intro x hx _; exact .inl ⟨by rw [hpend]; exact List.mem_append_left _ hx, fun _ => (by simp [ansId])⟩

theorem served_answer {n : Net W} (hl : n.dealer.length < 2 ^ 53) (hi : RpcInv c n) {L L' : Int → Int → Prop}
    (hL : Keeps c n L L') (h : Served c L n) {s : Int}
    {k : Conn W} (hk : n.conns s = some k) {m : Message} {rest : List Message} (hu : k.up = m :: rest) {op : Dealer.Op}
    (hop : dealerCall s m = some op) {i : Int} (ha : ansId m = some i) :
    Served c L' ((⟨n.broker, n.dealer ++ [op], (n.setConn s (some { k with up := rest })).conns⟩ : Net W).push
      (dealerOut (Dealer.outcome n.dealer op))) := by
  obtain ⟨x, hx, rfl, rfl, hw, hni⟩ := answer_head hi hk hu ha
  have hop' : op = .receiveMessage x.callee m := by
    cases m <;> simp only [ansId, reduceCtorEq] at ha <;> (cases hop; rfl)
  subst hop'
  obtain ⟨a, ho, a1, a2, a3, f1, f2, f3⟩ := answer_facts n.dealer hl hx hw.map ha
    (fun e e' => hi.errs _ k e hk (by rw [hu, e']; exact List.mem_cons_self ..))
  rw [ho]
  simp only [dealerOut]
  refine served_route hL h hk hu _ _ _ ?_ ?_
  · intro r e; cases m <;> simp only [ansId, reduceCtorEq] at ha <;> cases e
  · intro z hz _
    by_cases e : z = x
    · subst e; exact .inr ⟨a, List.mem_singleton.2 rfl, a3⟩
    · refine .inl ⟨f2 z hz e, ?_⟩
      intro _ e'
      rw [ha] at e'
      exact e (pending_inj hl hz hx (Option.some.inj e').symm)

variable (c)

theorem served_snoc {n : Net W} {N : Nat} (hb : Base n N) (hN : N < 2 ^ 53) (hi : RpcInv c n) {L L' : Int → Int → Prop}
    (hL : Keeps c n L L') (h : Served c L n) (a : Act)
    (hleave : ∀ x ∈ pendings n.dealer, Live c n.conns x → a = .leave x.callee → (n.conns x.caller).isSome →
      L' x.caller x.request.val)
    (hcall : ∀ s m e, a = .send s (.call m) → c.serialize (.call m) = .error e → (n.conns s).isSome → L' s m.requestId.val)
    (hans : ∀ x ∈ pendings n.dealer, ∀ k m e, n.conns x.callee = some k → a = .send x.callee m →
      c.serialize m = .error e → ansId m = some x.inv → x.inv ∈ (WAMPSession.after c k.calls).invocationRequests →
      (n.conns x.caller).isSome → L' x.caller x.request.val) : Served c L' (n.step c a) := by
  have hs := stepCase c hb hN a
  generalize n.step c a = n' at hs ⊢
  have hl : n.dealer.length < 2 ^ 53 := Nat.lt_of_le_of_lt hb.dl hN
  -- the dealer's pending calls only grow, and the clients' tokens too, or the call is lost
  have grow : ∀ n' : Net W, (∀ x ∈ pendings n.dealer, x ∈ pendings n'.dealer) →
      (∀ x ∈ pendings n.dealer, ∀ k, (n.conns x.caller).isSome → n.conns x.callee = some k →
        x.inv ∈ tokens (WAMPSession.after c k.calls) k.up k.down → L' x.caller x.request.val ∨ ∃ k', n'.conns x.callee = some k' ∧
          x.inv ∈ tokens (WAMPSession.after c k'.calls) k'.up k'.down) →
      (∀ s k' r, n'.conns s = some k' → (WAMPSession.after c k'.calls).has .call r →
        (.call, r) ∈ inFlight rpc k'.up k'.down ∨ L' s r ∨ ∃ k, n.conns s = some k ∧ (WAMPSession.after c k.calls).has .call r ∧
          ((.call, r) ∈ inFlight rpc k.up k.down → (.call, r) ∈ inFlight rpc k'.up k'.down)) → Served c L' n' := by
    intro n' h1 h2 h3 s k' r hk' hh
    rcases h3 s k' r hk' hh with g | g | ⟨k, g1, g2, g3⟩
    · exact .inl g
    · exact .inr (.inr g)
    · rcases h s k r g1 g2 with g | ⟨x, hx, e1, e2, kt, ht, htok⟩ | hlost
      · exact .inl (g3 g)
      · rcases h2 x hx kt (by rw [e1, g1]; rfl) ht htok with g | ⟨kt', ht', hsub⟩
        · rw [e1, e2] at g; exact .inr (.inr g)
        · exact .inr (.inl ⟨x, h1 x hx, e1, e2, kt', ht', hsub⟩)
      · exact .inr (.inr (hL s k r g1 g2 hlost))
  cases hs with
  | idle => exact grow n (fun x hx => hx) (fun x _ k _ hk ht => .inr ⟨k, hk, ht⟩) (fun s k r hk hh => .inr (.inr ⟨k, hk, hh, fun h => h⟩))
  | joinFail d eb ed h1 h2 h3 =>
    have hs := calls_same (ops := n.dealer) (op := .addSession d) (by simp) (by simp) (by simp)
    exact grow _ (fun x hx => by rw [hs.1]; exact hx) (fun x _ k _ hk ht => .inr ⟨k, hk, ht⟩)
      (fun s k r hk hh => .inr (.inr ⟨k, hk, hh, fun h => h⟩))
  | join d h1 h2 h3 =>
    have hs := calls_same (ops := n.dealer) (op := .addSession d) (by simp) (by simp) (by simp)
    refine grow _ (fun x hx => by rw [hs.1]; exact hx) ?_ ?_
    · intro x _ k _ hk ht
      refine .inr ⟨k, ?_, ht⟩
      simp only
      rw [if_neg]
      · exact hk
      · intro e; rw [e, h1] at hk; cases hk
    · intro s k r hk hh
      simp only at hk
      split at hk
      · cases hk; cases hh
      · exact .inr (.inr ⟨k, hk, hh, fun h => h⟩)
  | leaveFail s eb ed h1 h2 h3 =>
    have hs := calls_same (ops := n.dealer) (op := .removeSession s) (by simp) (by simp) (by simp)
    exact grow _ (fun x hx => by rw [hs.1]; exact hx) (fun x _ k _ hk ht => .inr ⟨k, hk, ht⟩)
      (fun s k r hk hh => .inr (.inr ⟨k, hk, hh, fun h => h⟩))
  | leave s k0 h1 h2 h3 =>
    have hs := calls_same (ops := n.dealer) (op := .removeSession s) (by simp) (by simp) (by simp)
    refine grow _ (fun x hx => by rw [hs.1]; exact hx) ?_ ?_
    · intro x hx k hc hk ht
      by_cases e : x.callee = s
      · exact .inl (hleave x hx ⟨k, hk, ht⟩ (by rw [e]) hc)
      · exact .inr ⟨k, by simp only [e, if_false]; exact hk, ht⟩
    · intro s' k r hk hh
      simp only at hk
      split at hk
      · cases hk
      · exact .inr (.inr ⟨k, hk, hh, fun h => h⟩)
  | send s m k0 h1 =>
    have ho : returned (WAMPSession.outcome c k0.calls (.sendMessage m)) =
        returned ((WAMPSession.after c k0.calls).sendMessage c m).2 := by
      simp only [WAMPSession.outcome, WAMPSession.step]
      cases ((WAMPSession.after c k0.calls).sendMessage c m).2 <;> rfl
    refine grow _ (fun x hx => hx) ?_ ?_
    · intro x hx k hc hk ht
      by_cases e : x.callee = s
      · subst e
        rw [h1] at hk; cases hk
        rcases tokens_send_ge c _ _ _ m _ ht with g | ⟨⟨e, he⟩, g1, g2⟩
        · refine .inr ⟨_, if_pos rfl, ?_⟩
          simp only [after_send, ho]; exact g
        · exact .inl (hans x hx _ m e h1 rfl he g1 g2 hc)
      · exact .inr ⟨k, by simp only [e, if_false]; exact hk, ht⟩
    · intro s' k' r hk' hh
      simp only at hk'
      split at hk'
      · rename_i e; subst e; cases hk'
        simp only [after_send, WAMPSession.has_send] at hh
        rcases hh with hh | hh
        · have hm : ∃ x, m = .call x ∧ x.requestId.val = r := by
            cases m <;> simp only [requestOf] at hh <;> try cases hh
            · exact ⟨_, rfl, rfl⟩
            · split at hh <;> cases hh
          obtain ⟨x, rfl, rfl⟩ := hm
          cases hw : c.serialize (.call x) with
          | error e => exact .inr (.inl (hcall _ x e rfl hw (by rw [h1]; rfl)))
          | ok w =>
            have hret : returned (WAMPSession.outcome c k0.calls (.sendMessage (.call x))) = true := by
              rw [ho, show (WAMPSession.sendMessage c _ (.call x)).2 = c.serialize _ from rfl, hw]; rfl
            refine .inl (mem_inFlight.2 ⟨rfl, .inl ⟨.call x, ?_, rfl⟩⟩)
            simp only [hret, if_true]; simp
        · right; right
          refine ⟨k0, h1, hh, ?_⟩
          intro hf
          rw [mem_inFlight] at hf ⊢
          rcases hf with ⟨-, ⟨m', hm', e⟩ | h'⟩
          · refine ⟨rfl, .inl ⟨m', ?_, e⟩⟩
            simp only; split
            · exact List.mem_append_left _ hm'
            · exact hm'
          · exact ⟨rfl, .inr h'⟩
      · exact .inr (.inr ⟨k', hk', hh, fun h => h⟩)
  | deliver s m k0 rest h1 h2 =>
    have ha := ((hi.conn s k0 h1).deliver h2).1
    refine grow _ (fun x hx => hx) ?_ ?_
    · intro x hx k hc hk ht
      by_cases e : x.callee = s
      · subst e
        rw [h1] at hk; cases hk
        refine .inr ⟨_, if_pos rfl, ?_⟩
        rw [h2] at ht
        simp only [after_recv]
        exact tokens_deliver_ge ha _ ht
      · exact .inr ⟨k, by simp only [e, if_false]; exact hk, ht⟩
    · intro s' k' r hk' hh
      simp only at hk'
      split at hk'
      · rename_i e; subst e; cases hk'
        simp only [after_recv, WAMPSession.has_recv] at hh
        refine .inr (.inr ⟨k0, h1, hh.1, ?_⟩)
        intro hf
        rw [mem_inFlight] at hf ⊢
        rcases hf with ⟨-, h' | ⟨m', hm', e⟩⟩
        · exact ⟨rfl, .inl h'⟩
        · rw [h2] at hm'
          rcases List.mem_cons.1 hm' with rfl | hm'
          · exact absurd e hh.2
          · exact ⟨rfl, .inr ⟨m', hm', e⟩⟩
      · exact .inr (.inr ⟨k', hk', hh, fun h => h⟩)
  | routeB s m k0 rest op h1 h2 h3 =>
    refine served_route hL h h1 h2 (n.broker ++ [op]) n.dealer _ ?_ (fun x hx _ => .inl ⟨hx, fun _ => ?_⟩)
    · intro r e; cases m <;> simp only [brokerCall, reduceCtorEq] at h3 <;> simp only [requestOf] at e
      all_goals first | cases e; done | (split at e <;> cases e)
    · cases m <;> simp only [brokerCall, reduceCtorEq] at h3 <;> simp [ansId]
  | routeD s m k0 rest op h1 h2 h3 =>
    have hreg : (∃ x, m = .register x) ∨ (∃ x, m = .unregister x) → op = .receiveMessage s m →
        Served c L' ((⟨n.broker, n.dealer ++ [op], (n.setConn s (some { k0 with up := rest })).conns⟩ : Net W).push
          (dealerOut (Dealer.outcome n.dealer op))) := by
      rintro hm rfl
      have hs := calls_same (ops := n.dealer) (op := .receiveMessage s m) (by rcases hm with ⟨x, rfl⟩ | ⟨x, rfl⟩ <;> simp)
        (by rcases hm with ⟨x, rfl⟩ | ⟨x, rfl⟩ <;> simp) (by rcases hm with ⟨x, rfl⟩ | ⟨x, rfl⟩ <;> simp)
      refine served_route hL h h1 h2 _ _ _ ?_ (fun x hx _ => .inl ⟨by rw [hs.1]; exact hx, fun _ => ?_⟩)
      · intro r e; rcases hm with ⟨x, rfl⟩ | ⟨x, rfl⟩ <;> cases e
      · rcases hm with ⟨x, rfl⟩ | ⟨x, rfl⟩ <;> simp [ansId]
    cases m <;> simp only [dealerCall, reduceCtorEq, Option.some.injEq] at h3
    case call m => subst h3; exact served_call hb hN hi hL h h1 h2
    case yield_ m => subst h3; exact served_answer hl hi hL h h1 h2 rfl rfl
    case error m => subst h3; exact served_answer hl hi hL h h1 h2 rfl rfl
    case register m => exact hreg (.inl ⟨m, rfl⟩) h3.symm
    case unregister m => exact hreg (.inr ⟨m, rfl⟩) h3.symm
  | routeX s m k0 rest h1 h2 h3 h4 h5 =>
    refine grow _ (fun x hx => hx) ?_ ?_
    · intro x hx k hc hk ht
      by_cases e : x.callee = s
      · subst e
        rw [h1] at hk; cases hk
        refine .inr ⟨_, if_pos rfl, ?_⟩
        have ha : ansId m = none := by
          cases m <;> first | rfl | exact absurd rfl (h4 _) | exact absurd rfl (h5 _)
        rw [h2] at ht
        simpa [tokens, ha] using ht
      · exact .inr ⟨k, by simp only [e, if_false]; exact hk, ht⟩
    · intro s' k' r hk' hh
      simp only at hk'
      split at hk'
      · rename_i e; subst e; cases hk'
        refine .inr (.inr ⟨k0, h1, hh, ?_⟩)
        intro hf
        rw [h2, inFlight_cons_up, h3] at hf
        simpa using hf
      · exact .inr (.inr ⟨k', hk', hh, fun h => h⟩)

variable {c}

theorem Chain.mono {start : List Act} {es : List Ev} {q : List Act} (h : Chain start es q) (r : List Act) :
    Chain start es (q ++ r) := by
  cases es with
  | nil => trivial
  | cons e es =>
    obtain ⟨q', a, r', rfl, h1, h2⟩ := h
    exact ⟨q', a, r' ++ r, by simp, h1, h2⟩

theorem Chain.drop {start : List Act} {es es' : List Ev} : ∀ {post : List Act}, Chain start (es' ++ es) post → Chain start es post := by
  induction es' with
  | nil => exact fun h => h
  | cons e es' ih => rintro _ ⟨q, a, r, rfl, -, h⟩; exact (ih h).mono _

theorem Story.drop {sched : List Act} {s : Int} {m : Call} {es es' : List Ev} (h : Story sched s m (es' ++ es)) :
    Story sched s m es := by
  obtain ⟨pre, post, h1, h2, h3⟩ := h
  exact ⟨pre, post, h1, h2, h3.drop⟩

theorem Lost.snoc {sched : List Act} {s r : Int} (h : Lost c sched s r) {a : Act} (ha : NotCall s r a) :
    Lost c (sched ++ [a]) s r := by
  obtain ⟨m, rfl, h⟩ := h
  refine ⟨m, rfl, ?_⟩
  rcases h with ⟨h1, h2⟩ | ⟨t, h⟩ | ⟨t, inv, b, h1, h2, h3, h4⟩
  · exact .inl ⟨h1, h2.snoc ha⟩
  · exact .inr (.inl ⟨t, h.snoc ha⟩)
  · exact .inr (.inr ⟨t, inv, b, h1, h2, h3, h4.snoc ha⟩)

/-- The story of a call that a client has in its hands. -/
theorem token_story {sched : List Act} {n : Net W} (hdl : n.dealer.length < 2 ^ 53) (hist : Hist c sched n)
    {x : Rpc.Pending} (hx : x ∈ pendings n.dealer) (hc : (n.conns x.caller).isSome) {kt : Conn W} (ht : n.conns x.callee = some kt)
    (htok : x.inv ∈ tokens (WAMPSession.after c kt.calls) kt.up kt.down) :
    ∃ m inv, m.requestId.val = x.request.val ∧ SameContent m inv ∧ inv.requestId.val = x.inv ∧
      ((.invocation inv ∈ kt.down ∧ Story sched x.caller m [RoutesTo c x.caller m x.callee]) ∨
      (x.inv ∈ (WAMPSession.after c kt.calls).invocationRequests ∧
        Story sched x.caller m [Receives c x.callee (.invocation inv), RoutesTo c x.caller m x.callee]) ∨
      ∃ a ∈ kt.up, ansId a = some x.inv ∧
        Story sched x.caller m [Sends x.callee a, Receives c x.callee (.invocation inv), RoutesTo c x.caller m x.callee]) := by
  have same : ∀ {es inv}, TokOk c sched n.dealer n.conns x.callee x.inv es inv →
      ∃ m, m.requestId.val = x.request.val ∧ SameContent m inv ∧ inv.requestId.val = x.inv ∧
        Story sched x.caller m (es ++ [RoutesTo c x.caller m x.callee]) := by
    rintro es inv ⟨y, hy, e1, -, e3, m, e4, e5, e6⟩
    cases pending_inj hdl hy hx e1
    exact ⟨m, by rw [e4], e5, e3, e6 hc⟩
  simp only [tokens, List.mem_append, List.mem_filterMap] at htok
  rcases htok with (⟨b, hb', e⟩ | htok) | ⟨a, ha, e⟩
  · cases b <;> simp only [invId, reduceCtorEq, Option.some.injEq] at e
    rename_i inv
    have := hist.inv _ kt inv ht hb'
    rw [e] at this
    obtain ⟨m, g1, g2, g3, g4⟩ := same this
    exact ⟨m, inv, g1, g2, g3, .inl ⟨hb', g4⟩⟩
  · obtain ⟨inv, this⟩ := hist.hand _ kt _ ht htok
    obtain ⟨m, g1, g2, g3, g4⟩ := same this
    exact ⟨m, inv, g1, g2, g3, .inr (.inl ⟨htok, g4⟩)⟩
  · obtain ⟨inv, this⟩ := hist.ans _ kt a _ ht ha e
    obtain ⟨m, g1, g2, g3, g4⟩ := same this
    exact ⟨m, inv, g1, g2, g3, .inr (.inr ⟨a, ha, e, g4⟩)⟩

theorem answerTo_of {a : Message} {i : Int} (h : ansId a = some i) : AnswerTo i a := by
  cases a <;> simp only [ansId, reduceCtorEq, Option.some.injEq] at h <;> exact h

variable (c)

theorem served_run (sched : List Act) : sched.length ≤ 2 ^ 53 → GoodClients c sched →
    Served c (Lost c sched) (run c sched) := by
  induction sched using snoc_induction with
  | nil => intro _ _ s k r hk; cases hk
  | snoc sched a ih =>
    intro hl hg
    have h1 : sched.length + 1 ≤ 2 ^ 53 := by rw [List.length_append] at hl; exact hl
    have hg' := hg.init
    have hb := base_run c sched (by omega)
    have hi := rpc_run c sched (by omega) hg'
    have hist := hist_run c sched (by omega) hg'
    have hdl : (run c sched).dealer.length < 2 ^ 53 := Nat.lt_of_le_of_lt hb.dl (by omega)
    have hf : ∀ s m, a = .send s m → ∀ k, (run c sched).conns s = some k → ∀ kd i, requestOf m = some (kd, i) → rpc kd = true →
        ¬ Outstanding c k.calls kd i := by
      rintro s m rfl k hk kd i e1 e2; exact hg.fresh sched s m [] rfl k hk kd i e1 e2
    have hnc : ∀ x ∈ pendings (run c sched).dealer, Live c (run c sched).conns x → ((run c sched).conns x.caller).isSome →
        NotCall x.caller x.request.val a := by
      rintro x hx ⟨k, hk, ht⟩ hc
      exact (tok_keep (n' := run c sched) hdl hi hf (fun _ _ h => h) hk ht (fun x hx _ _ => hx) x hx rfl rfl).2 hc |>.2
    rw [run_snoc]
    refine served_snoc c hb (by omega) hi ?_ (ih (by omega) hg') a ?_ ?_ ?_
    · intro s k r hk hh hlost
      refine hlost.snoc ?_
      rintro m rfl rfl
      exact hf s _ rfl k hk .call _ rfl rfl ((WAMPSession.has_after c k.calls _ _).1 hh)
    · intro x hx hlv e hc
      have hn := hnc x hx hlv hc
      obtain ⟨k, hk, ht⟩ := hlv
      obtain ⟨m, inv, g1, -, -, g⟩ := token_story hdl hist hx hc hk ht
      have : Story sched x.caller m [RoutesTo c x.caller m x.callee] := by
        rcases g with ⟨-, g⟩ | ⟨-, g⟩ | ⟨b, -, -, g⟩
        · exact g
        · exact g.drop (es' := [_])
        · exact g.drop (es' := [_, _])
      exact ⟨m, g1, .inr (.inl ⟨x.callee, this.ext e (by rw [g1]; exact hn)⟩)⟩
    · rintro s m e rfl he hc
      exact ⟨m, rfl, .inl ⟨⟨e, he⟩, .start ..⟩⟩
    · rintro x hx k m e hk ha he hm hin hc
      have hlv : Live c (run c sched).conns x := ⟨k, hk, mem_tokens_hand hin⟩
      have hn := hnc x hx hlv hc
      obtain ⟨inv, y, hy, e1, -, e3, m', e4, e5, e6⟩ := hist.hand _ k _ hk hin
      cases pending_inj hdl hy hx e1
      exact ⟨m', by rw [e4], .inr (.inr ⟨x.callee, inv, m, e5, by rw [e3]; exact answerTo_of hm, ⟨e, he⟩,
        (e6 hc).ext ha (by rw [← e4]; exact hn)⟩)⟩

end Wamp.Spec.Net
