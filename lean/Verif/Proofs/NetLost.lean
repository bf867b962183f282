import Verif.Proofs.NetLive

/-! # The network: a call that is nowhere stays unanswered -/

namespace Wamp.Spec.Net
open Wamp.Spec.Ses

variable {W : Type} (c : Codec W)

/-- Client `s` waits for an answer to CALL `r`, and nobody has anything to do with it. -/
def Stuck (n : Net W) (s r : Int) : Prop :=
  ∃ k, n.conns s = some k ∧ (WAMPSession.after c k.calls).has .call r ∧ (.call, r) ∉ inFlight rpc k.up k.down ∧
    ∀ x ∈ pendings n.dealer, x.caller = s → x.request.val = r → ¬ Live c n.conns x

variable {c}

theorem stuck_route {n : Net W} {s0 r : Int} (h : Stuck c n s0 r) {s : Int} {k : Conn W} (hk : n.conns s = some k) {m : Message}
    {rest : List Message} (hu : k.up = m :: rest) (B : List Broker.Op) (D : List Dealer.Op) (out : List (Int × Message))
    (hout : ∀ b, (s0, b) ∈ out → replyTo b ≠ some (.call, r))
    (hp : ∀ x ∈ pendings D, x.caller = s0 → x.request.val = r → x ∈ pendings n.dealer)
    (hinv : ∀ q b, (q, b) ∈ out → ∀ i, invId b = some i → ∀ x ∈ pendings n.dealer, x.inv ≠ i) :
    Stuck c ((⟨B, D, (n.setConn s (some { k with up := rest })).conns⟩ : Net W).push out) s0 r := by
  obtain ⟨k0, h1, h2, h3, h4⟩ := h
  have hk1 : ∃ k1, (n.setConn s (some { k with up := rest })).conns s0 = some k1 ∧ k1.calls = k0.calls ∧ k1.down = k0.down ∧
      ∀ b ∈ k1.up, b ∈ k0.up := by
    rw [setConn_conns]
    split
    · rename_i e; subst e; rw [hk] at h1; cases h1
      exact ⟨_, rfl, rfl, rfl, fun b hb => by rw [hu]; exact List.mem_cons_of_mem _ hb⟩
    · exact ⟨k0, h1, rfl, rfl, fun _ h => h⟩
  obtain ⟨k1, g1, g2, g3, g4⟩ := hk1
  refine ⟨⟨k1.calls, k1.up, k1.down ++ inbox out s0⟩, by rw [conns_push]; simp only [g1, Option.map_some], by rw [g2]; exact h2, ?_, ?_⟩
  · rw [mem_inFlight] at h3 ⊢
    rintro ⟨-, ⟨b, hb, e⟩ | ⟨b, hb, e⟩⟩
    · exact h3 ⟨rfl, .inl ⟨b, g4 b hb, e⟩⟩
    · rcases List.mem_append.1 hb with hb | hb
      · rw [g3] at hb; exact h3 ⟨rfl, .inr ⟨b, hb, e⟩⟩
      · exact hout b (mem_inbox.1 hb) e
  · intro x hx e1 e2 hlv
    have hx' := hp x hx e1 e2
    refine h4 x hx' e1 e2 ?_
    obtain ⟨kt', ht', htok⟩ := hlv
    obtain ⟨kt, ht, rfl⟩ := push_some ht'
    refine live_pop hk hu ⟨kt, ht, ?_⟩
    simp only [tokens, List.mem_append, List.filterMap_append] at htok ⊢
    rcases htok with ((htok | htok) | htok) | htok
    · exact .inl (.inl htok)
    · obtain ⟨b, hb, e⟩ := List.mem_filterMap.1 htok
      exact absurd rfl (hinv _ b (mem_inbox.1 hb) _ e x hx')
    · exact .inl (.inr htok)
    · exact .inr htok

theorem stuck_call {n : Net W} (hl : n.dealer.length < 2 ^ 53) (hi : RpcInv c n) {s0 r0 : Int} (h : Stuck c n s0 r0) {s : Int}
    {k : Conn W} (hk : n.conns s = some k) {m : Call} {rest : List Message} (hu : k.up = .call m :: rest) :
    Stuck c ((⟨n.broker, n.dealer ++ [.receiveMessage s (.call m)], (n.setConn s (some { k with up := rest })).conns⟩ : Net W).push
      (dealerOut (Dealer.outcome n.dealer (.receiveMessage s (.call m))))) s0 r0 := by
  have hd := Dealer.C30_ids_not_exhausted _ hl
  have hplain := hi.plain s k m hk (by rw [hu]; exact List.mem_cons_self ..)
  obtain ⟨hr, hc⟩ := rels n.dealer hl
  have hwf := Dealer.wf_after n.dealer
  -- it is not this call
  have hne : ¬ (s = s0 ∧ m.requestId.val = r0) := by
    rintro ⟨rfl, rfl⟩
    obtain ⟨k0, h1, -, h3, -⟩ := h
    rw [hk] at h1; cases h1
    exact h3 (mem_inFlight.2 ⟨rfl, .inl ⟨.call m, by rw [hu]; exact List.mem_cons_self .., rfl⟩⟩)
  cases hp : (Dealer.after n.dealer).registrationsByProcedure.get m.procedure with
  | none =>
    have hcl := Dealer.call_none _ s m hp
    have ho : Dealer.outcome n.dealer (.receiveMessage s (.call m)) = _ := congrArg Prod.snd hcl
    rw [ho]
    simp only [dealerOut]
    have hsame : pendings (n.dealer ++ [.receiveMessage s (.call m)]) = pendings n.dealer := by
      rw [pendings_snoc, ho]; rfl
    refine stuck_route h hk hu _ _ _ ?_ (fun x hx _ _ => by rw [hsame] at hx; exact hx) ?_
    · intro b hb e
      cases List.mem_singleton.1 hb
      simp [replyTo, kindOfCode, Call.TYPE, PyInt.val] at e
      exact hne ⟨rfl, e⟩
    · intro q b hb i e
      cases List.mem_singleton.1 hb
      cases e
  | some r =>
    obtain ⟨-, ⟨q, hq⟩, -⟩ := hwf.proc _ _ hp
    have hcl := Dealer.call_new _ s m r q hp hq (.inl hplain)
    have ho : Dealer.outcome n.dealer (.receiveMessage s (.call m)) = _ := congrArg Prod.snd hcl
    have hid : (Dealer.after n.dealer).idgen.next.2 = ((Rpc.view (Dealer.trace n.dealer)).drawn : Int) + 1 := by
      rw [hc.gen, Dealer.idgen_next]; exact Dealer.draw_small hd
    have hnew : ∀ x ∈ (Rpc.view (Dealer.trace n.dealer)).issued, x.inv ≠ (Dealer.after n.dealer).idgen.next.2 := by
      intro x hx e; have := hc.range x hx; omega
    have hpend : pendings (n.dealer ++ [.receiveMessage s (.call m)]) = pendings n.dealer ++
        [⟨(Dealer.after n.dealer).idgen.next.2, s, m.requestId, q, PyDict.flag m.options "receive_progress"⟩] := by
      rw [pendings_snoc, ho, Dealer.next_call_new hnew]
    rw [ho]
    simp only [dealerOut]
    refine stuck_route h hk hu _ _ _ ?_ ?_ ?_
    · intro b hb e
      cases List.mem_singleton.1 hb
      cases e
    · intro x hx e1 e2
      rw [hpend] at hx
      rcases List.mem_append.1 hx with hx | hx
      · exact hx
      · cases List.mem_singleton.1 hx; exact absurd ⟨e1, e2⟩ hne
    · intro q' b hb i e x hx
      cases List.mem_singleton.1 hb
      simp only [invId, Dealer.invocationFor, PyInt.val, Option.some.injEq] at e
      rw [← e]; exact hnew x (hc.sub x hx)

theorem stuck_answer {n : Net W} (hl : n.dealer.length < 2 ^ 53) (hi : RpcInv c n) {s0 r0 : Int} (h : Stuck c n s0 r0) {s : Int}
    {k : Conn W} (hk : n.conns s = some k) {m : Message} {rest : List Message} (hu : k.up = m :: rest) {op : Dealer.Op}
    (hop : dealerCall s m = some op) {i : Int} (ha : ansId m = some i) :
    Stuck c ((⟨n.broker, n.dealer ++ [op], (n.setConn s (some { k with up := rest })).conns⟩ : Net W).push
      (dealerOut (Dealer.outcome n.dealer op))) s0 r0 := by
  obtain ⟨x, hx, rfl, rfl, hw, hni⟩ := answer_head hi hk hu ha
  have hop' : op = .receiveMessage x.callee m := by
    cases m <;> simp only [ansId, reduceCtorEq] at ha <;> (cases hop; rfl)
  subst hop'
  obtain ⟨a, ho, a1, a2, a3, f1, f2, f3⟩ := answer_facts n.dealer hl hx hw.map ha
    (fun e e' => hi.errs _ k e hk (by rw [hu, e']; exact List.mem_cons_self ..))
  rw [ho]
  simp only [dealerOut]
  refine stuck_route h hk hu _ _ _ ?_ (fun z hz _ _ => f1 z hz) ?_
  · intro b hb e
    cases List.mem_singleton.1 hb
    rw [a3] at e
    obtain ⟨k0, h1, -, -, h4⟩ := h
    refine h4 x hx rfl (by simpa using e) ⟨k, hk, ?_⟩
    rw [hu]; simp only [tokens, List.mem_append, List.filterMap_cons, ha]; exact .inr (List.mem_cons_self ..)
  · intro q b hb j e
    cases List.mem_singleton.1 hb
    rw [a1] at e; cases e

variable (c)

theorem stuck_snoc {n : Net W} {N : Nat} (hb : Base n N) (hN : N < 2 ^ 53) (hi : RpcInv c n) {s0 r0 : Int} (h : Stuck c n s0 r0)
    (a : Act) (hleave : a ≠ .leave s0)
    (hf : ∀ s m, a = .send s m → ∀ k, n.conns s = some k → ∀ kd i, requestOf m = some (kd, i) → rpc kd = true →
      ¬ Outstanding c k.calls kd i)
    (he : ∀ s m, a = .send s (.error m) → ∀ k, n.conns s = some k → m.messageType.val = 68 →
      Unanswered c (WAMPSession.trace c k.calls) m.requestId.val) : Stuck c (n.step c a) s0 r0 := by
  have hs := stepCase c hb hN a
  generalize n.step c a = n' at hs ⊢
  have hl : n.dealer.length < 2 ^ 53 := Nat.lt_of_le_of_lt hb.dl hN
  -- the dealer's pending calls stay, and the clients' tokens only shrink
  have shrink : ∀ n' : Net W, pendings n'.dealer = pendings n.dealer →
      (∀ s k', n'.conns s = some k' → ∀ i ∈ tokens (WAMPSession.after c k'.calls) k'.up k'.down,
        ∃ k, n.conns s = some k ∧ i ∈ tokens (WAMPSession.after c k.calls) k.up k.down) →
      (∀ k, n.conns s0 = some k → (WAMPSession.after c k.calls).has .call r0 → (.call, r0) ∉ inFlight rpc k.up k.down →
        ∃ k', n'.conns s0 = some k' ∧ (WAMPSession.after c k'.calls).has .call r0 ∧ (.call, r0) ∉ inFlight rpc k'.up k'.down) →
      Stuck c n' s0 r0 := by
    intro n' g1 g2 g3
    obtain ⟨k, h1, h2, h3, h4⟩ := h
    obtain ⟨k', f1, f2, f3⟩ := g3 k h1 h2 h3
    refine ⟨k', f1, f2, f3, ?_⟩
    intro x hx e1 e2 ⟨kt, ht, htok⟩
    rw [g1] at hx
    exact h4 x hx e1 e2 (g2 _ kt ht _ htok)
  cases hs with
  | idle => exact h
  | joinFail d eb ed h1 h2 h3 =>
    have hs := calls_same (ops := n.dealer) (op := .addSession d) (by simp) (by simp) (by simp)
    exact shrink _ hs.1 (fun s k hk i hi => ⟨k, hk, hi⟩) (fun k g1 g2 g3 => ⟨k, g1, g2, g3⟩)
  | join d h1 h2 h3 =>
    have hs := calls_same (ops := n.dealer) (op := .addSession d) (by simp) (by simp) (by simp)
    refine shrink _ hs.1 ?_ ?_
    · intro s k' hk' i hi
      simp only at hk'
      split at hk'
      · cases hk'; cases hi
      · exact ⟨k', hk', hi⟩
    · intro k g1 g2 g3
      refine ⟨k, ?_, g2, g3⟩
      simp only
      rw [if_neg]
      · exact g1
      · rintro rfl; rw [h1] at g1; cases g1
  | leaveFail s eb ed h1 h2 h3 =>
    have hs := calls_same (ops := n.dealer) (op := .removeSession s) (by simp) (by simp) (by simp)
    exact shrink _ hs.1 (fun s k hk i hi => ⟨k, hk, hi⟩) (fun k g1 g2 g3 => ⟨k, g1, g2, g3⟩)
  | leave s k0 h1 h2 h3 =>
    have hs := calls_same (ops := n.dealer) (op := .removeSession s) (by simp) (by simp) (by simp)
    refine shrink _ hs.1 ?_ ?_
    · intro s' k' hk' i hi
      simp only at hk'
      split at hk'
      · cases hk'
      · exact ⟨k', hk', hi⟩
    · intro k g1 g2 g3
      refine ⟨k, ?_, g2, g3⟩
      simp only
      rw [if_neg]
      · exact g1
      · rintro rfl; exact hleave rfl
  | send s m k0 h1 =>
    have ho : returned (WAMPSession.outcome c k0.calls (.sendMessage m)) =
        returned ((WAMPSession.after c k0.calls).sendMessage c m).2 := by
      simp only [WAMPSession.outcome, WAMPSession.step]
      cases ((WAMPSession.after c k0.calls).sendMessage c m).2 <;> rfl
    refine shrink _ rfl ?_ ?_
    · intro s' k' hk' i hti
      simp only at hk'
      split at hk'
      · rename_i e; subst e; cases hk'
        simp only [after_send, ho] at hti
        exact ⟨k0, h1, (tokens_send (c := c) (hi.nodup s' k0 h1) m (fun x e1 e2 => (WAMPSession.inv_after c k0.calls _).2
          (he s' x (by rw [e1]) k0 h1 e2))).2 i hti⟩
      · exact ⟨k', hk', hti⟩
    · intro k g1 g2 g3
      by_cases e : s0 = s
      · subst e
        rw [h1] at g1; cases g1
        refine ⟨_, if_pos rfl, ?_, ?_⟩
        · simp only [after_send, WAMPSession.has_send]; exact .inr g2
        · rw [mem_inFlight] at g3 ⊢
          rintro ⟨-, ⟨b, hb, e⟩ | ⟨b, hb, e⟩⟩
          · simp only at hb
            split at hb
            · rcases List.mem_append.1 hb with hb | hb
              · exact g3 ⟨rfl, .inl ⟨b, hb, e⟩⟩
              · cases List.mem_singleton.1 hb
                exact hf s0 _ rfl k0 h1 .call _ e rfl ((WAMPSession.has_after c k0.calls _ _).1 g2)
            · exact g3 ⟨rfl, .inl ⟨b, hb, e⟩⟩
          · exact g3 ⟨rfl, .inr ⟨b, hb, e⟩⟩
      · exact ⟨k, by simp only [e, if_false]; exact g1, g2, g3⟩
  | deliver s m k0 rest h1 h2 =>
    have ha := ((hi.conn s k0 h1).deliver h2).1
    have hn := hi.nodup s k0 h1
    rw [h2] at hn
    refine shrink _ rfl ?_ ?_
    · intro s' k' hk' i hti
      simp only at hk'
      split at hk'
      · rename_i e; subst e; cases hk'
        simp only [after_recv] at hti
        exact ⟨k0, h1, by rw [h2]; exact (tokens_deliver hn ha).2 i hti⟩
      · exact ⟨k', hk', hti⟩
    · intro k g1 g2 g3
      by_cases e : s0 = s
      · subst e
        rw [h1] at g1; cases g1
        rw [h2, mem_inFlight] at g3
        refine ⟨_, if_pos rfl, ?_, ?_⟩
        · simp only [after_recv, WAMPSession.has_recv]
          exact ⟨g2, fun e => g3 ⟨rfl, .inr ⟨m, List.mem_cons_self .., e⟩⟩⟩
        · rw [mem_inFlight]
          rintro ⟨-, hb | ⟨b, hb, e⟩⟩
          · exact g3 ⟨rfl, .inl hb⟩
          · exact g3 ⟨rfl, .inr ⟨b, List.mem_cons_of_mem _ hb, e⟩⟩
      · exact ⟨k, by simp only [e, if_false]; exact g1, g2, g3⟩
  | routeB s m k0 rest op h1 h2 h3 =>
    have hmsg : ∀ q a, (q, a) ∈ brokerOut (Broker.outcome n.broker op) → invId a = none ∧
        ∀ k i, replyTo a = some (k, i) → rpc k = false := by
      intro q a hqa
      have hp := brokerOut_isPub n.broker op _ hqa
      refine ⟨?_, (isPub_effects hp).2⟩
      cases a <;> first | rfl | cases hp
    refine stuck_route h h1 h2 (n.broker ++ [op]) n.dealer _ ?_ (fun x hx _ _ => hx) ?_
    · intro b hb e; cases (hmsg _ b hb).2 _ _ e
    · intro q b hb i e; rw [(hmsg q b hb).1] at e; cases e
  | routeD s m k0 rest op h1 h2 h3 =>
    have hreg : (∃ x, m = .register x) ∨ (∃ x, m = .unregister x) → op = .receiveMessage s m →
        Stuck c ((⟨n.broker, n.dealer ++ [op], (n.setConn s (some { k0 with up := rest })).conns⟩ : Net W).push
          (dealerOut (Dealer.outcome n.dealer op))) s0 r0 := by
      rintro hm rfl
      have hs := calls_same (ops := n.dealer) (op := .receiveMessage s m) (by rcases hm with ⟨x, rfl⟩ | ⟨x, rfl⟩ <;> simp)
        (by rcases hm with ⟨x, rfl⟩ | ⟨x, rfl⟩ <;> simp) (by rcases hm with ⟨x, rfl⟩ | ⟨x, rfl⟩ <;> simp)
      have hout := reg_out n.dealer s hm
      refine stuck_route h h1 h2 _ _ _ ?_ (fun x hx _ _ => by rw [hs.1] at hx; exact hx) ?_
      · intro b hb e; exact (hout _ b hb).2 _ e
      · intro q b hb i e; rw [(hout q b hb).1] at e; cases e
    cases m <;> simp only [dealerCall, reduceCtorEq, Option.some.injEq] at h3
    case call m => subst h3; exact stuck_call hl hi h h1 h2
    case yield_ m => subst h3; exact stuck_answer hl hi h h1 h2 rfl rfl
    case error m => subst h3; exact stuck_answer hl hi h h1 h2 rfl rfl
    case register m => exact hreg (.inl ⟨m, rfl⟩) h3.symm
    case unregister m => exact hreg (.inr ⟨m, rfl⟩) h3.symm
  | routeX s m k0 rest h1 h2 h3 h4 h5 =>
    have : (⟨n.broker, n.dealer, fun s' => if s' = s then some { k0 with up := rest } else n.conns s'⟩ : Net W) =
        (⟨n.broker, n.dealer, (n.setConn s (some { k0 with up := rest })).conns⟩ : Net W).push [] := by
      simp only [Net.push, inbox_nil, List.append_nil]
      congr 1
      funext s'
      rw [setConn_conns]
      cases (if s' = s then some { k0 with up := rest } else n.conns s') <;> rfl
    rw [this]
    exact stuck_route h h1 h2 _ _ _ (fun b hb => by cases hb) (fun x hx _ _ => hx) (fun q b hb => by cases hb)

theorem stuck_run (sched : List Act) {s r : Int} (h : Stuck c (run c sched) s r) (more : List Act) :
    (sched ++ more).length ≤ 2 ^ 53 → GoodClients c (sched ++ more) → .leave s ∉ more → Stuck c (run c (sched ++ more)) s r := by
  induction more using snoc_induction with
  | nil => intro _ _ _; rw [List.append_nil]; exact h
  | snoc more a ih =>
    intro hl hg hn
    rw [← List.append_assoc] at hl hg ⊢
    have h1 : (sched ++ more).length + 1 ≤ 2 ^ 53 := by rw [List.length_append] at hl; exact hl
    have hg' := hg.init
    rw [run_snoc]
    refine stuck_snoc c (base_run c _ (by omega)) (by omega) (rpc_run c _ (by omega) hg')
      (ih (by omega) hg' (fun h => hn (List.mem_append_left _ h))) a ?_ ?_ ?_
    · rintro rfl; exact hn (by simp)
    · rintro s m rfl k hk kd i e1 e2; exact hg.fresh _ s m [] rfl k hk kd i e1 e2
    · rintro s m rfl k hk e; exact hg.errors _ s m [] rfl k hk e

end Wamp.Spec.Net
