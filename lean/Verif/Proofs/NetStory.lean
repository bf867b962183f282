import Verif.Proofs.NetRpc
import Verif.Spec.Story

/-! # The network: where answers come from -/

namespace Wamp.Spec.Net
open Wamp.Spec.Ses

variable {W : Type} {c : Codec W}

theorem Chain.snoc {start : List Act} {es : List Ev} {post : List Act} (h : Chain start es post) (a : Act) :
    Chain start es (post ++ [a]) := by
  cases es with
  | nil => trivial
  | cons e es =>
    obtain ⟨q, b, r, rfl, h1, h2⟩ := h
    exact ⟨q, b, r ++ [a], by simp, h1, h2⟩

/-- The action is not a CALL of `s` with this request id. -/
def NotCall (s r : Int) (a : Act) : Prop := ∀ m, a = .send s (.call m) → m.requestId.val ≠ r

theorem NoCall.snoc {s r : Int} {l : List Act} (h : NoCall s r l) {a : Act} (ha : NotCall s r a) : NoCall s r (l ++ [a]) := by
  intro m hm
  rcases List.mem_append.1 hm with hm | hm
  · exact h m hm
  · exact ha m (List.mem_singleton.1 hm).symm

theorem Story.snoc {sched : List Act} {s : Int} {m : Call} {es : List Ev} (h : Story sched s m es) {a : Act}
    (ha : NotCall s m.requestId.val a) : Story (sched ++ [a]) s m es := by
  obtain ⟨pre, post, rfl, h1, h2⟩ := h
  exact ⟨pre, post ++ [a], by simp, h1.snoc ha, h2.snoc a⟩

theorem Story.ext {sched : List Act} {s : Int} {m : Call} {es : List Ev} (h : Story sched s m es) {a : Act} {e : Ev}
    (he : e sched a) (ha : NotCall s m.requestId.val a) : Story (sched ++ [a]) s m (e :: es) := by
  obtain ⟨pre, post, rfl, h1, h2⟩ := h
  exact ⟨pre, post ++ [a], by simp, h1.snoc ha, post, a, [], rfl, by simpa using he, h2⟩

theorem Story.start (sched : List Act) (s : Int) (m : Call) : Story (sched ++ [.send s (.call m)]) s m [] :=
  ⟨sched, [], rfl, (fun _ h => by cases h), trivial⟩

variable (c)

/-- The invocation `inv`, in the hands of `t`, belongs to a pending call; if the caller is still there, `es` has happened
after the router handled the CALL. -/
def TokOk (sched : List Act) (D : List Dealer.Op) (conns : Int → Option (Conn W)) (t i : Int) (es : List Ev) (inv : Invocation) : Prop :=
  ∃ x ∈ pendings D, x.inv = i ∧ x.callee = t ∧ inv.requestId.val = i ∧ ∃ m, x.request = m.requestId ∧ SameContent m inv ∧
    ((conns x.caller).isSome → Story sched x.caller m (es ++ [RoutesTo c x.caller m t]))

/-- The invariant. -/
structure Hist (sched : List Act) (n : Net W) : Prop where
  up : ∀ s k m, n.conns s = some k → .call m ∈ k.up → Story sched s m []
  inv : ∀ s k m, n.conns s = some k → .invocation m ∈ k.down → TokOk c sched n.dealer n.conns s m.requestId.val [] m
  hand : ∀ s k i, n.conns s = some k → i ∈ (WAMPSession.after c k.calls).invocationRequests →
    ∃ m, TokOk c sched n.dealer n.conns s i [Receives c s (.invocation m)] m
  ans : ∀ s k a i, n.conns s = some k → a ∈ k.up → ansId a = some i →
    ∃ m, TokOk c sched n.dealer n.conns s i [Sends s a, Receives c s (.invocation m)] m
  res : ∀ s k a r, n.conns s = some k → a ∈ k.down → replyTo a = some (.call, r) → Explained c sched s a

variable {c}

theorem TokOk.step {sched : List Act} {D D' : List Dealer.Op} {conns conns' : Int → Option (Conn W)} {t i : Int} {es : List Ev}
    {inv : Invocation} (h : TokOk c sched D conns t i es inv) {a : Act}
    (h1 : ∀ x ∈ pendings D, x.inv = i → x.callee = t → x ∈ pendings D' ∧
      ((conns' x.caller).isSome → (conns x.caller).isSome ∧ NotCall x.caller x.request.val a)) :
    TokOk c (sched ++ [a]) D' conns' t i es inv := by
  obtain ⟨x, g1, g2, g3, g4, m, g5, g6, g7⟩ := h
  obtain ⟨f1, f2⟩ := h1 x g1 g2 g3
  exact ⟨x, f1, g2, g3, g4, m, g5, g6, fun hc => (g7 (f2 hc).1).snoc (by rw [← g5]; exact (f2 hc).2)⟩

theorem TokOk.ext {sched : List Act} {D D' : List Dealer.Op} {conns conns' : Int → Option (Conn W)} {t i : Int} {es : List Ev}
    {inv : Invocation} (h : TokOk c sched D conns t i es inv) {a : Act} {e : Ev} (he : e sched a)
    (h1 : ∀ x ∈ pendings D, x.inv = i → x.callee = t → x ∈ pendings D' ∧
      ((conns' x.caller).isSome → (conns x.caller).isSome ∧ NotCall x.caller x.request.val a)) :
    TokOk c (sched ++ [a]) D' conns' t i (e :: es) inv := by
  obtain ⟨x, g1, g2, g3, g4, m, g5, g6, g7⟩ := h
  obtain ⟨f1, f2⟩ := h1 x g1 g2 g3
  exact ⟨x, f1, g2, g3, g4, m, g5, g6, fun hc => (g7 (f2 hc).1).ext he (by rw [← g5]; exact (f2 hc).2)⟩

theorem Explained.snoc {sched : List Act} {s : Int} {a : Message} {r : Int} (hr : replyTo a = some (.call, r))
    (h : Explained c sched s a) {act : Act} (ha : NotCall s r act) : Explained c (sched ++ [act]) s a := by
  cases a <;> try exact h.elim
  case result x =>
    obtain ⟨m, t, inv, y, h1, h2, h3, h4, h5, h6⟩ := h
    have : x.requestId.val = r := by simpa [replyTo] using hr
    exact ⟨m, t, inv, y, h1, h2, h3, h4, h5, h6.snoc (by rw [← h1, this]; exact ha)⟩
  case error x =>
    obtain ⟨m, h1, h⟩ := h
    have : x.requestId.val = r := by
      simp only [replyTo, Option.map_eq_some_iff, Prod.mk.injEq] at hr
      obtain ⟨_, -, -, h⟩ := hr; exact h
    refine ⟨m, h1, ?_⟩
    rcases h with ⟨t, inv, y, g1, g2, g3, g4, g5, g6, g7, g8⟩ | ⟨g1, g2⟩
    · exact .inl ⟨t, inv, y, g1, g2, g3, g4, g5, g6, g7, g8.snoc (by rw [← h1, this]; exact ha)⟩
    · exact .inr ⟨g1, g2.snoc (by rw [← h1, this]; exact ha)⟩

/-- A request of a connected client is not repeated while it is in flight. -/
theorem notCall_flight {n : Net W} (h : RpcInv c n) {a : Act}
    (hf : ∀ s m, a = .send s m → ∀ k, n.conns s = some k → ∀ kd i, requestOf m = some (kd, i) → rpc kd = true →
      ¬ Outstanding c k.calls kd i) {s : Int} {k : Conn W} (hk : n.conns s = some k) {r : Int}
    (hr : (.call, r) ∈ inFlight rpc k.up k.down) : NotCall s r a := by
  rintro m rfl rfl
  exact hf s _ rfl k hk .call _ rfl rfl ((WAMPSession.has_after c k.calls _ _).1 ((h.conn s k hk).req.has _ _ hr))

theorem notCall_awaited {n : Net W} {a : Act}
    (hf : ∀ s m, a = .send s m → ∀ k, n.conns s = some k → ∀ kd i, requestOf m = some (kd, i) → rpc kd = true →
      ¬ Outstanding c k.calls kd i) {x : Rpc.Pending} (hx : Awaited c n.dealer n.conns x) (hs : (n.conns x.caller).isSome) :
    NotCall x.caller x.request.val a := by
  obtain ⟨k, hk⟩ := Option.isSome_iff_exists.1 hs
  rintro m rfl e
  exact hf _ _ rfl k hk .call _ rfl rfl ((WAMPSession.has_after c k.calls _ _).1 (e ▸ (hx.wait k hk).1))

/-- The pending call behind an invocation in a client's hands. -/
theorem tok_keep {n n' : Net W} (hl : n.dealer.length < 2 ^ 53) (hi : RpcInv c n) {a : Act}
    (hf : ∀ s m, a = .send s m → ∀ k, n.conns s = some k → ∀ kd i, requestOf m = some (kd, i) → rpc kd = true →
      ¬ Outstanding c k.calls kd i)
    (hc : ∀ x ∈ pendings n.dealer, (n'.conns x.caller).isSome → (n.conns x.caller).isSome) {s : Int} {k : Conn W}
    (hk : n.conns s = some k) {i : Int} (ht : i ∈ tokens (WAMPSession.after c k.calls) k.up k.down)
    (hp : ∀ x ∈ pendings n.dealer, x.inv = i → x.callee = s → x ∈ pendings n'.dealer) :
    ∀ x ∈ pendings n.dealer, x.inv = i → x.callee = s → x ∈ pendings n'.dealer ∧
      ((n'.conns x.caller).isSome → (n.conns x.caller).isSome ∧ NotCall x.caller x.request.val a) := by
  intro x hx e1 e2
  refine ⟨hp x hx e1 e2, fun h => ⟨hc x hx h, ?_⟩⟩
  refine notCall_awaited hf (live_awaited hl hi hx ⟨k, by rw [e2]; exact hk, by rw [e1]; exact ht⟩) (hc x hx h)

theorem mem_tokens_down {S : WAMPSession} {up down : List Message} {m : Message} {i : Int} (h : m ∈ down) (hm : invId m = some i) :
    i ∈ tokens S up down := by
  simp only [tokens, List.mem_append, List.mem_filterMap]; exact .inl (.inl ⟨m, h, hm⟩)
theorem mem_tokens_hand {S : WAMPSession} {up down : List Message} {i : Int} (h : i ∈ S.invocationRequests) : i ∈ tokens S up down := by
  simp only [tokens, List.mem_append]; exact .inl (.inr h)
theorem mem_tokens_up {S : WAMPSession} {up down : List Message} {m : Message} {i : Int} (h : m ∈ up) (hm : ansId m = some i) :
    i ∈ tokens S up down := by
  simp only [tokens, List.mem_append, List.mem_filterMap]; exact .inr ⟨m, h, hm⟩

/-- One action, given where everything new comes from. -/
theorem hist_step {sched : List Act} {n n' : Net W} (hl : n.dealer.length < 2 ^ 53) (hi : RpcInv c n) (h : Hist c sched n) {a : Act}
    (hf : ∀ s m, a = .send s m → ∀ k, n.conns s = some k → ∀ kd i, requestOf m = some (kd, i) → rpc kd = true →
      ¬ Outstanding c k.calls kd i)
    (hc : ∀ x ∈ pendings n.dealer, (n'.conns x.caller).isSome → (n.conns x.caller).isSome)
    (hp : ∀ x ∈ pendings n.dealer, Live c n.conns x → Live c n'.conns x → x ∈ pendings n'.dealer)
    (hup : ∀ s k' m, n'.conns s = some k' → .call m ∈ k'.up →
      (∃ k, n.conns s = some k ∧ .call m ∈ k.up) ∨ Story (sched ++ [a]) s m [])
    (hinv : ∀ s k' m, n'.conns s = some k' → .invocation m ∈ k'.down →
      (∃ k, n.conns s = some k ∧ .invocation m ∈ k.down) ∨ TokOk c (sched ++ [a]) n'.dealer n'.conns s m.requestId.val [] m)
    (hhand : ∀ s k' i, n'.conns s = some k' → i ∈ (WAMPSession.after c k'.calls).invocationRequests →
      (∃ k, n.conns s = some k ∧ i ∈ (WAMPSession.after c k.calls).invocationRequests) ∨
      ∃ m, TokOk c (sched ++ [a]) n'.dealer n'.conns s i [Receives c s (.invocation m)] m)
    (hans : ∀ s k' b i, n'.conns s = some k' → b ∈ k'.up → ansId b = some i →
      (∃ k, n.conns s = some k ∧ b ∈ k.up) ∨
      ∃ m, TokOk c (sched ++ [a]) n'.dealer n'.conns s i [Sends s b, Receives c s (.invocation m)] m)
    (hres : ∀ s k' b r, n'.conns s = some k' → b ∈ k'.down → replyTo b = some (.call, r) →
      (∃ k, n.conns s = some k ∧ b ∈ k.down) ∨ Explained c (sched ++ [a]) s b) : Hist c (sched ++ [a]) n' := by
  have key : ∀ s k k' i, n.conns s = some k → i ∈ tokens (WAMPSession.after c k.calls) k.up k.down → n'.conns s = some k' →
      i ∈ tokens (WAMPSession.after c k'.calls) k'.up k'.down →
      ∀ x ∈ pendings n.dealer, x.inv = i → x.callee = s → x ∈ pendings n'.dealer ∧
      ((n'.conns x.caller).isSome → (n.conns x.caller).isSome ∧ NotCall x.caller x.request.val a) := by
    intro s k k' i hk ht hk' ht'
    refine tok_keep hl hi hf hc hk ht ?_
    intro x hx e1 e2
    exact hp x hx ⟨k, by rw [e2]; exact hk, by rw [e1]; exact ht⟩ ⟨k', by rw [e2]; exact hk', by rw [e1]; exact ht'⟩
  refine ⟨?_, ?_, ?_, ?_, ?_⟩
  · intro s k' m hk' hm
    rcases hup s k' m hk' hm with ⟨k, hk, hm'⟩ | h'
    · exact (h.up s k m hk hm').snoc (notCall_flight hi hf hk (mem_inFlight.2 ⟨rfl, .inl ⟨_, hm', rfl⟩⟩))
    · exact h'
  · intro s k' m hk' hm
    rcases hinv s k' m hk' hm with ⟨k, hk, hm'⟩ | h'
    · exact (h.inv s k m hk hm').step (key s k k' _ hk (mem_tokens_down hm' rfl) hk' (mem_tokens_down hm rfl))
    · exact h'
  · intro s k' i hk' hm
    rcases hhand s k' i hk' hm with ⟨k, hk, hm'⟩ | h'
    · obtain ⟨m, h1⟩ := h.hand s k i hk hm'
      exact ⟨m, h1.step (key s k k' _ hk (mem_tokens_hand hm') hk' (mem_tokens_hand hm))⟩
    · exact h'
  · intro s k' b i hk' hm hb
    rcases hans s k' b i hk' hm hb with ⟨k, hk, hm'⟩ | h'
    · obtain ⟨m, h1⟩ := h.ans s k b i hk hm' hb
      exact ⟨m, h1.step (key s k k' _ hk (mem_tokens_up hm' hb) hk' (mem_tokens_up hm hb))⟩
    · exact h'
  · intro s k' b r hk' hm hb
    rcases hres s k' b r hk' hm hb with ⟨k, hk, hm'⟩ | h'
    · exact (h.res s k b r hk hm' hb).snoc hb (notCall_flight hi hf hk (mem_inFlight.2 ⟨rfl, .inr ⟨_, hm', hb⟩⟩))
    · exact h'

/-- Nothing new for the client: what it has it had before, as far as calls are concerned. -/
structure Older (k' k : Conn W) : Prop where
  up : ∀ a ∈ k'.up, a ∈ k.up
  calls : ∀ i ∈ (WAMPSession.after c k'.calls).invocationRequests, i ∈ (WAMPSession.after c k.calls).invocationRequests
  down : ∀ a ∈ k'.down, invId a ≠ none ∨ (∃ r, replyTo a = some (.call, r)) → a ∈ k.down

theorem Older.rfl {k : Conn W} : Older (c := c) k k := ⟨fun _ h => h, fun _ h => h, fun _ h _ => h⟩

/-- Nothing new for anybody, though the dealer may have ended a call. -/
theorem hist_older {sched : List Act} {n n' : Net W} (hl : n.dealer.length < 2 ^ 53) (hi : RpcInv c n) (h : Hist c sched n) {a : Act}
    (hf : ∀ s m, a = .send s m → ∀ k, n.conns s = some k → ∀ kd i, requestOf m = some (kd, i) → rpc kd = true →
      ¬ Outstanding c k.calls kd i)
    (hc : ∀ x ∈ pendings n.dealer, (n'.conns x.caller).isSome → (n.conns x.caller).isSome)
    (ho : ∀ s k', n'.conns s = some k' → k' = {} ∨ ∃ k, n.conns s = some k ∧ Older (c := c) k' k)
    (hp : ∀ x ∈ pendings n.dealer, x ∈ pendings n'.dealer) : Hist c (sched ++ [a]) n' := by
  refine hist_step hl hi h hf hc (fun x hx _ _ => hp x hx) ?_ ?_ ?_ ?_ ?_
  · intro s k' m hk' hm
    rcases ho s k' hk' with rfl | ⟨k, hk, h'⟩
    · cases hm
    · exact .inl ⟨k, hk, h'.up _ hm⟩
  · intro s k' m hk' hm
    rcases ho s k' hk' with rfl | ⟨k, hk, h'⟩
    · cases hm
    · exact .inl ⟨k, hk, h'.down _ hm (.inl (by simp [invId]))⟩
  · intro s k' i hk' hm
    rcases ho s k' hk' with rfl | ⟨k, hk, h'⟩
    · cases hm
    · exact .inl ⟨k, hk, h'.calls _ hm⟩
  · intro s k' b i hk' hm hb
    rcases ho s k' hk' with rfl | ⟨k, hk, h'⟩
    · cases hm
    · exact .inl ⟨k, hk, h'.up _ hm⟩
  · intro s k' b r hk' hm hb
    rcases ho s k' hk' with rfl | ⟨k, hk, h'⟩
    · cases hm
    · exact .inl ⟨k, hk, h'.down _ hm (.inr ⟨r, hb⟩)⟩

/-! ## What clients do -/

theorem hist_send {sched : List Act} {n : Net W} (hl : n.dealer.length < 2 ^ 53) (hi : RpcInv c n) (h : Hist c sched n)
    {s : Int} {k : Conn W} (hk : n.conns s = some k) (m : Message)
    (hf : ∀ kd i, requestOf m = some (kd, i) → rpc kd = true → ¬ Outstanding c k.calls kd i)
    (he : ∀ x, m = .error x → x.messageType.val = 68 → Unanswered c (WAMPSession.trace c k.calls) x.requestId.val) :
    Hist c (sched ++ [.send s m]) (⟨n.broker, n.dealer, fun s' => if s' = s then some ⟨k.calls ++ [.sendMessage m],
        if returned (WAMPSession.outcome c k.calls (.sendMessage m)) then k.up ++ [m] else k.up, k.down⟩ else n.conns s'⟩ : Net W) := by
  have ho : returned (WAMPSession.outcome c k.calls (.sendMessage m)) =
      returned ((WAMPSession.after c k.calls).sendMessage c m).2 := by
    simp only [WAMPSession.outcome, WAMPSession.step]
    cases ((WAMPSession.after c k.calls).sendMessage c m).2 <;> rfl
  have hf' : ∀ s' m', Act.send s m = .send s' m' → ∀ k, n.conns s' = some k → ∀ kd i, requestOf m' = some (kd, i) →
      rpc kd = true → ¬ Outstanding c k.calls kd i := by
    intro s' m' e k' hk'; cases e; rw [hk] at hk'; cases hk'; exact hf
  have hc : ∀ x ∈ pendings n.dealer, (if x.caller = s then some (⟨k.calls ++ [.sendMessage m],
      if returned (WAMPSession.outcome c k.calls (.sendMessage m)) then k.up ++ [m] else k.up, k.down⟩ : Conn W)
      else n.conns x.caller).isSome → (n.conns x.caller).isSome := by
    intro x _ hx
    split at hx
    · rename_i e; rw [e, hk]; rfl
    · exact hx
  obtain ⟨hs1, hs2⟩ := send_inv (c := c) (WAMPSession.after c k.calls) m
  refine hist_step hl hi h hf' hc (fun x hx _ _ => hx) ?_ ?_ ?_ ?_ ?_
  · intro s' k' m' hk' hm'
    simp only at hk'
    split at hk'
    · rename_i e; subst e; cases hk'
      simp only at hm'
      split at hm'
      · rcases List.mem_append.1 hm' with hm' | hm'
        · exact .inl ⟨k, hk, hm'⟩
        · rw [← List.mem_singleton.1 hm']; exact .inr (Story.start ..)
      · exact .inl ⟨k, hk, hm'⟩
    · exact .inl ⟨k', hk', hm'⟩
  · intro s' k' m' hk' hm'
    simp only at hk'
    split at hk'
    · rename_i e; subst e; cases hk'; exact .inl ⟨k, hk, hm'⟩
    · exact .inl ⟨k', hk', hm'⟩
  · intro s' k' i hk' hm'
    simp only at hk'
    split at hk'
    · rename_i e; subst e; cases hk'
      simp only [after_send] at hm'
      exact .inl ⟨k, hk, hs2.subset hm'⟩
    · exact .inl ⟨k', hk', hm'⟩
  · intro s' k' b i hk' hm' hb
    simp only at hk'
    split at hk'
    · rename_i e; subst e; cases hk'
      simp only at hm'
      split at hm'
      · rename_i hret
        rcases List.mem_append.1 hm' with hm' | hm'
        · exact .inl ⟨k, hk, hm'⟩
        · rw [List.mem_singleton.1 hm'] at hb ⊢
          have hin : i ∈ (WAMPSession.after c k.calls).invocationRequests := by
            rw [ho] at hret
            rcases (hs1 hret i hb).1 with ⟨x, rfl, hx⟩ | h3
            · cases hb; exact (WAMPSession.inv_after c k.calls _).2 (he x rfl hx)
            · exact h3
          obtain ⟨inv, ht⟩ := h.hand _ k i hk hin
          exact .inr ⟨inv, ht.ext rfl (tok_keep hl hi hf' hc hk (mem_tokens_hand hin) (fun x hx _ _ => hx))⟩
      · exact .inl ⟨k, hk, hm'⟩
    · exact .inl ⟨k', hk', hm'⟩
  · intro s' k' b r hk' hm' hb
    simp only at hk'
    split at hk'
    · rename_i e; subst e; cases hk'; exact .inl ⟨k, hk, hm'⟩
    · exact .inl ⟨k', hk', hm'⟩

theorem hist_deliver {sched : List Act} {n : Net W} (hn : n = run c sched) (hl : n.dealer.length < 2 ^ 53) (hi : RpcInv c n)
    (h : Hist c sched n) {s : Int} {k : Conn W} (hk : n.conns s = some k) {m : Message} {rest : List Message}
    (hd : k.down = m :: rest) :
    Hist c (sched ++ [.deliver s]) (⟨n.broker, n.dealer,
      fun s' => if s' = s then some ⟨k.calls ++ [.receiveMessage m], k.up, rest⟩ else n.conns s'⟩ : Net W) := by
  have hf' : ∀ s' m', Act.deliver s = .send s' m' → ∀ k, n.conns s' = some k → ∀ kd i, requestOf m' = some (kd, i) →
      rpc kd = true → ¬ Outstanding c k.calls kd i := by intro s' m' e; cases e
  have hc : ∀ x ∈ pendings n.dealer, (if x.caller = s then some (⟨k.calls ++ [.receiveMessage m], k.up, rest⟩ : Conn W)
      else n.conns x.caller).isSome → (n.conns x.caller).isSome := by
    intro x _ hx
    split at hx
    · rename_i e; rw [e, hk]; rfl
    · exact hx
  refine hist_step hl hi h hf' hc (fun x hx _ _ => hx) ?_ ?_ ?_ ?_ ?_
  · intro s' k' m' hk' hm'
    simp only at hk'
    split at hk'
    · rename_i e; subst e; cases hk'; exact .inl ⟨k, hk, hm'⟩
    · exact .inl ⟨k', hk', hm'⟩
  · intro s' k' m' hk' hm'
    simp only at hk'
    split at hk'
    · rename_i e; subst e; cases hk'; exact .inl ⟨k, hk, by rw [hd]; exact List.mem_cons_of_mem _ hm'⟩
    · exact .inl ⟨k', hk', hm'⟩
  · intro s' k' i hk' hm'
    simp only at hk'
    split at hk'
    · rename_i e; subst e; cases hk'
      simp only [after_recv] at hm'
      cases hv : invId m with
      | none => rw [recv_inv _ m hv] at hm'; exact .inl ⟨k, hk, hm'⟩
      | some j =>
        cases m <;> simp only [invId, reduceCtorEq] at hv
        case invocation inv =>
          have hm2 : i = inv.requestId.val ∨ i ∈ (WAMPSession.after c k.calls).invocationRequests := by
            simp only [WAMPSession.receiveMessage] at hm'
            split at hm'
            · simpa [IdSet.mem_add, or_comm] using hm'
            · exact .inr hm'
          rcases hm2 with rfl | hm2
          · have hmem : Message.invocation inv ∈ k.down := by rw [hd]; exact List.mem_cons_self ..
            refine .inr ⟨inv, (h.inv _ k inv hk hmem).ext ⟨rfl, k, rest, by rw [← hn]; exact hk, hd⟩
              (tok_keep hl hi hf' hc hk (mem_tokens_down hmem rfl) (fun x hx _ _ => hx))⟩
          · exact .inl ⟨k, hk, hm2⟩
    · exact .inl ⟨k', hk', hm'⟩
  · intro s' k' b i hk' hm' hb
    simp only at hk'
    split at hk'
    · rename_i e; subst e; cases hk'; exact .inl ⟨k, hk, hm'⟩
    · exact .inl ⟨k', hk', hm'⟩
  · intro s' k' b r hk' hm' hb
    simp only at hk'
    split at hk'
    · rename_i e; subst e; cases hk'; exact .inl ⟨k, hk, by rw [hd]; exact List.mem_cons_of_mem _ hm'⟩
    · exact .inl ⟨k', hk', hm'⟩

/-! ## What the router does -/

theorem route_some {n : Net W} {s : Int} {k : Conn W} {B : List Broker.Op} {D : List Dealer.Op} (hk : n.conns s = some k)
    {rest : List Message} {out : List (Int × Message)} {s' : Int} {k' : Conn W}
    (h : ((⟨B, D, (n.setConn s (some { k with up := rest })).conns⟩ : Net W).push out).conns s' = some k') :
    ∃ k0, n.conns s' = some k0 ∧ k'.calls = k0.calls ∧ (s' = s ∧ k'.up = rest ∨ s' ≠ s ∧ k'.up = k0.up) ∧
      k'.down = k0.down ++ inbox out s' := by
  obtain ⟨k1, h1, rfl⟩ := push_some h
  have h1 : (n.setConn s (some { k with up := rest })).conns s' = some k1 := h1
  rw [setConn_conns] at h1
  split at h1
  · rename_i e; cases h1; subst e; exact ⟨k, hk, rfl, .inl ⟨rfl, rfl⟩, rfl⟩
  · rename_i e; exact ⟨k1, h1, rfl, .inr ⟨e, rfl⟩, rfl⟩

/-- The router handles a message: everything new is what it sends. -/
theorem hist_route {sched : List Act} {n : Net W} (hl : n.dealer.length < 2 ^ 53) (hi : RpcInv c n) (h : Hist c sched n)
    {s : Int} {k : Conn W} (hk : n.conns s = some k) {m : Message} {rest : List Message} (hu : k.up = m :: rest)
    (B : List Broker.Op) (D : List Dealer.Op) (out : List (Int × Message))
    (hp : ∀ x ∈ pendings n.dealer, Live c n.conns x →
      (x.callee = s → x.inv ∈ tokens (WAMPSession.after c k.calls) rest (k.down ++ inbox out s)) → x ∈ pendings D)
    (hinv : ∀ q m, (q, .invocation m) ∈ out → TokOk c (sched ++ [.route s]) D
      ((⟨B, D, (n.setConn s (some { k with up := rest })).conns⟩ : Net W).push out).conns q m.requestId.val [] m)
    (hres : ∀ q b r, (q, b) ∈ out → (n.conns q).isSome → replyTo b = some (.call, r) → Explained c (sched ++ [.route s]) q b) :
    Hist c (sched ++ [.route s]) ((⟨B, D, (n.setConn s (some { k with up := rest })).conns⟩ : Net W).push out) := by
  have hf' : ∀ s' m', Act.route s = .send s' m' → ∀ k, n.conns s' = some k → ∀ kd i, requestOf m' = some (kd, i) →
      rpc kd = true → ¬ Outstanding c k.calls kd i := by intro s' m' e; cases e
  refine hist_step hl hi h hf' ?_ ?_ ?_ ?_ ?_ ?_ ?_
  · intro x _ hx
    obtain ⟨k', hk'⟩ := Option.isSome_iff_exists.1 hx
    obtain ⟨k0, h0, -⟩ := route_some hk hk'
    rw [h0]; rfl
  · rintro x hx hlv ⟨k', hk', hm⟩
    refine hp x hx hlv ?_
    rintro rfl
    obtain ⟨k0, h0, h1, h2, h3⟩ := route_some hk hk'
    rw [hk] at h0; cases h0
    rcases h2 with ⟨-, h2⟩ | ⟨h2, -⟩
    · rw [h1, h2, h3] at hm; exact hm
    · exact absurd rfl h2
  · intro s' k' m' hk' hm'
    obtain ⟨k0, h0, h1, h2, h3⟩ := route_some hk hk'
    refine .inl ⟨k0, h0, ?_⟩
    rcases h2 with ⟨rfl, h2⟩ | ⟨-, h2⟩
    · rw [hk] at h0; cases h0; rw [hu]; rw [h2] at hm'; exact List.mem_cons_of_mem _ hm'
    · rw [h2] at hm'; exact hm'
  · intro s' k' m' hk' hm'
    obtain ⟨k0, h0, h1, h2, h3⟩ := route_some hk hk'
    rw [h3] at hm'
    rcases List.mem_append.1 hm' with hm' | hm'
    · exact .inl ⟨k0, h0, hm'⟩
    · exact .inr (hinv s' m' (mem_inbox.1 hm'))
  · intro s' k' i hk' hm'
    obtain ⟨k0, h0, h1, h2, h3⟩ := route_some hk hk'
    rw [h1] at hm'
    exact .inl ⟨k0, h0, hm'⟩
  · intro s' k' b i hk' hm' _
    obtain ⟨k0, h0, h1, h2, h3⟩ := route_some hk hk'
    refine .inl ⟨k0, h0, ?_⟩
    rcases h2 with ⟨rfl, h2⟩ | ⟨-, h2⟩
    · rw [hk] at h0; cases h0; rw [hu]; rw [h2] at hm'; exact List.mem_cons_of_mem _ hm'
    · rw [h2] at hm'; exact hm'
  · intro s' k' b r hk' hm' hb
    obtain ⟨k0, h0, h1, h2, h3⟩ := route_some hk hk'
    rw [h3] at hm'
    rcases List.mem_append.1 hm' with hm' | hm'
    · exact .inl ⟨k0, h0, hm'⟩
    · exact .inr (hres s' b r (mem_inbox.1 hm') (by rw [h0]; rfl) hb)

/-- Answers to REGISTER and UNREGISTER are about registrations. -/
theorem reg_out (D : List Dealer.Op) (s : Int) {m : Message} (hm : (∃ x, m = .register x) ∨ ∃ x, m = .unregister x) :
    ∀ q a, (q, a) ∈ dealerOut (Dealer.outcome D (.receiveMessage s m)) → invId a = none ∧ ∀ r, replyTo a ≠ some (.call, r) := by
  intro q a
  have hk := Dealer.kind (Dealer.after D) (Dealer.wf_after D) (.receiveMessage s m)
  rw [Dealer.outcome]
  generalize (Dealer.after D).step (.receiveMessage s m) = res at hk ⊢
  rcases hm with ⟨x, rfl⟩ | ⟨x, rfl⟩ <;> cases hk <;> simp [dealerOut]
  all_goals rintro rfl rfl; simp [invId, replyTo, kindOfCode, Register.TYPE, PyInt.val]

/-- What the answer to a call carries. -/
theorem answer_content (D : List Dealer.Op) (hl : D.length < 2 ^ 53) {x : Rpc.Pending} (hx : x ∈ pendings D)
    (hm : Mapped D x.caller x.request.val x.inv) {m : Message} (ha : ansId m = some x.inv)
    (he : ∀ e, m = .error e → e.messageType.val = 68) :
    (∃ y r, m = .yield_ y ∧ Dealer.outcome D (.receiveMessage x.callee m) = .ok (.reply ⟨.result r, x.caller⟩) ∧
      r.requestId = x.request ∧ r.args = y.args ∧ r.kwargs = y.kwargs) ∨
    ∃ y r, m = .error y ∧ Dealer.outcome D (.receiveMessage x.callee m) = .ok (.reply ⟨.error r, x.caller⟩) ∧
      r.requestId = x.request ∧ r.uri = y.uri ∧ r.args = y.args ∧ r.kwargs = y.kwargs ∧ r.details = y.details := by
  obtain ⟨-, hc⟩ := rels D hl
  obtain ⟨p, hp, hxe⟩ := hc.sup x hx
  have e1 : x.caller = p.callerId := by rw [hxe]; rfl
  have e2 : x.request = p.requestId := by rw [hxe]; rfl
  have e3 : x.callee = p.calleeId := by rw [hxe]; rfl
  cases m <;> simp only [ansId, reduceCtorEq, Option.some.injEq] at ha
  case yield_ y =>
    rw [← ha] at hp
    left
    cases hf : (PyDict.flag y.options "progress" && p.receiveProgress.truthy) with
    | true =>
      rw [Bool.and_eq_true] at hf
      have h := Dealer.yield_progress (Dealer.after D) x.callee y p hp e3 hf.1 hf.2
      simp only [Dealer.outcome, h]
      exact ⟨y, _, rfl, by rw [e1], e2.symm, rfl, rfl⟩
    | false =>
      unfold Mapped at hm
      rw [e1, e2] at hm
      have h := Dealer.yield_final (Dealer.after D) x.callee y p hp e3 hf _ hm
      simp only [Dealer.outcome, h]
      exact ⟨y, _, rfl, by rw [e1], e2.symm, rfl, rfl⟩
  case error e =>
    rw [← ha] at hp
    right
    have h := Dealer.error_accepted (Dealer.after D) x.callee e p (he e rfl) hp
    simp only [Dealer.outcome, h]
    exact ⟨e, ⟨.int 48, p.requestId, e.uri, e.args, e.kwargs, e.details⟩, rfl, by rw [e1], e2.symm, rfl, rfl, rfl, rfl⟩

theorem hist_answer {sched : List Act} {n : Net W} (hl : n.dealer.length < 2 ^ 53) (hi : RpcInv c n)
    (h : Hist c sched n) {s : Int} {k : Conn W} (hk : n.conns s = some k)
    {m : Message} {rest : List Message} (hu : k.up = m :: rest) {op : Dealer.Op} (hop : dealerCall s m = some op) {i : Int}
    (ha : ansId m = some i) :
    Hist c (sched ++ [.route s]) ((⟨n.broker, n.dealer ++ [op], (n.setConn s (some { k with up := rest })).conns⟩ : Net W).push
      (dealerOut (Dealer.outcome n.dealer op))) := by
  obtain ⟨x, hx, rfl, rfl, hw, hni⟩ := answer_head hi hk hu ha
  have hop' : op = .receiveMessage x.callee m := by
    cases m <;> simp only [ansId, reduceCtorEq] at ha <;> (cases hop; rfl)
  subst hop'
  have h68 : ∀ e, m = .error e → e.messageType.val = 68 := fun e e' => hi.errs _ k e hk (by rw [hu, e']; exact List.mem_cons_self ..)
  obtain ⟨a, ho, a1, a2, a3, f1, f2, f3⟩ := answer_facts n.dealer hl hx hw.map ha h68
  have hcont := answer_content n.dealer hl hx hw.map ha h68
  rw [ho] at hcont
  rw [ho]
  simp only [dealerOut]
  have hmem : m ∈ k.up := by rw [hu]; exact List.mem_cons_self ..
  obtain ⟨inv, z, hz, z1, z2, z3, cm, z4, z5, z6⟩ := h.ans _ k m _ hk hmem ha
  cases pending_inj hl hz hx z1
  have hf' : ∀ s' m', Act.route x.callee = .send s' m' → ∀ k, n.conns s' = some k → ∀ kd i, requestOf m' = some (kd, i) →
      rpc kd = true → ¬ Outstanding c k.calls kd i := by intro s' m' e; cases e
  refine hist_route hl hi h hk hu _ _ _ ?_ ?_ ?_
  · intro z hz _ hlv
    refine f2 z hz ?_
    rintro rfl
    refine hni ?_
    have := hlv rfl
    simp only [inbox_single] at this
    split at this
    · simpa [tokens, a1] using this
    · simpa using this
  · intro q m' hm'
    cases List.mem_singleton.1 hm'
    cases a1
  · intro q b r hq hs hb
    have hq' := List.mem_singleton.1 hq
    simp only [Prod.mk.injEq] at hq'
    obtain ⟨rfl, rfl⟩ := hq'
    have hst := (z6 hs).snoc (a := .route x.callee) (by intro _ e; cases e)
    rcases hcont with ⟨y, r', rfl, e, g1, g2, g3⟩ | ⟨y, r', rfl, e, g1, g2, g3, g4, g5⟩
    · simp only [Except.ok.injEq, Dealer.Out.reply.injEq, MessageWithRecipient.mk.injEq, and_true] at e
      subst e
      exact ⟨cm, _, inv, y, g1.trans z4, z5, (Option.some.inj ha).trans z3.symm, g2, g3, hst⟩
    · simp only [Except.ok.injEq, Dealer.Out.reply.injEq, MessageWithRecipient.mk.injEq, and_true] at e
      subst e
      exact ⟨cm, g1.trans z4, .inl ⟨_, inv, y, z5, (Option.some.inj ha).trans z3.symm, h68 y rfl, g2, g3, g4, g5, hst⟩⟩

theorem hist_call {sched : List Act} {n : Net W} (hn : n = run c sched) (hl : n.dealer.length < 2 ^ 53) (hi : RpcInv c n)
    (h : Hist c sched n) {s : Int} {k : Conn W} (hk : n.conns s = some k)
    {m : Call} {rest : List Message} (hu : k.up = .call m :: rest) :
    Hist c (sched ++ [.route s])
      ((⟨n.broker, n.dealer ++ [.receiveMessage s (.call m)], (n.setConn s (some { k with up := rest })).conns⟩ : Net W).push
      (dealerOut (Dealer.outcome n.dealer (.receiveMessage s (.call m))))) := by
  have hd := Dealer.C30_ids_not_exhausted _ hl
  have hplain := hi.plain s k m hk (by rw [hu]; exact List.mem_cons_self ..)
  have hstory := h.up s k m hk (by rw [hu]; exact List.mem_cons_self ..)
  have hroute : Routes c s (.call m) sched (.route s) := ⟨rfl, k, rest, by rw [← hn]; exact hk, hu⟩
  have hnc : NotCall s m.requestId.val (.route s) := by intro _ e; cases e
  obtain ⟨hr, hc⟩ := rels n.dealer hl
  have hwf := Dealer.wf_after n.dealer
  cases hp : (Dealer.after n.dealer).registrationsByProcedure.get m.procedure with
  | none =>
    have hcl := Dealer.call_none _ s m hp
    have ho : Dealer.outcome n.dealer (.receiveMessage s (.call m)) = _ := congrArg Prod.snd hcl
    rw [ho]
    simp only [dealerOut]
    have hsame : pendings (n.dealer ++ [.receiveMessage s (.call m)]) = pendings n.dealer := by
      rw [pendings_snoc, ho]; rfl
    refine hist_route hl hi h hk hu _ _ _ ?_ ?_ ?_
    · intro x hx _ _; rw [hsame]; exact hx
    · intro q m' hm'; cases List.mem_singleton.1 hm'
    · intro q b r hq _ hb
      cases List.mem_singleton.1 hq
      refine ⟨m, rfl, .inr ⟨rfl, hstory.ext ⟨hroute, ?_⟩ hnc⟩⟩
      rintro t ⟨i, hi⟩
      rw [← hn] at hi
      obtain ⟨r, h1, -⟩ := (hr.held _ _ _).1 hi
      rw [hp] at h1; cases h1
  | some r =>
    obtain ⟨-, ⟨q, hq⟩, -⟩ := hwf.proc _ _ hp
    have hcl := Dealer.call_new _ s m r q hp hq (.inl hplain)
    have ho : Dealer.outcome n.dealer (.receiveMessage s (.call m)) = _ := congrArg Prod.snd hcl
    have hid : (Dealer.after n.dealer).idgen.next.2 = ((Rpc.view (Dealer.trace n.dealer)).drawn : Int) + 1 := by
      rw [hc.gen, Dealer.idgen_next]; exact Dealer.draw_small hd
    have hnew : ∀ x ∈ (Rpc.view (Dealer.trace n.dealer)).issued, x.inv ≠ (Dealer.after n.dealer).idgen.next.2 := by
      intro x hx e; have := hc.range x hx; omega
    have hpend : pendings (n.dealer ++ [.receiveMessage s (.call m)]) = pendings n.dealer ++
        [⟨(Dealer.after n.dealer).idgen.next.2, s, m.requestId, q, PyDict.flag m.options "receive_progress"⟩] := by
      rw [pendings_snoc, ho, Dealer.next_call_new hnew]
    rw [ho]
    simp only [dealerOut]
    refine hist_route hl hi h hk hu _ _ _ ?_ ?_ ?_
    · intro x hx _ _; rw [hpend]; exact List.mem_append_left _ hx
    · intro q' m' hm'
      cases List.mem_singleton.1 hm'
      refine ⟨_, by rw [hpend]; exact List.mem_append_right _ (List.mem_singleton.2 rfl), rfl, rfl, rfl, m, rfl, ⟨rfl, rfl, rfl, rfl⟩, ?_⟩
      intro _
      refine hstory.ext ⟨hroute, ?_⟩ hnc
      refine ⟨((Dealer.after n.dealer).heap r).id, ?_⟩
      rw [← hn]
      exact (hr.held _ _ _).2 ⟨r, hp, hq, rfl⟩
    · intro q' b r hq' _ hb
      cases List.mem_singleton.1 hq'
      cases hb

/-! ## One action -/

variable (c)

theorem hist_snoc {sched : List Act} {n : Net W} {N : Nat} (hn : n = run c sched) (hb : Base n N) (hN : N < 2 ^ 53) (hi : RpcInv c n)
    (h : Hist c sched n) (a : Act)
    (hf : ∀ s m, a = .send s m → ∀ k, n.conns s = some k → ∀ kd i, requestOf m = some (kd, i) → rpc kd = true →
      ¬ Outstanding c k.calls kd i)
    (he : ∀ s m, a = .send s (.error m) → ∀ k, n.conns s = some k → m.messageType.val = 68 →
      Unanswered c (WAMPSession.trace c k.calls) m.requestId.val)
    (hj : ∀ d, a = .join d → ∀ d', .addSession d' ∈ n.dealer → d'.sessionId.val ≠ d.sessionId.val) :
    Hist c (sched ++ [a]) (n.step c a) := by
  have hs := stepCase c hb hN a
  generalize n.step c a = n' at hs ⊢
  have hl : n.dealer.length < 2 ^ 53 := Nat.lt_of_le_of_lt hb.dl hN
  cases hs with
  | idle => exact hist_older hl hi h hf (fun _ _ h => h) (fun s k hk => .inr ⟨k, hk, .rfl⟩) (fun _ h => h)
  | joinFail d eb ed h1 h2 h3 =>
    have hs := calls_same (ops := n.dealer) (op := .addSession d) (by simp) (by simp) (by simp)
    exact hist_older hl hi h hf (fun _ _ h => h) (fun s k hk => .inr ⟨k, hk, .rfl⟩) (fun _ h => by rw [hs.1]; exact h)
  | join d h1 h2 h3 =>
    have hs := calls_same (ops := n.dealer) (op := .addSession d) (by simp) (by simp) (by simp)
    refine hist_older hl hi h hf ?_ ?_ (fun _ h => by rw [hs.1]; exact h)
    · intro x hx hsome
      simp only at hsome
      split at hsome
      · rename_i e
        obtain ⟨d', f1, f2⟩ := hi.caller x hx
        exact absurd (f2.trans e) (hj d rfl d' f1)
      · exact hsome
    · intro s k hk
      simp only at hk
      split at hk
      · cases hk; exact .inl rfl
      · exact .inr ⟨k, hk, .rfl⟩
  | leaveFail s eb ed h1 h2 h3 =>
    have hs := calls_same (ops := n.dealer) (op := .removeSession s) (by simp) (by simp) (by simp)
    exact hist_older hl hi h hf (fun _ _ h => h) (fun s k hk => .inr ⟨k, hk, .rfl⟩) (fun _ h => by rw [hs.1]; exact h)
  | leave s k0 h1 h2 h3 =>
    have hs := calls_same (ops := n.dealer) (op := .removeSession s) (by simp) (by simp) (by simp)
    refine hist_older hl hi h hf ?_ ?_ (fun _ h => by rw [hs.1]; exact h)
    · intro x hx hsome
      simp only at hsome
      split at hsome
      · cases hsome
      · exact hsome
    · intro s k hk
      simp only at hk
      split at hk
      · cases hk
      · exact .inr ⟨k, hk, .rfl⟩
  | send s m k0 h1 => exact hist_send hl hi h h1 m (hf s m rfl k0 h1) (fun x e => he s x (by rw [e]) k0 h1)
  | deliver s m k0 rest h1 h2 => exact hist_deliver hn hl hi h h1 h2
  | routeB s m k0 rest op h1 h2 h3 =>
    have hmsg : ∀ q a, (q, a) ∈ brokerOut (Broker.outcome n.broker op) → invId a = none ∧
        ∀ k i, replyTo a = some (k, i) → rpc k = false := by
      intro q a hqa
      have hp := brokerOut_isPub n.broker op _ hqa
      refine ⟨?_, (isPub_effects hp).2⟩
      cases a <;> first | rfl | cases hp
    refine hist_route hl hi h h1 h2 (n.broker ++ [op]) n.dealer _ (fun x hx _ _ => hx) ?_ ?_
    · intro q m hm; cases (hmsg q _ hm).1
    · intro q b r hq _ hb; cases (hmsg q b hq).2 _ _ hb
  | routeD s m k0 rest op h1 h2 h3 =>
    have hreg : (∃ x, m = .register x) ∨ (∃ x, m = .unregister x) → op = .receiveMessage s m →
        Hist c (sched ++ [.route s]) ((⟨n.broker, n.dealer ++ [op], (n.setConn s (some { k0 with up := rest })).conns⟩ : Net W).push
          (dealerOut (Dealer.outcome n.dealer op))) := by
      rintro hm rfl
      have hs := calls_same (ops := n.dealer) (op := .receiveMessage s m) (by rcases hm with ⟨x, rfl⟩ | ⟨x, rfl⟩ <;> simp)
        (by rcases hm with ⟨x, rfl⟩ | ⟨x, rfl⟩ <;> simp) (by rcases hm with ⟨x, rfl⟩ | ⟨x, rfl⟩ <;> simp)
      have hout := reg_out n.dealer s hm
      refine hist_route hl hi h h1 h2 _ _ _ (fun x hx _ _ => by rw [hs.1]; exact hx) ?_ ?_
      · intro q m' hm'; cases (hout q _ hm').1
      · intro q b r hq _ hb; exact absurd hb ((hout q b hq).2 r)
    cases m <;> simp only [dealerCall, reduceCtorEq, Option.some.injEq] at h3
    case call m => subst h3; exact hist_call hn hl hi h h1 h2
    case yield_ m => subst h3; exact hist_answer hl hi h h1 h2 rfl rfl
    case error m => subst h3; exact hist_answer hl hi h h1 h2 rfl rfl
    case register m => exact hreg (.inl ⟨m, rfl⟩) h3.symm
    case unregister m => exact hreg (.inr ⟨m, rfl⟩) h3.symm
  | routeX s m k0 rest h1 h2 =>
    refine hist_older hl hi h hf ?_ ?_ (fun _ h => h)
    · intro x hx hsome
      simp only at hsome
      split at hsome
      · rename_i e; rw [e, h1]; rfl
      · exact hsome
    · intro s' k hk
      simp only at hk
      split at hk
      · rename_i e; subst e; cases hk
        exact .inr ⟨k0, h1, fun a ha => by rw [h2]; exact List.mem_cons_of_mem _ ha, fun _ h => h, fun _ h _ => h⟩
      · exact .inr ⟨k, hk, .rfl⟩

theorem GoodClients.init {sched : List Act} {a : Act} (hg : GoodClients c (sched ++ [a])) : GoodClients c sched :=
  ⟨fun pre s m post e => hg.fresh pre s m (post ++ [a]) (by simp [e]), fun s m hm => hg.plain s m (mem_snoc_of hm),
    fun pre s m post e => hg.errors pre s m (post ++ [a]) (by simp [e]),
    fun pre d mid d' post e => hg.distinct pre d mid d' (post ++ [a]) (by simp [e])⟩

theorem hist_run (sched : List Act) : sched.length ≤ 2 ^ 53 → GoodClients c sched → Hist c sched (run c sched) := by
  induction sched using snoc_induction with
  | nil =>
    intro _ _
    exact ⟨fun s k m hk => (by cases hk), fun s k m hk => (by cases hk), fun s k i hk => (by cases hk),
      fun s k a i hk => (by cases hk), fun s k a r hk => (by cases hk)⟩
  | snoc sched a ih =>
    intro hl hg
    have h1 : sched.length + 1 ≤ 2 ^ 53 := by rw [List.length_append] at hl; exact hl
    have hg' := hg.init
    rw [run_snoc]
    refine hist_snoc c rfl (base_run c sched (by omega)) (by omega) (rpc_run c sched (by omega) hg') (ih (by omega) hg') a ?_ ?_ ?_
    · rintro s m rfl k hk kd i e1 e2; exact hg.fresh sched s m [] rfl k hk kd i e1 e2
    · rintro s m rfl k hk e; exact hg.errors sched s m [] rfl k hk e
    · rintro d rfl d' hd'
      obtain ⟨pre, post, e⟩ := List.append_of_mem (added_join c sched d' hd')
      exact hg.distinct pre d' post d [] (by rw [e])

end Wamp.Spec.Net
