import Verif.Proofs.NetBase

/-! # The network: registrations and calls -/

namespace Wamp.Spec.Net
open Wamp.Spec.Ses

variable {W : Type} (c : Codec W)

/-! ## What the dealer does, in terms of the observed trace -/

/-- Session `s` holds a registration with id `i` at the dealer. -/
def HeldD (ops : List Dealer.Op) (s i : Int) : Prop := ∃ p, (⟨s, p, i⟩ : Rpc.Reg) ∈ (Rpc.view (Dealer.trace ops)).held

/-- The calls in progress. -/
abbrev pendings (ops : List Dealer.Op) : List Rpc.Pending := (Rpc.view (Dealer.trace ops)).pending

/-- The dealer would continue the call of this caller with this request id as this invocation. -/
def Mapped (ops : List Dealer.Op) (s r i : Int) : Prop := (Dealer.after ops).callToInvocationId.get (s, r) = some i

theorem heldD_snoc (ops : List Dealer.Op) (op : Dealer.Op) (s i : Int) :
    HeldD (ops ++ [op]) s i ↔ (∃ p, Rpc.Registers (op, Dealer.outcome ops op) ⟨s, p, i⟩) ∨
      (HeldD ops s i ∧ ¬ Rpc.Ends (op, Dealer.outcome ops op) ⟨s, "", i⟩) := by
  simp only [HeldD, Dealer.trace_snoc, Dealer.view_snoc, Dealer.held_next]
  constructor
  · rintro ⟨p, h | ⟨h, h'⟩⟩
    · exact .inl ⟨p, h⟩
    · exact .inr ⟨⟨p, h⟩, h'⟩
  · rintro (⟨p, h⟩ | ⟨⟨p, h⟩, h'⟩)
    · exact ⟨p, .inl h⟩
    · exact ⟨p, .inr ⟨h, h'⟩⟩

theorem heldD_same {ops : List Dealer.Op} {op : Dealer.Op} {s : Int}
    (h1 : ∀ p i, ¬ Rpc.Registers (op, Dealer.outcome ops op) ⟨s, p, i⟩)
    (h2 : ∀ i, ¬ Rpc.Ends (op, Dealer.outcome ops op) ⟨s, "", i⟩) (i : Int) : HeldD ops s i ↔ HeldD (ops ++ [op]) s i := by
  rw [heldD_snoc]
  constructor
  · intro h; exact .inr ⟨h, h2 i⟩
  · rintro (⟨t, h⟩ | h)
    · exact absurd h (h1 t i)
    · exact h.1

theorem rels (ops : List Dealer.Op) (hl : ops.length < 2 ^ 53) :
    Dealer.RegRel (Dealer.after ops) (Rpc.view (Dealer.trace ops)) ∧ Dealer.CallRel (Dealer.after ops) (Rpc.view (Dealer.trace ops)) :=
  Dealer.rel_after ops (Dealer.C30_ids_not_exhausted ops hl)

theorem heldD_known {ops : List Dealer.Op} (hl : ops.length < 2 ^ 53) {s i : Int} (h : HeldD ops s i) :
    s ∈ (Rpc.view (Dealer.trace ops)).known := by
  obtain ⟨hr, -⟩ := rels ops hl
  obtain ⟨p, h⟩ := h
  obtain ⟨r, h1, h2, -⟩ := (hr.held s p i).1 h
  obtain ⟨d, h3, -⟩ := hr.dict s p r h1 h2
  exact (hr.known s).2 ⟨d, h3⟩

theorem pending_inj {ops : List Dealer.Op} (hl : ops.length < 2 ^ 53) {x y : Rpc.Pending} (hx : x ∈ pendings ops)
    (hy : y ∈ pendings ops) (h : x.inv = y.inv) : x = y := by
  obtain ⟨-, hc⟩ := rels ops hl
  exact hc.inj x (hc.sub x hx) y (hc.sub y hy) h

theorem pendings_snoc (ops : List Dealer.Op) (op : Dealer.Op) :
    pendings (ops ++ [op]) = ((Rpc.view (Dealer.trace ops)).next (op, Dealer.outcome ops op)).pending := by
  simp only [pendings, Dealer.trace_snoc, Dealer.view_snoc]; rfl

theorem mapped_snoc (ops : List Dealer.Op) (op : Dealer.Op) (s r i : Int) :
    Mapped (ops ++ [op]) s r i ↔ ((Dealer.after ops).step op).1.callToInvocationId.get (s, r) = some i := by
  simp only [Mapped, Dealer.after_snoc]

/-- An operation that is not about a call changes nothing about calls. -/
theorem calls_same {ops : List Dealer.Op} {op : Dealer.Op} (h1 : ∀ s m, op ≠ .receiveMessage s (.call m))
    (h2 : ∀ s m, op ≠ .receiveMessage s (.yield_ m)) (h3 : ∀ s m, op ≠ .receiveMessage s (.error m)) :
    pendings (ops ++ [op]) = pendings ops ∧ ∀ s r i, Mapped (ops ++ [op]) s r i ↔ Mapped ops s r i := by
  have hk := Dealer.kind (Dealer.after ops) (Dealer.wf_after ops) op
  rw [pendings_snoc]
  simp only [mapped_snoc, Dealer.outcome]
  generalize (Dealer.after ops).step op = res at hk ⊢
  cases hk with
  | fail e => rw [Dealer.next_error]; exact ⟨rfl, fun _ _ _ => .rfl⟩
  | keyError s m p => exact absurd rfl (h2 s m)
  | add d b' h e =>
    subst e
    refine ⟨rfl, fun s r i => ?_⟩
    simp only [Dealer.addSession, Mapped]; split <;> rfl
  | remove s d b' h e =>
    refine ⟨rfl, fun s' r i => ?_⟩
    obtain ⟨b'', k1, k2⟩ := Dealer.removeSession_ok _ (Dealer.wf_after ops) s d h
    rw [k1] at e; cases e
    simp only [k2.2.2.1.2.1]; rfl
  | has t => exact ⟨rfl, fun _ _ _ => .rfl⟩
  | callNone s m => exact absurd rfl (h1 s m)
  | callContinue s m => exact absurd rfl (h1 s m)
  | callNew s m => exact absurd rfl (h1 s m)
  | yieldProgress s m => exact absurd rfl (h2 s m)
  | yieldFinal s m => exact absurd rfl (h2 s m)
  | registerNew s m d => exact ⟨rfl, fun _ _ _ => .rfl⟩
  | registerTaken s m d r => exact ⟨rfl, fun _ _ _ => .rfl⟩
  | unregister s m d r => exact ⟨rfl, fun _ _ _ => .rfl⟩
  | error s m => exact absurd rfl (h3 s m)

/-! ## Invocations -/

/-- The invocation a message from the router makes. -/
def invId : Message → Option Int
  | .invocation m => some m.requestId.val
  | _ => none

/-- The invocation a message from a client answers. -/
def ansId : Message → Option Int
  | .yield_ m => some m.requestId.val
  | .error m => some m.requestId.val
  | _ => none

/-- The invocations in the hands of a client: on their way to it, received and not answered, answers on their way. -/
def tokens (S : WAMPSession) (up down : List Message) : List Int :=
  down.filterMap invId ++ S.invocationRequests ++ up.filterMap ansId

/-- The client and the dealer agree up to what is in flight. -/
structure RpcConn (D : List Dealer.Op) (s : Int) (k : Conn W) : Prop where
  req : ReqInv rpc (WAMPSession.after c k.calls) k.up k.down
  rep : Replays ((WAMPSession.after c k.calls).names .unregister) (k.down.map regEff)
    ((WAMPSession.after c k.calls).grants .register) (HeldD D s)

/-- The caller of `x`, if it is still there, is waiting for an answer and none is on its way; the dealer knows. -/
structure Awaited (D : List Dealer.Op) (conns : Int → Option (Conn W)) (x : Rpc.Pending) : Prop where
  map : Mapped D x.caller x.request.val x.inv
  wait : ∀ k, conns x.caller = some k → (WAMPSession.after c k.calls).has .call x.request.val ∧
    (.call, x.request.val) ∉ inFlight rpc k.up k.down

/-- The invocation is in the hands of its callee. -/
def Live (conns : Int → Option (Conn W)) (x : Rpc.Pending) : Prop :=
  ∃ k, conns x.callee = some k ∧ x.inv ∈ tokens (WAMPSession.after c k.calls) k.up k.down

/-- The invariant. -/
structure RpcInv (n : Net W) : Prop where
  conn : ∀ s k, n.conns s = some k → RpcConn c n.dealer s k
  nodup : ∀ s k, n.conns s = some k → (tokens (WAMPSession.after c k.calls) k.up k.down).Nodup
  tok : ∀ s k, n.conns s = some k → ∀ i ∈ tokens (WAMPSession.after c k.calls) k.up k.down,
    ∃ x ∈ pendings n.dealer, x.inv = i ∧ x.callee = s ∧ Awaited c n.dealer n.conns x
  plain : ∀ s k m, n.conns s = some k → .call m ∈ k.up → PyDict.flag m.options "progress" = false
  errs : ∀ s k m, n.conns s = some k → .error m ∈ k.up → m.messageType.val = 68
  added : ∀ s k, n.conns s = some k → ∃ d, .addSession d ∈ n.dealer ∧ d.sessionId.val = s
  caller : ∀ x ∈ pendings n.dealer, ∃ d, .addSession d ∈ n.dealer ∧ d.sessionId.val = x.caller

variable {c}

theorem RpcConn.held {D D' : List Dealer.Op} {s : Int} {k : Conn W} (h : RpcConn c D s k)
    (he : ∀ i, HeldD D s i ↔ HeldD D' s i) : RpcConn c D' s k :=
  ⟨h.req, h.rep.congr (fun _ => .rfl) he (fun _ _ _ => .rfl)⟩

theorem RpcConn.push {D D' : List Dealer.Op} {s : Int} {k : Conn W} (h : RpcConn c D s k)
    (he : ∀ i, HeldD D s i ↔ HeldD D' s i) {more : List Message}
    (hm : ∀ m ∈ more, (regEff m = .skip ∨ ∃ t, regEff m = .use t ∧ HeldD D s t) ∧
      ∀ k i, replyTo m = some (k, i) → rpc k = false) : RpcConn c D' s ⟨k.calls, k.up, k.down ++ more⟩ := by
  refine ⟨h.req.push fun m hmm => (hm m hmm).2, ?_⟩
  rw [List.map_append]
  refine (h.held he).rep.append (Replays.skips ?_)
  intro e hee
  obtain ⟨m, hmm, rfl⟩ := List.mem_map.1 hee
  rcases (hm m hmm).1 with h | ⟨t, h, h'⟩
  · exact .inl h
  · exact .inr ⟨t, h, (he t).1 h'⟩

theorem RpcConn.send {D : List Dealer.Op} {s : Int} {k : Conn W} (h : RpcConn c D s k) (m : Message)
    (hf : ∀ kd i, requestOf m = some (kd, i) → rpc kd = true → ¬ Outstanding c k.calls kd i) (b : Bool) :
    RpcConn c D s ⟨k.calls ++ [.sendMessage m], if b then k.up ++ [m] else k.up, k.down⟩ := by
  have hf' : ∀ kd i, requestOf m = some (kd, i) → rpc kd = true → ¬ (WAMPSession.after c k.calls).has kd i := by
    intro kd i h1 h2; rw [WAMPSession.has_after]; exact hf kd i h1 h2
  obtain ⟨h1, h2⟩ := h.req.send c m hf'
  refine ⟨?_, ?_⟩
  · rw [after_send]; cases b
    · exact h2
    · exact h1
  · rw [after_send]
    refine h.rep.send c ?_
    intro r hr e
    obtain ⟨m', hm, e'⟩ := withdraw_reg hr
    exact hf' _ _ e rfl (h.req.has _ _ (mem_inFlight.2 ⟨rfl, .inr ⟨m', hm, e'⟩⟩))

theorem RpcConn.deliver {D : List Dealer.Op} {s : Int} {k : Conn W} (h : RpcConn c D s k) {m : Message} {rest : List Message}
    (hd : k.down = m :: rest) :
    (isRpc m = true → ((WAMPSession.after c k.calls).receiveMessage m).2 = .ok m) ∧
    RpcConn c D s ⟨k.calls ++ [.receiveMessage m], k.up, rest⟩ := by
  obtain ⟨h1, h2⟩ := h
  rw [hd] at h1 h2
  have ha : isRpc m = true → ((WAMPSession.after c k.calls).receiveMessage m).2 = .ok m :=
    fun hm => accept_rpc (fun _ h => h) h1 hm h2
  refine ⟨ha, ⟨?_, ?_⟩⟩
  · rw [after_recv]; exact h1.deliver
  · rw [after_recv]
    refine h2.deliver_reg ha ?_
    intro r hr e
    obtain ⟨m', hm, e'⟩ := withdraw_reg hr
    exact (h1.head e rfl).2 (mem_inFlight.2 ⟨rfl, .inr ⟨m', hm, e'⟩⟩)

theorem RpcConn.drop {D : List Dealer.Op} {s : Int} {k : Conn W} (h : RpcConn c D s k) {m : Message} {rest : List Message}
    (hu : k.up = m :: rest) : RpcConn c D s { k with up := rest } :=
  ⟨by have := h.req; rw [hu] at this; exact this.drop, h.rep⟩

/-- An outstanding request gets its answer. -/
theorem RpcConn.reply {D D' : List Dealer.Op} {s : Int} {k : Conn W} (h : RpcConn c D s k) {a : Message} {kd : Kind} {i : Int}
    (ha : replyTo a = some (kd, i)) (hh : (WAMPSession.after c k.calls).has kd i) (hn : (kd, i) ∉ inFlight rpc k.up k.down)
    (hr : Replays ((WAMPSession.after c k.calls).names .unregister) [regEff a] (HeldD D s) (HeldD D' s)) :
    RpcConn c D' s ⟨k.calls, k.up, k.down ++ [a]⟩ := by
  refine ⟨?_, ?_⟩
  · have h' := h.req
    refine ⟨?_, ?_, h'.unsub, h'.unreg⟩
    · rw [inFlight_append_down]
      simp only [List.filterMap_cons, ha, List.filterMap_nil, List.filter_cons, List.filter_nil]
      split
      · rw [List.nodup_append]
        refine ⟨h'.nodup, by simp, ?_⟩
        intro x hx y hy; rw [List.mem_singleton.1 hy]; rintro rfl; exact hn hx
      · simpa using h'.nodup
    · intro kd' i' hi
      rw [inFlight_append_down, List.mem_append] at hi
      rcases hi with hi | hi
      · exact h'.has _ _ hi
      · simp [ha] at hi; rw [hi.1.1, hi.1.2]; exact hh
  · rw [List.map_append]; exact h.rep.append hr

/-! ## The invocations in a client's hands -/

theorem send_inv (S : WAMPSession) (m : Message) :
    (returned (S.sendMessage c m).2 = true → ∀ i, ansId m = some i →
      ((∃ x, m = .error x ∧ x.messageType.val = 68) ∨ i ∈ S.invocationRequests) ∧
      (S.sendMessage c m).1.invocationRequests = S.invocationRequests.discard i) ∧
    (S.sendMessage c m).1.invocationRequests.Sublist S.invocationRequests := by
  cases m
  case yield_ m =>
    simp only [WAMPSession.sendMessage]
    split
    · rename_i h
      exact ⟨fun _ i e => by cases e; exact ⟨.inr h, rfl⟩, List.filter_sublist⟩
    · exact ⟨(fun h => by cases h), .refl _⟩
  case error m =>
    simp only [WAMPSession.sendMessage]
    split
    · exact ⟨(fun h => by cases h), .refl _⟩
    · rename_i h
      refine ⟨fun _ i e => ?_, List.filter_sublist⟩
      cases e; exact ⟨.inl ⟨_, rfl, Classical.not_not.1 h⟩, rfl⟩
  case publish m =>
    refine ⟨(fun _ i h => by cases h), ?_⟩
    simp only [WAMPSession.sendMessage]; split <;> exact .refl _
  all_goals exact ⟨(fun _ i h => by cases h), .refl _⟩

theorem send_error68 {S : WAMPSession} {m : ErrorMsg} (h : returned (S.sendMessage c (.error m)).2 = true) :
    m.messageType.val = 68 := by
  simp only [WAMPSession.sendMessage] at h
  split at h
  · cases h
  · rename_i h'; exact Classical.not_not.1 h'

theorem move_nodup {A I U : List Int} {i : Int} (h : (A ++ I ++ U).Nodup) (hi : i ∈ I) :
    (A ++ IdSet.discard I i ++ (U ++ [i])).Nodup ∧ ∀ j ∈ A ++ IdSet.discard I i ++ (U ++ [i]), j ∈ A ++ I ++ U := by
  have hp : (A ++ IdSet.discard I i ++ (U ++ [i])).Nodup := by
    simp only [List.nodup_append, List.mem_append, List.mem_singleton, IdSet.mem_discard] at h ⊢
    obtain ⟨⟨h1, h2, h3⟩, h4, h5⟩ := h
    refine ⟨⟨h1, h2.sublist List.filter_sublist, fun a ha b hb => h3 a ha b hb.1⟩, ⟨h4, by simp, ?_⟩, ?_⟩
    · rintro a ha b rfl; exact fun e => h5 b (.inr hi) a ha e.symm
    · rintro a (ha | ha) b (hb | rfl)
      · exact h5 a (.inl ha) b hb
      · exact h3 a ha b hi
      · exact h5 a (.inr ha.1) b hb
      · exact ha.2
  refine ⟨hp, ?_⟩
  intro j hj
  simp only [List.mem_append, List.mem_singleton, IdSet.mem_discard] at hj ⊢
  rcases hj with (hj | hj) | hj | rfl
  · exact .inl (.inl hj)
  · exact .inl (.inr hj.1)
  · exact .inr hj
  · exact .inl (.inr hi)

theorem tokens_send {S : WAMPSession} {up down : List Message} (h : (tokens S up down).Nodup) (m : Message)
    (he : ∀ x, m = .error x → x.messageType.val = 68 → x.requestId.val ∈ S.invocationRequests) :
    (tokens (S.sendMessage c m).1 (if returned (S.sendMessage c m).2 then up ++ [m] else up) down).Nodup ∧
    ∀ i ∈ tokens (S.sendMessage c m).1 (if returned (S.sendMessage c m).2 then up ++ [m] else up) down, i ∈ tokens S up down := by
  obtain ⟨h1, h2⟩ := send_inv (c := c) S m
  have keep : ∀ up', up'.filterMap ansId = up.filterMap ansId → (tokens (S.sendMessage c m).1 up' down).Nodup ∧
      ∀ i ∈ tokens (S.sendMessage c m).1 up' down, i ∈ tokens S up down := by
    intro up' e
    have hs : (tokens (S.sendMessage c m).1 up' down).Sublist (tokens S up down) := by
      unfold tokens; rw [e]; exact (h2.append_left _).append_right _
    exact ⟨h.sublist hs, fun i hi => hs.subset hi⟩
  by_cases hb : returned (S.sendMessage c m).2 = true
  · rw [if_pos hb]
    cases ha : ansId m with
    | none => exact keep _ (by simp [ha])
    | some i =>
      obtain ⟨h3, h4⟩ := h1 hb i ha
      have hi : i ∈ S.invocationRequests := by
        rcases h3 with ⟨x, rfl, hx⟩ | h3
        · cases ha; exact he x rfl hx
        · exact h3
      unfold tokens at h ⊢
      rw [h4]
      have := move_nodup h hi
      simpa [ha] using this
  · rw [if_neg hb]; exact keep _ rfl

theorem recv_inv (S : WAMPSession) (m : Message) (hm : invId m = none) :
    (S.receiveMessage m).1.invocationRequests = S.invocationRequests := by
  cases m
  case invocation m => cases hm
  case error m =>
    simp only [WAMPSession.receiveMessage, WAMPSession.receiveError]
    repeat' split
    all_goals rfl
  all_goals
    simp only [WAMPSession.receiveMessage]
    repeat' split
    all_goals rfl

theorem tokens_deliver {S : WAMPSession} {up rest : List Message} {m : Message} (h : (tokens S up (m :: rest)).Nodup)
    (ha : isRpc m = true → (S.receiveMessage m).2 = .ok m) :
    (tokens (S.receiveMessage m).1 up rest).Nodup ∧
    ∀ i ∈ tokens (S.receiveMessage m).1 up rest, i ∈ tokens S up (m :: rest) := by
  cases hi : invId m with
  | none =>
    unfold tokens at h ⊢
    rw [recv_inv S m hi]
    simp only [List.filterMap_cons, hi] at h ⊢
    exact ⟨h, fun _ h => h⟩
  | some i =>
    cases m <;> simp only [invId, reduceCtorEq] at hi
    case invocation m =>
      have hr : m.registrationId.val ∈ S.registrations := by
        by_cases e : m.registrationId.val ∈ S.registrations
        · exact e
        · have := ha rfl; simp only [WAMPSession.receiveMessage, e, if_false] at this; cases this
      have hS : (S.receiveMessage (.invocation m)).1.invocationRequests = S.invocationRequests.add m.requestId.val := by
        simp only [WAMPSession.receiveMessage, hr, if_true]
      unfold tokens at h ⊢
      rw [hS]
      simp only [List.filterMap_cons, invId, List.cons_append, List.nodup_cons] at h ⊢
      have hn : m.requestId.val ∉ S.invocationRequests := fun e => h.1 (by simp [e])
      rw [IdSet.add, if_neg hn]
      have hp : (rest.filterMap invId ++ (S.invocationRequests ++ [m.requestId.val]) ++ up.filterMap ansId).Perm
          (m.requestId.val :: (rest.filterMap invId ++ S.invocationRequests ++ up.filterMap ansId)) := by
        rw [← List.append_assoc, List.append_assoc (_ ++ _)]
        exact List.perm_middle
      rw [hp.nodup_iff, List.nodup_cons]
      exact ⟨h, fun j hj => hp.mem_iff.1 hj⟩

/-! ## What clients do -/

/-- The caller goes on waiting when a client sends something. -/
theorem Awaited.send {D : List Dealer.Op} {conns : Int → Option (Conn W)} {x : Rpc.Pending} (h : Awaited c D conns x)
    {s : Int} {k : Conn W} (hk : conns s = some k) (m : Message)
    (hf : ∀ kd i, requestOf m = some (kd, i) → rpc kd = true → ¬ Outstanding c k.calls kd i) (b : Bool) :
    Awaited c D (fun s' => if s' = s then some ⟨k.calls ++ [.sendMessage m], if b then k.up ++ [m] else k.up, k.down⟩ else conns s') x := by
  refine ⟨h.map, ?_⟩
  intro k' hk'
  split at hk'
  · rename_i e; cases hk'
    obtain ⟨h1, h2⟩ := h.wait k (e ▸ hk)
    simp only
    rw [after_send, WAMPSession.has_send]
    refine ⟨.inr h1, ?_⟩
    rw [mem_inFlight] at h2 ⊢
    rintro ⟨hK, ⟨m', hm', e'⟩ | h3⟩
    · have : m' ∈ k.up ∨ m' = m := by
        cases b with
        | false => exact .inl hm'
        | true => simpa using hm'
      rcases this with h4 | rfl
      · exact h2 ⟨hK, .inl ⟨m', h4, e'⟩⟩
      · exact hf _ _ e' rfl ((WAMPSession.has_after c k.calls _ _).1 h1)
    · exact h2 ⟨hK, .inr h3⟩
  · exact h.wait k' hk'

theorem Awaited.deliver {D : List Dealer.Op} {conns : Int → Option (Conn W)} {x : Rpc.Pending} (h : Awaited c D conns x)
    {s : Int} {k : Conn W} (hk : conns s = some k) {m : Message} {rest : List Message} (hd : k.down = m :: rest) :
    Awaited c D (fun s' => if s' = s then some ⟨k.calls ++ [.receiveMessage m], k.up, rest⟩ else conns s') x := by
  refine ⟨h.map, ?_⟩
  intro k' hk'
  split at hk'
  · rename_i e; cases hk'
    obtain ⟨h1, h2⟩ := h.wait k (e ▸ hk)
    simp only
    rw [hd, mem_inFlight] at h2
    rw [after_recv, WAMPSession.has_recv]
    refine ⟨⟨h1, fun e' => h2 ⟨rfl, .inr ⟨m, List.mem_cons_self .., e'⟩⟩⟩, ?_⟩
    rw [mem_inFlight]
    rintro ⟨hK, h3 | ⟨m', hm', e'⟩⟩
    · exact h2 ⟨hK, .inl h3⟩
    · exact h2 ⟨hK, .inr ⟨m', List.mem_cons_of_mem _ hm', e'⟩⟩
  · exact h.wait k' hk'

theorem rpc_send {n : Net W} (h : RpcInv c n) {s : Int} {k : Conn W} (hk : n.conns s = some k) (m : Message)
    (hf : ∀ kd i, requestOf m = some (kd, i) → rpc kd = true → ¬ Outstanding c k.calls kd i)
    (he : ∀ x, m = .error x → x.messageType.val = 68 → Unanswered c (WAMPSession.trace c k.calls) x.requestId.val)
    (hp : ∀ x, m = .call x → PyDict.flag x.options "progress" = false) :
    RpcInv c (⟨n.broker, n.dealer, fun s' => if s' = s then some ⟨k.calls ++ [.sendMessage m],
        if returned (WAMPSession.outcome c k.calls (.sendMessage m)) then k.up ++ [m] else k.up, k.down⟩ else n.conns s'⟩ : Net W) := by
  have ho : returned (WAMPSession.outcome c k.calls (.sendMessage m)) =
      returned ((WAMPSession.after c k.calls).sendMessage c m).2 := by
    simp only [WAMPSession.outcome, WAMPSession.step]
    cases ((WAMPSession.after c k.calls).sendMessage c m).2 <;> rfl
  have ht := tokens_send (c := c) (h.nodup s k hk) m (fun x e1 e2 => (WAMPSession.inv_after c k.calls _).2 (he x e1 e2))
  refine ⟨?_, ?_, ?_, ?_, ?_, ?_, h.caller⟩
  · intro s' k' hk'
    simp only at hk' ⊢
    split at hk'
    · rename_i e; cases hk'; subst e; exact (h.conn _ k hk).send m hf _
    · exact h.conn s' k' hk'
  · intro s' k' hk'
    simp only at hk' ⊢
    split at hk'
    · cases hk'; rw [after_send, ho]; exact ht.1
    · exact h.nodup s' k' hk'
  · intro s' k' hk' i hi
    simp only at hk' ⊢
    have : ∃ x ∈ pendings n.dealer, x.inv = i ∧ x.callee = s' ∧ Awaited c n.dealer n.conns x := by
      split at hk'
      · rename_i e; cases hk'; subst e
        rw [after_send, ho] at hi
        exact h.tok _ k hk i (ht.2 i hi)
      · exact h.tok s' k' hk' i hi
    obtain ⟨x, h1, h2, h3, h4⟩ := this
    exact ⟨x, h1, h2, h3, h4.send hk m hf _⟩
  · intro s' k' m' hk' hm'
    simp only at hk'
    split at hk'
    · cases hk'
      simp only at hm'
      split at hm'
      · rcases List.mem_append.1 hm' with hm' | hm'
        · exact h.plain s k m' hk hm'
        · exact hp m' (List.mem_singleton.1 hm').symm
      · exact h.plain s k m' hk hm'
    · exact h.plain s' k' m' hk' hm'
  · intro s' k' m' hk' hm'
    simp only at hk'
    split at hk'
    · cases hk'
      simp only at hm'
      split at hm'
      · rename_i hret
        rcases List.mem_append.1 hm' with hm' | hm'
        · exact h.errs s k m' hk hm'
        · rw [ho, ← List.mem_singleton.1 hm'] at hret
          exact send_error68 hret
      · exact h.errs s k m' hk hm'
    · exact h.errs s' k' m' hk' hm'
  · intro s' k' hk'
    simp only at hk'
    split at hk'
    · rename_i e; subst e; exact h.added _ k hk
    · exact h.added s' k' hk'

theorem rpc_deliver {n : Net W} (h : RpcInv c n) {s : Int} {k : Conn W} (hk : n.conns s = some k) {m : Message}
    {rest : List Message} (hd : k.down = m :: rest) :
    RpcInv c (⟨n.broker, n.dealer,
      fun s' => if s' = s then some ⟨k.calls ++ [.receiveMessage m], k.up, rest⟩ else n.conns s'⟩ : Net W) := by
  have hc := (h.conn s k hk).deliver hd
  have hn := h.nodup s k hk
  rw [hd] at hn
  have ht := tokens_deliver hn hc.1
  refine ⟨?_, ?_, ?_, ?_, ?_, ?_, h.caller⟩
  · intro s' k' hk'
    simp only at hk' ⊢
    split at hk'
    · rename_i e; cases hk'; subst e; exact hc.2
    · exact h.conn s' k' hk'
  · intro s' k' hk'
    simp only at hk' ⊢
    split at hk'
    · cases hk'; rw [after_recv]; exact ht.1
    · exact h.nodup s' k' hk'
  · intro s' k' hk' i hi
    simp only at hk' ⊢
    have : ∃ x ∈ pendings n.dealer, x.inv = i ∧ x.callee = s' ∧ Awaited c n.dealer n.conns x := by
      split at hk'
      · rename_i e; cases hk'; subst e
        rw [after_recv] at hi
        exact h.tok _ k hk i (by rw [hd]; exact ht.2 i hi)
      · exact h.tok s' k' hk' i hi
    obtain ⟨x, h1, h2, h3, h4⟩ := this
    exact ⟨x, h1, h2, h3, h4.deliver hk hd⟩
  · intro s' k' m' hk' hm'
    simp only at hk'
    split at hk'
    · cases hk'; exact h.plain s k m' hk hm'
    · exact h.plain s' k' m' hk' hm'
  · intro s' k' m' hk' hm'
    simp only at hk'
    split at hk'
    · cases hk'; exact h.errs s k m' hk hm'
    · exact h.errs s' k' m' hk' hm'
  · intro s' k' hk'
    simp only at hk'
    split at hk'
    · rename_i e; subst e; exact h.added _ k hk
    · exact h.added s' k' hk'

/-! ## What the router does -/

/-- The router takes a message from the channel. -/
theorem rpc_pop {n : Net W} (h : RpcInv c n) {s : Int} {k : Conn W} (hk : n.conns s = some k) {m : Message}
    {rest : List Message} (hu : k.up = m :: rest) : RpcInv c (n.setConn s (some { k with up := rest })) := by
  have hs : ∀ i ∈ tokens (WAMPSession.after c k.calls) rest k.down, i ∈ tokens (WAMPSession.after c k.calls) k.up k.down := by
    intro i hi; rw [hu]; simp only [tokens, List.mem_append, List.filterMap_cons] at hi ⊢
    rcases hi with hi | hi
    · exact .inl hi
    · right; split
      · exact hi
      · exact List.mem_cons_of_mem _ hi
  refine ⟨?_, ?_, ?_, ?_, ?_, ?_, h.caller⟩
  · intro s' k' hk'
    rw [setConn_conns] at hk'
    split at hk'
    · rename_i e; cases hk'; subst e; exact (h.conn _ k hk).drop hu
    · exact h.conn s' k' hk'
  · intro s' k' hk'
    rw [setConn_conns] at hk'
    split at hk'
    · cases hk'
      refine (h.nodup s k hk).sublist ?_
      rw [hu]; simp only [tokens, List.filterMap_cons]
      refine List.Sublist.append_left ?_ _
      split
      · exact .refl _
      · exact List.sublist_cons_self ..
    · exact h.nodup s' k' hk'
  · intro s' k' hk' i hi
    have : ∃ x ∈ pendings n.dealer, x.inv = i ∧ x.callee = s' ∧ Awaited c n.dealer n.conns x := by
      rw [setConn_conns] at hk'
      split at hk'
      · rename_i e; cases hk'; subst e
        exact h.tok _ k hk i (hs i hi)
      · exact h.tok s' k' hk' i hi
    obtain ⟨x, h1, h2, h3, h4⟩ := this
    refine ⟨x, h1, h2, h3, h4.map, ?_⟩
    intro k'' hk''
    rw [setConn_conns] at hk''
    split at hk''
    · rename_i e; cases hk''
      obtain ⟨g1, g2⟩ := h4.wait k (e ▸ hk)
      refine ⟨g1, fun g3 => g2 ?_⟩
      rw [hu, inFlight_cons_up]; exact List.mem_append_right _ g3
    · exact h4.wait k'' hk''
  · intro s' k' m' hk' hm'
    rw [setConn_conns] at hk'
    split at hk'
    · cases hk'; exact h.plain s k m' hk (by rw [hu]; exact List.mem_cons_of_mem _ hm')
    · exact h.plain s' k' m' hk' hm'
  · intro s' k' m' hk' hm'
    rw [setConn_conns] at hk'
    split at hk'
    · cases hk'; exact h.errs s k m' hk (by rw [hu]; exact List.mem_cons_of_mem _ hm')
    · exact h.errs s' k' m' hk' hm'
  · intro s' k' hk'
    rw [setConn_conns] at hk'
    split at hk'
    · rename_i e; subst e; exact h.added _ k hk
    · exact h.added s' k' hk'

theorem push_some {n : Net W} {out : List (Int × Message)} {s : Int} {k' : Conn W} (h : (n.push out).conns s = some k') :
    ∃ k, n.conns s = some k ∧ k' = ⟨k.calls, k.up, k.down ++ inbox out s⟩ := by
  rw [conns_push] at h
  cases hk : n.conns s with
  | none => rw [hk] at h; cases h
  | some k => rw [hk] at h; cases h; exact ⟨k, rfl, rfl⟩

/-- The router has changed the dealer's state and sends messages none of which is an INVOCATION. -/
theorem rpc_push {n : Net W} (h : RpcInv c n) (B : List Broker.Op) (D : List Dealer.Op) (out : List (Int × Message))
    (hD : ∀ d, .addSession d ∈ n.dealer → .addSession d ∈ D) (hp : ∀ x ∈ pendings D, x ∈ pendings n.dealer)
    (hinv : ∀ q a, (q, a) ∈ out → invId a = none)
    (hc : ∀ s k, n.conns s = some k → RpcConn c D s ⟨k.calls, k.up, k.down ++ inbox out s⟩)
    (hl : ∀ x ∈ pendings n.dealer, Live c n.conns x → Awaited c n.dealer n.conns x →
      x ∈ pendings D ∧ Mapped D x.caller x.request.val x.inv ∧
      ∀ q a, (q, a) ∈ out → q = x.caller → replyTo a ≠ some (.call, x.request.val)) :
    RpcInv c ((⟨B, D, n.conns⟩ : Net W).push out) := by
  have ht : ∀ (k : Conn W) s, tokens (WAMPSession.after c k.calls) k.up (k.down ++ inbox out s) =
      tokens (WAMPSession.after c k.calls) k.up k.down := by
    intro k s
    have : (inbox out s).filterMap invId = [] := by
      rw [List.filterMap_eq_nil_iff]; intro a ha; exact hinv s a (mem_inbox.1 ha)
    simp [tokens, this]
  refine ⟨?_, ?_, ?_, ?_, ?_, ?_, ?_⟩
  · intro s k' hk'
    obtain ⟨k, hk, rfl⟩ := push_some hk'
    exact hc s k hk
  · intro s k' hk'
    obtain ⟨k, hk, rfl⟩ := push_some hk'
    simp only [ht]; exact h.nodup s k hk
  · intro s k' hk' i hi
    obtain ⟨k, hk, rfl⟩ := push_some hk'
    simp only [ht] at hi
    obtain ⟨x, h1, h2, h3, h4⟩ := h.tok s k hk i hi
    obtain ⟨g1, g2, g3⟩ := hl x h1 ⟨k, by rw [h3]; exact hk, by rw [h2]; exact hi⟩ h4
    refine ⟨x, g1, h2, h3, g2, ?_⟩
    intro k'' hk''
    obtain ⟨kc, hkc, rfl⟩ := push_some hk''
    obtain ⟨f1, f2⟩ := h4.wait kc hkc
    refine ⟨f1, ?_⟩
    rw [mem_inFlight] at f2 ⊢
    rintro ⟨hK, h5 | ⟨a, ha, e⟩⟩
    · exact f2 ⟨hK, .inl h5⟩
    · rcases List.mem_append.1 ha with ha | ha
      · exact f2 ⟨hK, .inr ⟨a, ha, e⟩⟩
      · exact g3 _ a (mem_inbox.1 ha) rfl e
  · intro s k' m hk' hm
    obtain ⟨k, hk, rfl⟩ := push_some hk'
    exact h.plain s k m hk hm
  · intro s k' m hk' hm
    obtain ⟨k, hk, rfl⟩ := push_some hk'
    exact h.errs s k m hk hm
  · intro s k' hk'
    obtain ⟨k, hk, rfl⟩ := push_some hk'
    obtain ⟨d, h1, h2⟩ := h.added s k hk
    exact ⟨d, hD d h1, h2⟩
  · intro x hx
    obtain ⟨d, h1, h2⟩ := h.caller x (hp x hx)
    exact ⟨d, hD d h1, h2⟩

/-! ### The dealer handles a message -/

theorem ReqInv.pop {K : Kind → Bool} {S : WAMPSession} {up down : List Message} {m : Message} {kd : Kind} {i : Int}
    (h : ReqInv K S (m :: up) down) (hm : requestOf m = some (kd, i)) (hK : K kd = true) :
    S.has kd i ∧ (kd, i) ∉ inFlight K up down := by
  have hn := h.nodup
  rw [inFlight_cons_up, hm] at hn
  simp only [Option.toList, List.filter_cons, List.filter_nil, hK, if_true, List.cons_append, List.nil_append,
    List.nodup_cons] at hn
  exact ⟨h.has kd i (mem_inFlight.2 ⟨hK, .inl ⟨m, List.mem_cons_self .., hm⟩⟩), hn.1⟩

theorem mem_snoc_of {α : Type} {a b : α} {l : List α} (h : a ∈ l) : a ∈ l ++ [b] := List.mem_append_left _ h

/-- Nothing about registrations happens. -/
theorem heldD_calls {D : List Dealer.Op} {op : Dealer.Op} (h1 : ∀ s m, op ≠ .receiveMessage s (.register m))
    (h2 : ∀ s m, op ≠ .receiveMessage s (.unregister m)) (h3 : ∀ s, op ≠ .removeSession s) (s i : Int) :
    HeldD D s i ↔ HeldD (D ++ [op]) s i := by
  refine heldD_same ?_ ?_ i
  · rintro p j ⟨m, r, q, e, -⟩; exact h1 _ _ (congrArg Prod.fst e)
  · rintro j (⟨m, out, e, -⟩ | ⟨out, e⟩)
    · exact h2 _ _ (congrArg Prod.fst e)
    · exact h3 _ (congrArg Prod.fst e)

/-- Two different live calls have different callers or request ids. -/
theorem awaited_inj {D : List Dealer.Op} (hl : D.length < 2 ^ 53) {conns : Int → Option (Conn W)} {x y : Rpc.Pending}
    (hx : x ∈ pendings D) (hy : y ∈ pendings D) (h1 : Awaited c D conns x) (h2 : Awaited c D conns y)
    (e1 : x.caller = y.caller) (e2 : x.request.val = y.request.val) : x = y := by
  have h3 := h1.map
  have h4 := h2.map
  unfold Mapped at h3 h4
  rw [e1, e2, h4] at h3
  exact (pending_inj hl hy hx (Option.some.inj h3)).symm

/-- REGISTER and UNREGISTER. -/
theorem rpc_reg {n : Net W} (hl : n.dealer.length < 2 ^ 53) (h : RpcInv c n) {s : Int} {k : Conn W} (hk : n.conns s = some k)
    (hs : s ∈ (Rpc.view (Dealer.trace n.dealer)).known) {m : Message}
    {rest : List Message} (hu : k.up = m :: rest) {op : Dealer.Op} (hop : dealerCall s m = some op)
    (hm : (∃ x, m = .register x) ∨ ∃ x, m = .unregister x) :
    RpcInv c ((⟨n.broker, n.dealer ++ [op], (n.setConn s (some { k with up := rest })).conns⟩ : Net W).push
      (dealerOut (Dealer.outcome n.dealer op))) := by
  have hd := Dealer.C30_ids_not_exhausted _ hl
  have hks := h.conn s k hk
  have hpop : ∀ kd i, requestOf m = some (kd, i) → rpc kd = true →
      (WAMPSession.after c k.calls).has kd i ∧ (kd, i) ∉ inFlight rpc rest k.down := by
    intro kd i e1 e2; have := hks.req; rw [hu] at this; exact this.pop e1 e2
  have hop' : op = .receiveMessage s m := by rcases hm with ⟨x, rfl⟩ | ⟨x, rfl⟩ <;> (cases hop; rfl)
  subst hop'
  have hsame := calls_same (ops := n.dealer) (op := .receiveMessage s m) (by rcases hm with ⟨x, rfl⟩ | ⟨x, rfl⟩ <;> simp)
    (by rcases hm with ⟨x, rfl⟩ | ⟨x, rfl⟩ <;> simp) (by rcases hm with ⟨x, rfl⟩ | ⟨x, rfl⟩ <;> simp)
  have hother : ∀ s', s' ≠ s → ∀ i, HeldD n.dealer s' i ↔ HeldD (n.dealer ++ [.receiveMessage s m]) s' i := by
    intro s' hne i
    refine heldD_same ?_ ?_ i
    · rintro p j ⟨m', r, q, e, -⟩
      have := congrArg Prod.fst e; simp only [Dealer.Op.receiveMessage.injEq] at this; exact hne this.1.symm
    · rintro j (⟨m', out, e, -⟩ | ⟨out, e⟩)
      · have := congrArg Prod.fst e; simp only [Dealer.Op.receiveMessage.injEq] at this; exact hne this.1.symm
      · have := congrArg Prod.fst e; simp at this
  -- what has to be shown: the answer, if any, is to the requester and fits
  have main : ∀ out : List (Int × Message), (∀ q a, (q, a) ∈ out → q = s ∧ invId a = none ∧ ∀ i, replyTo a ≠ some (.call, i)) →
      RpcConn c (n.dealer ++ [.receiveMessage s m]) s ⟨k.calls, rest, k.down ++ inbox out s⟩ →
      RpcInv c ((⟨n.broker, n.dealer ++ [.receiveMessage s m], (n.setConn s (some { k with up := rest })).conns⟩ : Net W).push out) := by
    intro out h1 h2
    refine rpc_push (rpc_pop h hk hu) _ _ _ (fun d hd => mem_snoc_of hd) (fun x hx => by rw [hsame.1] at hx; exact hx)
      (fun q a ha => (h1 q a ha).2.1) ?_ ?_
    · intro s' k' hk'
      rw [setConn_conns] at hk'
      split at hk'
      · rename_i e; cases hk'; subst e; exact h2
      · rename_i hne
        have : inbox out s' = [] := by
          rw [List.eq_nil_iff_forall_not_mem]; intro a ha; exact hne (h1 _ _ (mem_inbox.1 ha)).1
        rw [this, List.append_nil]
        exact (h.conn s' k' hk').held (hother s' hne)
    · intro x hx _ ha
      exact ⟨by rw [hsame.1]; exact hx, (hsame.2 _ _ _).2 ha.map, fun q a hqa _ => (h1 q a hqa).2.2 _⟩
  rcases hm with ⟨m, rfl⟩ | ⟨m, rfl⟩
  · obtain ⟨hp1, hp2⟩ := hpop .register m.requestId.val rfl rfl
    by_cases hfree : ∀ x ∈ (Rpc.view (Dealer.trace n.dealer)).held, x.procedure ≠ m.procedure
    · obtain ⟨i, ho, -⟩ := Dealer.C30_register_free n.dealer hd s m hs hfree
      rw [ho]
      refine main _ ?_ ?_
      · intro q a hqa; cases List.mem_singleton.1 hqa; exact ⟨rfl, rfl, fun i => by simp [replyTo]⟩
      · simp only [dealerOut, inbox_single, if_true]
        refine (hks.drop hu).reply (a := .registered ⟨m.requestId, .int i⟩) rfl hp1 hp2 ?_
        intro j
        rw [heldD_snoc, ho]
        constructor
        · rintro (h | rfl)
          · refine .inr ⟨h, ?_⟩
            rintro (⟨m', out, e, -⟩ | ⟨out, e⟩)
            · have := congrArg Prod.fst e; simp at this
            · have := congrArg Prod.fst e; simp at this
          · exact .inl ⟨m.procedure, m, _, _, rfl, rfl, rfl⟩
        · rintro (⟨p, m', r, q, e, -, rfl⟩ | h)
          · have := congrArg Prod.snd e
            simp only [Except.ok.injEq, Dealer.Out.reply.injEq, MessageWithRecipient.mk.injEq, Message.registered.injEq] at this
            rw [← this.1]; exact .inr rfl
          · exact .inl h.1
    · have : ∃ x ∈ (Rpc.view (Dealer.trace n.dealer)).held, x.procedure = m.procedure := by
        exact Classical.byContradiction fun hn => hfree fun x hx e => hn ⟨x, hx, e⟩
      obtain ⟨x, hx, he⟩ := this
      obtain ⟨⟨e, ho, e1, e2, -⟩, -⟩ := Dealer.C30_register_taken n.dealer hd s m hs x hx he
      have hr : replyTo (.error e) = some (.register, m.requestId.val) := by
        simp [replyTo, e1, e2, kindOfCode, PyInt.val]
      rw [ho]
      refine main _ ?_ ?_
      · intro q a hqa; cases List.mem_singleton.1 hqa; exact ⟨rfl, rfl, fun i => by rw [hr]; simp⟩
      · simp only [dealerOut, inbox_single, if_true]
        refine (hks.drop hu).reply hr hp1 hp2 ?_
        intro j
        refine heldD_same ?_ ?_ j
        · rw [ho]; rintro p j ⟨m', r, q, e, -⟩; have := congrArg Prod.snd e; simp at this
        · rintro j (⟨m', out, e, -⟩ | ⟨out, e⟩)
          · have := congrArg Prod.fst e; simp at this
          · have := congrArg Prod.fst e; simp at this
  · obtain ⟨hp1, hp2⟩ := hpop .unregister m.requestId.val rfl rfl
    by_cases hh : HeldD n.dealer s m.registrationId.val
    · obtain ⟨p, hh⟩ := hh
      have ho := (Dealer.C41_unregister_held n.dealer hd _ hh m rfl).1
      simp only at ho
      rw [ho]
      refine main _ ?_ ?_
      · intro q a hqa; cases List.mem_singleton.1 hqa; exact ⟨rfl, rfl, fun i => by simp [replyTo]⟩
      · simp only [dealerOut, inbox_single, if_true]
        refine (hks.drop hu).reply (a := .unregistered ⟨m.requestId⟩) rfl hp1 hp2 ?_
        refine ⟨m.registrationId.val, hks.req.unreg rfl m (by rw [hu]; exact List.mem_cons_self ..), ⟨p, hh⟩, ?_⟩
        intro j
        simp only
        rw [heldD_snoc, ho]
        constructor
        · rintro ⟨h, hne⟩
          refine .inr ⟨h, ?_⟩
          rintro (⟨m', out, e, e'⟩ | ⟨out, e⟩)
          · have := congrArg Prod.fst e
            simp only [Dealer.Op.receiveMessage.injEq, Message.unregister.injEq, true_and] at this
            rw [← this] at e'; exact hne e'.symm
          · have := congrArg Prod.fst e; simp at this
        · rintro (⟨t, m', r, rec, e, -, rfl⟩ | h)
          · have := congrArg Prod.fst e; simp at this
          · refine ⟨h.1, ?_⟩
            rintro rfl; exact h.2 (.inl ⟨m, _, rfl, rfl⟩)
    · obtain ⟨⟨msg, ho⟩, -⟩ := Dealer.C41_unregister_not_held n.dealer hd s m (fun x hx e1 e2 => hh ⟨x.procedure, by
        rw [← e1, ← e2]; exact hx⟩)
      rw [ho]
      refine main _ (by intro q a hqa; cases hqa) ?_
      simp only [dealerOut, inbox_nil, List.append_nil]
      refine (hks.drop hu).held ?_
      intro j
      refine heldD_same ?_ ?_ j
      · rintro p j ⟨m', r, q, e, -⟩; have := congrArg Prod.fst e; simp at this
      · rw [ho]
        rintro j (⟨m', out, e, -⟩ | ⟨out, e⟩)
        · have := congrArg Prod.snd e; simp at this
        · have := congrArg Prod.fst e; simp at this

theorem live_awaited {n : Net W} (hl : n.dealer.length < 2 ^ 53) (h : RpcInv c n) {x : Rpc.Pending} (hx : x ∈ pendings n.dealer)
    (hv : Live c n.conns x) : Awaited c n.dealer n.conns x := by
  obtain ⟨k, h1, h2⟩ := hv
  obtain ⟨y, g1, g2, -, g4⟩ := h.tok _ k h1 _ h2
  rw [pending_inj hl hx g1 g2.symm]; exact g4

/-- What is live after a message was taken from the channel was live before. -/
theorem live_pop {n : Net W} {s : Int} {k : Conn W} (hk : n.conns s = some k) {m : Message} {rest : List Message}
    (hu : k.up = m :: rest) {x : Rpc.Pending} (h : Live c (n.setConn s (some { k with up := rest })).conns x) : Live c n.conns x := by
  obtain ⟨k', h1, h2⟩ := h
  rw [setConn_conns] at h1
  split at h1
  · rename_i e; cases h1
    refine ⟨k, by rw [e]; exact hk, ?_⟩
    rw [hu]
    simp only [tokens, List.mem_append, List.filterMap_cons] at h2 ⊢
    rcases h2 with h2 | h2
    · exact .inl h2
    · right; split
      · exact h2
      · exact List.mem_cons_of_mem _ h2
  · exact ⟨k', h1, h2⟩

/-- The dealer accepts the answer to a pending, mapped call by its callee. -/
theorem answer_facts (D : List Dealer.Op) (hl : D.length < 2 ^ 53) {x : Rpc.Pending} (hx : x ∈ pendings D)
    (hm : Mapped D x.caller x.request.val x.inv) {m : Message} (ha : ansId m = some x.inv)
    (he : ∀ e, m = .error e → e.messageType.val = 68) :
    ∃ a, Dealer.outcome D (.receiveMessage x.callee m) = .ok (.reply ⟨a, x.caller⟩) ∧ invId a = none ∧ regEff a = .skip ∧
      replyTo a = some (.call, x.request.val) ∧
      (∀ z ∈ pendings (D ++ [.receiveMessage x.callee m]), z ∈ pendings D) ∧
      (∀ z ∈ pendings D, z ≠ x → z ∈ pendings (D ++ [.receiveMessage x.callee m])) ∧
      ∀ s r i, ¬ (s = x.caller ∧ r = x.request.val) → Mapped D s r i → Mapped (D ++ [.receiveMessage x.callee m]) s r i := by
  obtain ⟨-, hc⟩ := rels D hl
  obtain ⟨p, hp, hxe⟩ := hc.sup x hx
  have e1 : x.caller = p.callerId := by rw [hxe]; rfl
  have e2 : x.request = p.requestId := by rw [hxe]; rfl
  have e3 : x.callee = p.calleeId := by rw [hxe]; rfl
  have keep : ∀ z ∈ pendings D, z ≠ x → z.inv ≠ x.inv := fun z hz hne e => hne (pending_inj hl hz hx e)
  simp only [mapped_snoc, pendings_snoc]
  cases m <;> simp only [ansId, reduceCtorEq, Option.some.injEq] at ha
  case yield_ y =>
    rw [← ha] at hp
    cases hf : (PyDict.flag y.options "progress" && p.receiveProgress.truthy) with
    | true =>
      rw [Bool.and_eq_true] at hf
      have h := Dealer.yield_progress (Dealer.after D) x.callee y p hp e3 hf.1 hf.2
      have ht : Value.truthy ((PyDict.get? y.options "progress").getD (.bool false)) = true := by
        rw [Dealer.flag_eq]; exact hf.1
      simp only [Dealer.outcome, h]
      rw [Dealer.next_yield_progress ht, e1, e2]
      exact ⟨_, rfl, rfl, rfl, rfl, fun z h => h, fun z h _ => h, fun _ _ _ _ h => h⟩
    | false =>
      have hm' := hm
      unfold Mapped at hm'
      rw [e1, e2] at hm'
      have h := Dealer.yield_final (Dealer.after D) x.callee y p hp e3 hf _ hm'
      simp only [Dealer.outcome, h]
      rw [Dealer.next_yield_final, e1, e2]
      refine ⟨_, rfl, rfl, rfl, rfl, fun z h => (List.mem_filter.1 h).1, fun z h hne => ?_, ?_⟩
      · exact List.mem_filter.2 ⟨h, by rw [ha]; simpa using keep z h hne⟩
      · intro s r i hne h
        rw [Dict.get_del, if_neg]
        · exact h
        · intro e; exact hne ⟨(congrArg Prod.fst e).symm, (congrArg Prod.snd e).symm⟩
  case error e =>
    rw [← ha] at hp
    have h := Dealer.error_accepted (Dealer.after D) x.callee e p (he e rfl) hp
    simp only [Dealer.outcome, h]
    rw [e1, e2]
    refine ⟨_, rfl, rfl, rfl, by simp [replyTo, kindOfCode, PyInt.val], fun z h => (List.mem_filter.1 h).1, fun z h hne => ?_,
      fun _ _ _ _ h => h⟩
    exact List.mem_filter.2 ⟨h, by rw [ha]; simpa using keep z h hne⟩

/-- YIELD and ERROR: which call they are about. -/
theorem answer_head {n : Net W} (h : RpcInv c n) {s : Int} {k : Conn W} (hk : n.conns s = some k) {m : Message}
    {rest : List Message} (hu : k.up = m :: rest) {i : Int} (ha : ansId m = some i) :
    ∃ x ∈ pendings n.dealer, x.inv = i ∧ x.callee = s ∧ Awaited c n.dealer n.conns x ∧
      i ∉ tokens (WAMPSession.after c k.calls) rest k.down := by
  have hn := h.nodup s k hk
  have hmem : i ∈ tokens (WAMPSession.after c k.calls) k.up k.down := by
    rw [hu]; simp only [tokens, List.mem_append, List.filterMap_cons, ha]; exact .inr (List.mem_cons_self ..)
  obtain ⟨x, h1, h2, h3, h4⟩ := h.tok s k hk i hmem
  refine ⟨x, h1, h2, h3, h4, ?_⟩
  rw [hu] at hn
  simp only [tokens, List.filterMap_cons, ha] at hn ⊢
  have := (List.perm_middle (a := i) (l₁ := k.down.filterMap invId ++ (WAMPSession.after c k.calls).invocationRequests)
    (l₂ := rest.filterMap ansId)).nodup_iff.1 hn
  exact (List.nodup_cons.1 this).1

theorem rpc_answer {n : Net W} (hl : n.dealer.length < 2 ^ 53) (h : RpcInv c n) {s : Int} {k : Conn W} (hk : n.conns s = some k)
    {m : Message} {rest : List Message} (hu : k.up = m :: rest) {op : Dealer.Op} (hop : dealerCall s m = some op) {i : Int}
    (ha : ansId m = some i) :
    RpcInv c ((⟨n.broker, n.dealer ++ [op], (n.setConn s (some { k with up := rest })).conns⟩ : Net W).push
      (dealerOut (Dealer.outcome n.dealer op))) := by
  obtain ⟨x, hx, rfl, rfl, hw, hni⟩ := answer_head h hk hu ha
  have hop' : op = .receiveMessage x.callee m := by
    cases m <;> simp only [ansId, reduceCtorEq] at ha <;> (cases hop; rfl)
  have hreg : (∀ x, m ≠ .register x) ∧ ∀ x, m ≠ .unregister x := by
    cases m <;> simp only [ansId, reduceCtorEq] at ha <;> simp
  subst hop'
  have hd := Dealer.C30_ids_not_exhausted _ hl
  obtain ⟨a, ho, a1, a2, a3, f1, f2, f3⟩ := answer_facts n.dealer hl hx hw.map ha
    (fun e e' => h.errs _ k e hk (by rw [hu, e']; exact List.mem_cons_self ..))
  rw [ho]
  simp only [dealerOut]
  have hheld : ∀ s' i, HeldD n.dealer s' i ↔ HeldD (n.dealer ++ [.receiveMessage x.callee m]) s' i := by
    intro s' i
    refine heldD_calls ?_ ?_ ?_ s' i
    · intro s m' e; cases e; exact hreg.1 _ rfl
    · intro s m' e; cases e; exact hreg.2 _ rfl
    · intro s e; cases e
  have hpop := rpc_pop h hk hu
  refine rpc_push hpop _ _ _ (fun d hd => mem_snoc_of hd) f1 ?_ ?_ ?_
  · intro q a' hqa; cases List.mem_singleton.1 hqa; exact a1
  · intro s' k' hk'
    simp only [inbox_single]
    have hc' := hpop.conn s' k' hk'
    split
    · rename_i e
      have hk0 : ∃ k0, n.conns x.caller = some k0 ∧ k0.calls = k'.calls ∧ k0.down = k'.down ∧
          ∀ y, y ∈ inFlight rpc k'.up k'.down → y ∈ inFlight rpc k0.up k0.down := by
        rw [setConn_conns] at hk'
        split at hk'
        · rename_i e'; cases hk'
          refine ⟨k, by rw [e, e', hk], rfl, rfl, ?_⟩
          intro y hy; rw [hu, inFlight_cons_up]; exact List.mem_append_right _ hy
        · exact ⟨k', by rw [e]; exact hk', rfl, rfl, fun _ h => h⟩
      obtain ⟨k0, g1, g2, -, g3⟩ := hk0
      obtain ⟨g4, g5⟩ := hw.wait k0 g1
      refine hc'.reply a3 (by rw [← g2]; exact g4) (fun hh => g5 (g3 _ hh)) ?_
      rw [a2]
      exact fun j => hheld s' j
    · rw [List.append_nil]; exact hc'.held (hheld s')
  · intro z hz hlive _
    have hwz := live_awaited hl h hz (live_pop hk hu hlive)
    have hne : z ≠ x := by
      rintro rfl
      obtain ⟨k', g1, g2⟩ := hlive
      rw [setConn_conns, if_pos rfl] at g1
      cases g1; exact hni g2
    refine ⟨f2 z hz hne, f3 _ _ _ ?_ hwz.map, ?_⟩
    · rintro ⟨e1, e2⟩; exact hne (awaited_inj hl hz hx hwz hw e1 e2)
    · intro q a' hqa e1 e2
      cases List.mem_singleton.1 hqa
      rw [a3] at e2
      simp only [Option.some.injEq, Prod.mk.injEq, true_and] at e2
      exact hne (awaited_inj hl hz hx hwz hw e1.symm e2.symm)

/-- An INVOCATION for a new call is sent. -/
theorem rpc_invoke {n : Net W} (h : RpcInv c n) (B : List Broker.Op) (D : List Dealer.Op) (x : Rpc.Pending) (inv : Invocation)
    (hi : inv.requestId.val = x.inv) (hD : ∀ d, .addSession d ∈ n.dealer → .addSession d ∈ D)
    (hp : ∀ z, z ∈ pendings D ↔ z ∈ pendings n.dealer ∨ z = x) (hfr : ∀ z ∈ pendings n.dealer, z.inv ≠ x.inv)
    (hheld : ∀ s i, HeldD n.dealer s i ↔ HeldD D s i) (hr : HeldD n.dealer x.callee inv.registrationId.val)
    (hx : Awaited c D n.conns x) (hadd : ∃ d, .addSession d ∈ n.dealer ∧ d.sessionId.val = x.caller)
    (hl : ∀ z ∈ pendings n.dealer, Live c n.conns z → Awaited c n.dealer n.conns z → Mapped D z.caller z.request.val z.inv) :
    RpcInv c ((⟨B, D, n.conns⟩ : Net W).push [(x.callee, .invocation inv)]) := by
  have hfl : ∀ (k : Conn W) s, inFlight rpc k.up (k.down ++ inbox [(x.callee, Message.invocation inv)] s) = inFlight rpc k.up k.down := by
    intro k s
    rw [inFlight_append_down, inbox_single]
    split <;> simp [replyTo]
  have haw : ∀ z, Awaited c D n.conns z → Awaited c D ((⟨B, D, n.conns⟩ : Net W).push [(x.callee, .invocation inv)]).conns z := by
    intro z hz
    refine ⟨hz.map, ?_⟩
    intro k' hk'
    obtain ⟨k, hk, rfl⟩ := push_some hk'
    simp only [hfl]
    exact hz.wait k hk
  have ht : ∀ (k : Conn W) s, (tokens (WAMPSession.after c k.calls) k.up (k.down ++ inbox [(x.callee, Message.invocation inv)] s)).Perm
      ((if x.callee = s then [x.inv] else []) ++ tokens (WAMPSession.after c k.calls) k.up k.down) := by
    intro k s
    rw [inbox_single]
    split
    · simp only [tokens, List.filterMap_append, List.filterMap_cons, List.filterMap_nil, invId, hi, List.append_assoc]
      exact List.perm_append_comm_assoc _ _ _
    · simp
  have hnew : ∀ s k, n.conns s = some k → x.inv ∉ tokens (WAMPSession.after c k.calls) k.up k.down := by
    intro s k hk hm
    obtain ⟨z, h1, h2, -⟩ := h.tok s k hk _ hm
    exact hfr z h1 h2
  refine ⟨?_, ?_, ?_, ?_, ?_, ?_, ?_⟩
  · intro s k' hk'
    obtain ⟨k, hk, rfl⟩ := push_some hk'
    refine (h.conn s k hk).push (hheld s) ?_
    intro m hm
    have := mem_inbox.1 hm
    cases List.mem_singleton.1 this
    exact ⟨.inr ⟨_, rfl, hr⟩, fun k i e => by cases e⟩
  · intro s k' hk'
    obtain ⟨k, hk, rfl⟩ := push_some hk'
    simp only
    rw [(ht k s).nodup_iff]
    split
    · exact List.nodup_cons.2 ⟨hnew s k hk, h.nodup s k hk⟩
    · exact h.nodup s k hk
  · intro s k' hk' i hi'
    obtain ⟨k, hk, rfl⟩ := push_some hk'
    simp only at hi'
    rw [(ht k s).mem_iff, List.mem_append] at hi'
    rcases hi' with hi' | hi'
    · split at hi'
      · rename_i e
        refine ⟨x, (hp x).2 (.inr rfl), (List.mem_singleton.1 hi').symm, e, haw x hx⟩
      · cases hi'
    · obtain ⟨z, h1, h2, h3, h4⟩ := h.tok s k hk i hi'
      refine ⟨z, (hp z).2 (.inl h1), h2, h3, haw z ⟨?_, h4.wait⟩⟩
      exact hl z h1 ⟨k, by rw [h3]; exact hk, by rw [h2]; exact hi'⟩ h4
  · intro s k' m hk' hm
    obtain ⟨k, hk, rfl⟩ := push_some hk'
    exact h.plain s k m hk hm
  · intro s k' m hk' hm
    obtain ⟨k, hk, rfl⟩ := push_some hk'
    exact h.errs s k m hk hm
  · intro s k' hk'
    obtain ⟨k, hk, rfl⟩ := push_some hk'
    obtain ⟨d, h1, h2⟩ := h.added s k hk
    exact ⟨d, hD d h1, h2⟩
  · intro z hz
    rcases (hp z).1 hz with hz | rfl
    · obtain ⟨d, h1, h2⟩ := h.caller z hz; exact ⟨d, hD d h1, h2⟩
    · obtain ⟨d, h1, h2⟩ := hadd; exact ⟨d, hD d h1, h2⟩

theorem rpc_call {n : Net W} (hl : n.dealer.length < 2 ^ 53) (h : RpcInv c n) {s : Int} {k : Conn W} (hk : n.conns s = some k)
    {m : Call} {rest : List Message} (hu : k.up = .call m :: rest) :
    RpcInv c ((⟨n.broker, n.dealer ++ [.receiveMessage s (.call m)], (n.setConn s (some { k with up := rest })).conns⟩ : Net W).push
      (dealerOut (Dealer.outcome n.dealer (.receiveMessage s (.call m))))) := by
  have hd := Dealer.C30_ids_not_exhausted _ hl
  have hks := h.conn s k hk
  obtain ⟨hp1, hp2⟩ : (WAMPSession.after c k.calls).has .call m.requestId.val ∧ (.call, m.requestId.val) ∉ inFlight rpc rest k.down := by
    have := hks.req; rw [hu] at this; exact this.pop rfl rfl
  have hplain := h.plain s k m hk (by rw [hu]; exact List.mem_cons_self ..)
  have hpop := rpc_pop h hk hu
  have hheld : ∀ s' i, HeldD n.dealer s' i ↔ HeldD (n.dealer ++ [.receiveMessage s (.call m)]) s' i := by
    intro s' i
    exact heldD_calls (by simp) (by simp) (by simp) s' i
  have hne : ∀ z ∈ pendings n.dealer, Live c (n.setConn s (some { k with up := rest })).conns z →
      ¬ (z.caller = s ∧ z.request.val = m.requestId.val) := by
    rintro z hz hlive ⟨e1, e2⟩
    have := (live_awaited hl h hz (live_pop hk hu hlive)).wait k (by rw [e1]; exact hk)
    rw [hu, e2, mem_inFlight] at this
    exact this.2 ⟨rfl, .inl ⟨_, List.mem_cons_self .., rfl⟩⟩
  obtain ⟨hr, hc⟩ := rels n.dealer hl
  have hwf := Dealer.wf_after n.dealer
  cases hp : (Dealer.after n.dealer).registrationsByProcedure.get m.procedure with
  | none =>
    have hcl := Dealer.call_none _ s m hp
    have ho : Dealer.outcome n.dealer (.receiveMessage s (.call m)) = _ := congrArg Prod.snd hcl
    rw [ho]
    simp only [dealerOut]
    have hsame : pendings (n.dealer ++ [.receiveMessage s (.call m)]) = pendings n.dealer := by
      rw [pendings_snoc, ho]; rfl
    refine rpc_push hpop _ _ _ (fun d hd => mem_snoc_of hd) (fun x hx => by rw [hsame] at hx; exact hx) ?_ ?_ ?_
    · intro q a hqa; cases List.mem_singleton.1 hqa; rfl
    · intro s' k' hk'
      have hc' := hpop.conn s' k' hk'
      simp only [inbox_single]
      split
      · rename_i e
        subst e
        rw [setConn_conns, if_pos rfl] at hk'; cases hk'
        exact hc'.reply (kd := .call) (i := m.requestId.val) (by simp [replyTo, kindOfCode, Call.TYPE, PyInt.val]) hp1 hp2 (fun j => hheld _ j)
      · rw [List.append_nil]; exact hc'.held (hheld s')
    · intro z hz hlive ha
      refine ⟨by rw [hsame]; exact hz, ?_, ?_⟩
      · rw [mapped_snoc, hcl]; exact ha.map
      · intro q a hqa e1 e2
        cases List.mem_singleton.1 hqa
        simp [replyTo, kindOfCode, Call.TYPE, PyInt.val] at e2
        exact hne z hz hlive ⟨e1.symm, e2.symm⟩
  | some r =>
    obtain ⟨-, ⟨q, hq⟩, -⟩ := hwf.proc _ _ hp
    have hcl := Dealer.call_new _ s m r q hp hq (.inl hplain)
    have ho : Dealer.outcome n.dealer (.receiveMessage s (.call m)) = _ := congrArg Prod.snd hcl
    have hid : (Dealer.after n.dealer).idgen.next.2 = ((Rpc.view (Dealer.trace n.dealer)).drawn : Int) + 1 := by
      rw [hc.gen, Dealer.idgen_next]; exact Dealer.draw_small hd
    have hnew : ∀ x ∈ (Rpc.view (Dealer.trace n.dealer)).issued, x.inv ≠ (Dealer.after n.dealer).idgen.next.2 := by
      intro x hx e; have := hc.range x hx; omega
    have hpend : pendings (n.dealer ++ [.receiveMessage s (.call m)]) = pendings n.dealer ++
        [⟨(Dealer.after n.dealer).idgen.next.2, s, m.requestId, q, PyDict.flag m.options "receive_progress"⟩] := by
      rw [pendings_snoc, ho, Dealer.next_call_new hnew]
    rw [ho]
    simp only [dealerOut]
    refine rpc_invoke hpop _ _ ⟨(Dealer.after n.dealer).idgen.next.2, s, m.requestId, q, PyDict.flag m.options "receive_progress"⟩ _ rfl
      (fun d hd => mem_snoc_of hd) ?_ ?_ hheld ?_ ?_ (h.added s k hk) ?_
    · intro z; rw [hpend]; simp [pendings]; rfl
    · intro z hz; exact hnew z (hc.sub z hz)
    · exact ⟨m.procedure, (hr.held _ _ _).2 ⟨r, hp, hq, rfl⟩⟩
    · refine ⟨?_, ?_⟩
      · rw [mapped_snoc, hcl]; simp only [Dict.get_set, if_true]
      · intro k' hk'
        rw [setConn_conns, if_pos rfl] at hk'; cases hk'
        exact ⟨hp1, hp2⟩
    · intro z hz hlive ha
      rw [mapped_snoc, hcl]
      simp only
      rw [Dict.get_set, if_neg]
      · exact ha.map
      · intro e; exact hne z hz hlive ⟨(congrArg Prod.fst e).symm, (congrArg Prod.snd e).symm⟩

/-! ## One action -/

/-- Calls are not touched and at most clients disappear. -/
theorem rpc_same {n : Net W} (h : RpcInv c n) (B : List Broker.Op) (D : List Dealer.Op) (conns : Int → Option (Conn W))
    (hD : ∀ d, .addSession d ∈ n.dealer → .addSession d ∈ D) (hp : pendings D = pendings n.dealer)
    (hm : ∀ s r i, Mapped D s r i ↔ Mapped n.dealer s r i) (hc : ∀ s k, conns s = some k → n.conns s = some k)
    (hh : ∀ s k, conns s = some k → ∀ i, HeldD n.dealer s i ↔ HeldD D s i) : RpcInv c (⟨B, D, conns⟩ : Net W) := by
  refine ⟨?_, ?_, ?_, ?_, ?_, ?_, ?_⟩
  · intro s k hk; exact (h.conn s k (hc s k hk)).held (hh s k hk)
  · intro s k hk; exact h.nodup s k (hc s k hk)
  · intro s k hk i hi
    obtain ⟨x, h1, h2, h3, h4⟩ := h.tok s k (hc s k hk) i hi
    exact ⟨x, by rw [hp]; exact h1, h2, h3, (hm _ _ _).2 h4.map, fun k' hk' => h4.wait k' (hc _ k' hk')⟩
  · intro s k m hk; exact h.plain s k m (hc s k hk)
  · intro s k m hk; exact h.errs s k m (hc s k hk)
  · intro s k hk; obtain ⟨d, h1, h2⟩ := h.added s k (hc s k hk); exact ⟨d, hD d h1, h2⟩
  · intro x hx
    simp only at hx
    rw [hp] at hx; obtain ⟨d, h1, h2⟩ := h.caller x hx; exact ⟨d, hD d h1, h2⟩

variable (c)

theorem rpc_step {n : Net W} {N : Nat} (hb : Base n N) (hN : N < 2 ^ 53) (h : RpcInv c n) (a : Act)
    (hf : ∀ s m, a = .send s m → ∀ k, n.conns s = some k → ∀ kd i, requestOf m = some (kd, i) → rpc kd = true →
      ¬ Outstanding c k.calls kd i)
    (hp : ∀ s m, a = .send s (.call m) → PyDict.flag m.options "progress" = false)
    (he : ∀ s m, a = .send s (.error m) → ∀ k, n.conns s = some k → m.messageType.val = 68 →
      Unanswered c (WAMPSession.trace c k.calls) m.requestId.val)
    (hj : ∀ d, a = .join d → ∀ d', .addSession d' ∈ n.dealer → d'.sessionId.val ≠ d.sessionId.val) : RpcInv c (n.step c a) := by
  have hs := stepCase c hb hN a
  generalize n.step c a = n' at hs ⊢
  have hl : n.dealer.length < 2 ^ 53 := Nat.lt_of_le_of_lt hb.dl hN
  cases hs with
  | idle => exact h
  | joinFail d eb ed h1 h2 h3 =>
    have hs := calls_same (ops := n.dealer) (op := .addSession d) (by simp) (by simp) (by simp)
    exact rpc_same h _ _ _ (fun d hd => mem_snoc_of hd) hs.1 hs.2 (fun _ _ h => h)
      (fun s k _ i => heldD_calls (by simp) (by simp) (by simp) s i)
  | join d h1 h2 h3 =>
    have hs := calls_same (ops := n.dealer) (op := .addSession d) (by simp) (by simp) (by simp)
    have hh : ∀ s i, HeldD n.dealer s i ↔ HeldD (n.dealer ++ [.addSession d]) s i :=
      fun s i => heldD_calls (by simp) (by simp) (by simp) s i
    refine ⟨?_, ?_, ?_, ?_, ?_, ?_, ?_⟩
    · intro s k hk
      simp only at hk ⊢
      split at hk
      · rename_i e; cases hk; subst e
        refine RpcConn.held (D := n.dealer) ⟨reqInv_init _, ?_⟩ (hh _)
        intro i
        refine ⟨(fun h => by cases h), fun h => ?_⟩
        have := heldD_known hl h
        rw [hb.dk, h1] at this; cases this
      · exact (h.conn s k hk).held (hh s)
    · intro s k hk
      simp only at hk ⊢
      split at hk
      · cases hk; exact List.nodup_nil
      · exact h.nodup s k hk
    · intro s k hk i hi
      simp only at hk ⊢
      split at hk
      · cases hk; cases hi
      · obtain ⟨x, g1, g2, g3, g4⟩ := h.tok s k hk i hi
        refine ⟨x, by rw [hs.1]; exact g1, g2, g3, (hs.2 _ _ _).2 g4.map, ?_⟩
        intro k' hk'
        split at hk'
        · rename_i e
          obtain ⟨d', f1, f2⟩ := h.caller x g1
          exact absurd (f2.trans e) (hj d rfl d' f1)
        · exact g4.wait k' hk'
    · intro s k m hk hm
      simp only at hk
      split at hk
      · cases hk; cases hm
      · exact h.plain s k m hk hm
    · intro s k m hk hm
      simp only at hk
      split at hk
      · cases hk; cases hm
      · exact h.errs s k m hk hm
    · intro s k hk
      simp only at hk ⊢
      split at hk
      · rename_i e; exact ⟨d, by simp, e.symm⟩
      · obtain ⟨d', f1, f2⟩ := h.added s k hk; exact ⟨d', mem_snoc_of f1, f2⟩
    · intro x hx
      simp only at hx ⊢
      rw [hs.1] at hx
      obtain ⟨d', f1, f2⟩ := h.caller x hx; exact ⟨d', mem_snoc_of f1, f2⟩
  | leaveFail s eb ed h1 h2 h3 =>
    have hs := calls_same (ops := n.dealer) (op := .removeSession s) (by simp) (by simp) (by simp)
    refine rpc_same h _ _ _ (fun d hd => mem_snoc_of hd) hs.1 hs.2 (fun _ _ h => h) ?_
    intro s' k _ i
    refine heldD_same ?_ ?_ i
    · rintro p j ⟨m', r, q, e, -⟩; have := congrArg Prod.fst e; simp at this
    · rw [h3]
      rintro j (⟨m', out, e, -⟩ | ⟨out, e⟩)
      · have := congrArg Prod.fst e; simp at this
      · have := congrArg Prod.snd e; simp at this
  | leave s k0 h1 h2 h3 =>
    have hs := calls_same (ops := n.dealer) (op := .removeSession s) (by simp) (by simp) (by simp)
    refine rpc_same h _ _ _ (fun d hd => mem_snoc_of hd) hs.1 hs.2 ?_ ?_
    · intro s' k hk
      split at hk
      · cases hk
      · exact hk
    · intro s' k hk i
      split at hk
      · cases hk
      · rename_i hne
        refine heldD_same ?_ ?_ i
        · rintro p j ⟨m', r, q, e, -⟩; have := congrArg Prod.fst e; simp at this
        · rintro j (⟨m', out, e, -⟩ | ⟨out, e⟩)
          · have := congrArg Prod.fst e; simp at this
          · have := congrArg Prod.fst e; simp only [Dealer.Op.removeSession.injEq] at this; exact hne this.symm
  | send s m k0 h1 =>
    exact rpc_send h h1 m (hf s m rfl k0 h1) (fun x e => he s x (by rw [e]) k0 h1) (fun x e => hp s x (by rw [e]))
  | deliver s m k0 rest h1 h2 => exact rpc_deliver h h1 h2
  | routeB s m k0 rest op h1 h2 h3 =>
    have hmsg : ∀ q a, (q, a) ∈ brokerOut (Broker.outcome n.broker op) → invId a = none ∧ regEff a = .skip ∧
        ∀ k i, replyTo a = some (k, i) → rpc k = false := by
      intro q a hqa
      have hp := brokerOut_isPub n.broker op _ hqa
      have := isPub_effects hp
      refine ⟨?_, this.1, this.2⟩
      cases a <;> first | rfl | cases hp
    exact rpc_push (rpc_pop h h1 h2) (n.broker ++ [op]) n.dealer _ (fun d hd => hd) (fun x hx => hx)
      (fun q a hqa => (hmsg q a hqa).1)
      (fun s' k' hk' => ((rpc_pop h h1 h2).conn s' k' hk').push (fun _ => .rfl)
        (fun m hm => ⟨.inl (hmsg _ _ (mem_inbox.1 hm)).2.1, (hmsg _ _ (mem_inbox.1 hm)).2.2⟩))
      (fun x hx _ ha => ⟨hx, ha.map, fun q a hqa _ e => by have := (hmsg q a hqa).2.2 _ _ e; cases this⟩)
  | routeD s m k0 rest op h1 h2 h3 =>
    have hs : s ∈ (Rpc.view (Dealer.trace n.dealer)).known := by rw [hb.dk, h1]; rfl
    cases m <;> simp only [dealerCall, reduceCtorEq, Option.some.injEq] at h3
    case call m => subst h3; exact rpc_call hl h h1 h2
    case yield_ m => subst h3; exact rpc_answer hl h h1 h2 rfl rfl
    case error m => subst h3; exact rpc_answer hl h h1 h2 rfl rfl
    case register m => subst h3; exact rpc_reg hl h h1 hs h2 rfl (.inl ⟨m, rfl⟩)
    case unregister m => subst h3; exact rpc_reg hl h h1 hs h2 rfl (.inr ⟨m, rfl⟩)
  | routeX s m k0 rest h1 h2 => exact rpc_pop h h1 h2

/-- Sessions come only from joins. -/
theorem added_join (sched : List Act) (d : SessionDetails) : .addSession d ∈ (run c sched).dealer → .join d ∈ sched := by
  induction sched using snoc_induction with
  | nil => intro h; cases h
  | snoc sched a ih =>
    rw [run_snoc]
    intro h
    have keep : .addSession d ∈ (run c sched).dealer → .join d ∈ sched ++ [a] := fun h => List.mem_append_left _ (ih h)
    cases a with
    | join d' =>
      have : .addSession d ∈ (run c sched).dealer ++ [.addSession d'] := by
        simp only [Net.step] at h; split at h <;> exact h
      rcases List.mem_append.1 this with h | h
      · exact keep h
      · cases List.mem_singleton.1 h; simp
    | leave s =>
      have : .addSession d ∈ (run c sched).dealer ++ [.removeSession s] := h
      rcases List.mem_append.1 this with h | h
      · exact keep h
      · cases List.mem_singleton.1 h
    | send s m => simp only [Net.step] at h; split at h <;> exact keep h
    | deliver s =>
      simp only [Net.step] at h
      split at h
      · exact keep h
      · split at h <;> exact keep h
    | route s =>
      simp only [Net.step] at h
      split at h
      · exact keep h
      · split at h
        · exact keep h
        · rename_i m rest _
          simp only [Net.handle] at h
          split at h
          · exact keep h
          · rename_i op _ hop
            have h' : .addSession d ∈ (run c sched).dealer ++ [op] := h
            rcases List.mem_append.1 h' with h | h
            · exact keep h
            · cases List.mem_singleton.1 h; exact absurd rfl ((dealerCall_op hop).1 d)
          · exact keep h

theorem rpc_run (sched : List Act) : sched.length ≤ 2 ^ 53 → GoodClients c sched → RpcInv c (run c sched) := by
  induction sched using snoc_induction with
  | nil =>
    intro _ _
    refine ⟨?_, ?_, ?_, ?_, ?_, ?_, ?_⟩
    · intro s k hk; cases hk
    · intro s k hk; cases hk
    · intro s k hk; cases hk
    · intro s k m hk; cases hk
    · intro s k m hk; cases hk
    · intro s k hk; cases hk
    · intro x hx; cases hx
  | snoc sched a ih =>
    intro hl hg
    have h1 : sched.length + 1 ≤ 2 ^ 53 := by rw [List.length_append] at hl; exact hl
    have hg' : GoodClients c sched := by
      refine ⟨fun pre s m post e => hg.fresh pre s m (post ++ [a]) (by simp [e]), fun s m hm => hg.plain s m (mem_snoc_of hm),
        fun pre s m post e => hg.errors pre s m (post ++ [a]) (by simp [e]),
        fun pre d mid d' post e => hg.distinct pre d mid d' (post ++ [a]) (by simp [e])⟩
    rw [run_snoc]
    refine rpc_step c (base_run c sched (by omega)) (by omega) (ih (by omega) hg') a ?_ ?_ ?_ ?_
    · rintro s m rfl k hk kd i e1 e2; exact hg.fresh sched s m [] rfl k hk kd i e1 e2
    · rintro s m rfl; exact hg.plain s m (by simp)
    · rintro s m rfl k hk e; exact hg.errors sched s m [] rfl k hk e
    · rintro d rfl d' hd'
      obtain ⟨pre, post, e⟩ := List.append_of_mem (added_join c sched d' hd')
      exact hg.distinct pre d' post d [] (by rw [e])

end Wamp.Spec.Net
