import Verif.Spec.Network
import Verif.Proofs.SessionView

/-! # One client and its channels -/

namespace Wamp.Spec.Net
open Wamp.Spec.Ses

/-! ## Replaying what is in flight -/

/-- What a message from the router does to a client's grants. -/
inductive Eff where
  | grant (t : Int) | withdraw (r : Int) | use (t : Int) | skip

/-- On subscriptions. -/
def subEff : Message → Eff
  | .subscribed m => .grant m.subscriptionId.val
  | .unsubscribed m => .withdraw m.requestId.val
  | .event m => .use m.subscriptionId.val
  | _ => .skip
/-- On registrations. -/
def regEff : Message → Eff
  | .registered m => .grant m.registrationId.val
  | .unregistered m => .withdraw m.requestId.val
  | .invocation m => .use m.registrationId.val
  | _ => .skip

/-- Starting with the grants `P`, all effects are acceptable in turn and the grants end up as `Q`.  `nm r t` says that the
withdrawal request `r` names `t`. -/
def Replays (nm : Int → Int → Prop) : List Eff → (Int → Prop) → (Int → Prop) → Prop
  | [], P, Q => ∀ i, P i ↔ Q i
  | .grant t :: l, P, Q => Replays nm l (fun i => P i ∨ i = t) Q
  | .withdraw r :: l, P, Q => ∃ t, nm r t ∧ P t ∧ Replays nm l (fun i => P i ∧ i ≠ t) Q
  | .use t :: l, P, Q => P t ∧ Replays nm l P Q
  | .skip :: l, P, Q => Replays nm l P Q

theorem Replays.congr {nm nm' : Int → Int → Prop} {l : List Eff} : ∀ {P P' Q Q' : Int → Prop}, Replays nm l P Q →
    (∀ i, P i ↔ P' i) → (∀ i, Q i ↔ Q' i) → (∀ r, Eff.withdraw r ∈ l → ∀ t, nm r t ↔ nm' r t) → Replays nm' l P' Q' := by
  induction l with
  | nil => intro P P' Q Q' h hp hq _ i; rw [← hp, h i, hq]
  | cons e l ih =>
    intro P P' Q Q' h hp hq hn
    have hn' : ∀ r, Eff.withdraw r ∈ l → ∀ t, nm r t ↔ nm' r t := fun r hr => hn r (List.mem_cons_of_mem _ hr)
    cases e with
    | grant t => exact ih h (fun i => by rw [hp]) hq hn'
    | withdraw r =>
      obtain ⟨t, h1, h2, h3⟩ := h
      exact ⟨t, (hn r (List.mem_cons_self ..) t).1 h1, (hp t).1 h2, ih h3 (fun i => by rw [hp]) hq hn'⟩
    | use t => exact ⟨(hp t).1 h.1, ih h.2 hp hq hn'⟩
    | skip => exact ih h hp hq hn'

theorem Replays.append {nm : Int → Int → Prop} {l l' : List Eff} : ∀ {P Q R : Int → Prop}, Replays nm l P Q →
    Replays nm l' Q R → Replays nm (l ++ l') P R := by
  induction l with
  | nil => intro P Q R h h'; exact h'.congr (fun i => (h i).symm) (fun _ => .rfl) (fun _ _ _ => .rfl)
  | cons e l ih =>
    intro P Q R h h'
    cases e with
    | grant t => exact ih h h'
    | withdraw r => obtain ⟨t, h1, h2, h3⟩ := h; exact ⟨t, h1, h2, ih h3 h'⟩
    | use t => exact ⟨h.1, ih h.2 h'⟩
    | skip => exact ih h h'

theorem Replays.skips {nm : Int → Int → Prop} {l : List Eff} {P : Int → Prop} (h : ∀ e ∈ l, e = .skip ∨ ∃ t, e = .use t ∧ P t) :
    Replays nm l P P := by
  induction l with
  | nil => exact fun _ => .rfl
  | cons e l ih =>
    have h' := ih fun e he => h e (List.mem_cons_of_mem _ he)
    rcases h e (List.mem_cons_self ..) with rfl | ⟨t, rfl, ht⟩
    · exact h'
    · exact ⟨ht, h'⟩

/-- A grant that no withdrawal in flight names survives the replay. -/
theorem Replays.keeps {nm : Int → Int → Prop} {l : List Eff} {i : Int} : ∀ {P Q : Int → Prop}, Replays nm l P Q → P i →
    (∀ r, Eff.withdraw r ∈ l → ¬ nm r i) → Q i := by
  induction l with
  | nil => intro P Q h hp _; exact (h i).1 hp
  | cons e l ih =>
    intro P Q h hp hn
    have hn' : ∀ r, Eff.withdraw r ∈ l → ¬ nm r i := fun r hr => hn r (List.mem_cons_of_mem _ hr)
    cases e with
    | grant t => exact ih h (.inl hp) hn'
    | withdraw r =>
      obtain ⟨t, h1, h2, h3⟩ := h
      exact ih h3 ⟨hp, by rintro rfl; exact hn r (List.mem_cons_self ..) h1⟩ hn'
    | use t => exact ih h.2 hp hn'
    | skip => exact ih h hp hn'

/-! ## Requests in flight -/

/-- The requests of the kinds `K` in flight: asked for but not yet routed, and answered but not yet delivered. -/
def inFlight (K : Kind → Bool) (up down : List Message) : List (Kind × Int) :=
  (up.filterMap requestOf ++ down.filterMap replyTo).filter (K ·.1)

/-- Requests in flight are distinct and the client is waiting for them; withdrawals in flight are known to the client. -/
structure ReqInv (K : Kind → Bool) (S : WAMPSession) (up down : List Message) : Prop where
  nodup : (inFlight K up down).Nodup
  has : ∀ k i, (k, i) ∈ inFlight K up down → S.has k i
  unsub : K .unsubscribe = true → ∀ m, .unsubscribe m ∈ up → S.names .unsubscribe m.requestId.val m.subscriptionId.val
  unreg : K .unregister = true → ∀ m, .unregister m ∈ up → S.names .unregister m.requestId.val m.registrationId.val

theorem mem_inFlight {K : Kind → Bool} {up down : List Message} {k : Kind} {i : Int} :
    (k, i) ∈ inFlight K up down ↔
      K k = true ∧ ((∃ m ∈ up, requestOf m = some (k, i)) ∨ ∃ m ∈ down, replyTo m = some (k, i)) := by
  simp [inFlight, and_comm, and_or_left]

theorem reqInv_init (K : Kind → Bool) : ReqInv K {} [] [] := by
  refine ⟨List.nodup_nil, ?_, ?_, ?_⟩ <;> simp [inFlight]

variable {W : Type} (c : Codec W)

theorem inFlight_snoc_up (K : Kind → Bool) (up down : List Message) (m : Message) :
    (inFlight K (up ++ [m]) down).Perm ((requestOf m).toList.filter (K ·.1) ++ inFlight K up down) := by
  simp only [inFlight, List.filterMap_append, List.filterMap_cons, List.filterMap_nil, List.filter_append]
  cases requestOf m with
  | none => simp
  | some x =>
    simp only [Option.toList]
    rw [List.append_assoc]
    exact List.perm_append_comm_assoc _ _ _

theorem inFlight_cons_up (K : Kind → Bool) (up down : List Message) (m : Message) :
    inFlight K (m :: up) down = (requestOf m).toList.filter (K ·.1) ++ inFlight K up down := by
  simp only [inFlight, List.filterMap_cons, List.filter_append]
  cases requestOf m with
  | none => simp
  | some x => simp only [Option.toList, List.filter_cons, List.filter_nil]; split <;> simp

theorem inFlight_cons_down (K : Kind → Bool) (up down : List Message) (m : Message) :
    (inFlight K up (m :: down)).Perm ((replyTo m).toList.filter (K ·.1) ++ inFlight K up down) := by
  simp only [inFlight, List.filterMap_cons, List.filter_append]
  cases replyTo m with
  | none => simp
  | some x =>
    simp only [Option.toList, List.filter_cons, List.filter_nil]
    split
    · exact List.perm_middle
    · simp

theorem inFlight_append_down (K : Kind → Bool) (up down more : List Message) :
    inFlight K up (down ++ more) = inFlight K up down ++ (more.filterMap replyTo).filter (K ·.1) := by
  simp [inFlight]

theorem names_unique {S : WAMPSession} {k : Kind} {r t t' : Int} (h : S.names k r t) (h' : S.names k r t') : t = t' := by
  cases k <;> simp only [WAMPSession.names] at h h' <;> first | exact h.elim | (rw [h] at h'; exact Option.some.inj h')

theorem names_has {S : WAMPSession} {k : Kind} {r t : Int} (h : S.names k r t) : S.has k r := by
  cases k <;> simp only [WAMPSession.names] at h <;> first | exact h.elim | (simp only [WAMPSession.has, h]; rfl)

theorem ReqInv.send {K : Kind → Bool} {S : WAMPSession} {up down : List Message} (h : ReqInv K S up down) (m : Message)
    (hf : ∀ k i, requestOf m = some (k, i) → K k = true → ¬ S.has k i) :
    ReqInv K (S.sendMessage c m).1 (up ++ [m]) down ∧ ReqInv K (S.sendMessage c m).1 up down := by
  have hkeep : ∀ k r t, K k = true → S.names k r t → (S.sendMessage c m).1.names k r t := by
    intro k r t hK hn
    rw [WAMPSession.names_send]
    exact .inr ⟨hn, fun e => hf k r e hK (names_has hn)⟩
  have hold : ReqInv K (S.sendMessage c m).1 up down := by
    refine ⟨h.nodup, ?_, ?_, ?_⟩
    · intro k i hi; rw [WAMPSession.has_send]; exact .inr (h.has k i hi)
    · intro hK m' hm; exact hkeep _ _ _ hK (h.unsub hK m' hm)
    · intro hK m' hm; exact hkeep _ _ _ hK (h.unreg hK m' hm)
  refine ⟨⟨?_, ?_, ?_, ?_⟩, hold⟩
  · rw [(inFlight_snoc_up K up down m).nodup_iff]
    cases hm : requestOf m with
    | none => simpa using h.nodup
    | some x =>
      obtain ⟨k, i⟩ := x
      simp only [Option.toList, List.filter_cons, List.filter_nil]
      split
      · rename_i hK
        simp only [List.cons_append, List.nil_append, List.nodup_cons]
        exact ⟨fun hi => hf k i hm hK (h.has k i hi), h.nodup⟩
      · simpa using h.nodup
  · intro k i hi
    rw [(inFlight_snoc_up K up down m).mem_iff, List.mem_append] at hi
    rw [WAMPSession.has_send]
    rcases hi with hi | hi
    · left
      cases hm : requestOf m with
      | none => rw [hm] at hi; simp at hi
      | some x => rw [hm] at hi; simp at hi; rw [← hi.1]
    · exact .inr (h.has k i hi)
  · intro hK m' hm
    rcases List.mem_append.1 hm with hm | hm
    · exact hold.unsub hK m' hm
    · cases List.mem_singleton.1 hm
      rw [WAMPSession.names_send]; exact .inl (.inl ⟨rfl, m', rfl, rfl, rfl⟩)
  · intro hK m' hm
    rcases List.mem_append.1 hm with hm | hm
    · exact hold.unreg hK m' hm
    · cases List.mem_singleton.1 hm
      rw [WAMPSession.names_send]; exact .inl (.inr ⟨rfl, m', rfl, rfl, rfl⟩)

/-- The reply at the head of the channel is to a request nothing else in flight belongs to. -/
theorem ReqInv.head {K : Kind → Bool} {S : WAMPSession} {up down : List Message} {m : Message} {k : Kind} {i : Int}
    (h : ReqInv K S up (m :: down)) (hm : replyTo m = some (k, i)) (hK : K k = true) :
    S.has k i ∧ (k, i) ∉ inFlight K up down := by
  have hn := h.nodup
  rw [(inFlight_cons_down K up down m).nodup_iff, hm] at hn
  simp only [Option.toList, List.filter_cons, List.filter_nil, hK, if_true, List.cons_append, List.nil_append,
    List.nodup_cons] at hn
  exact ⟨h.has k i (mem_inFlight.2 ⟨hK, .inr ⟨m, List.mem_cons_self .., hm⟩⟩), hn.1⟩

theorem ReqInv.deliver {K : Kind → Bool} {S : WAMPSession} {up down : List Message} {m : Message}
    (h : ReqInv K S up (m :: down)) : ReqInv K (S.receiveMessage m).1 up down := by
  have hsub : ∀ k i, (k, i) ∈ inFlight K up down → (k, i) ∈ inFlight K up (m :: down) ∧ replyTo m ≠ some (k, i) := by
    intro k i hi
    refine ⟨?_, fun e => (h.head e (mem_inFlight.1 hi).1).2 hi⟩
    rw [(inFlight_cons_down K up down m).mem_iff]; exact List.mem_append_right _ hi
  have hn := h.nodup
  rw [(inFlight_cons_down K up down m).nodup_iff] at hn
  refine ⟨(List.nodup_append.1 hn).2.1, ?_, ?_, ?_⟩
  · intro k i hi
    rw [WAMPSession.has_recv]; exact ⟨h.has k i (hsub k i hi).1, (hsub k i hi).2⟩
  · intro hK m' hm
    rw [WAMPSession.names_recv]
    exact ⟨h.unsub hK m' hm, (hsub _ _ (mem_inFlight.2 ⟨hK, .inl ⟨_, hm, rfl⟩⟩)).2⟩
  · intro hK m' hm
    rw [WAMPSession.names_recv]
    exact ⟨h.unreg hK m' hm, (hsub _ _ (mem_inFlight.2 ⟨hK, .inl ⟨_, hm, rfl⟩⟩)).2⟩

/-- Dropping a routed message that got no reply. -/
theorem ReqInv.drop {K : Kind → Bool} {S : WAMPSession} {up down : List Message} {m : Message}
    (h : ReqInv K S (m :: up) down) : ReqInv K S up down := by
  have hn := h.nodup
  rw [inFlight_cons_up] at hn
  refine ⟨(List.nodup_append.1 hn).2.1, ?_, fun hK m' hm => h.unsub hK m' (List.mem_cons_of_mem _ hm),
    fun hK m' hm => h.unreg hK m' (List.mem_cons_of_mem _ hm)⟩
  intro k i hi; exact h.has k i (by rw [inFlight_cons_up]; exact List.mem_append_right _ hi)

/-- A routed request is answered. -/
theorem ReqInv.answer {K : Kind → Bool} {S : WAMPSession} {up down : List Message} {m a : Message}
    (h : ReqInv K S (m :: up) down) (ha : replyTo a = requestOf m) : ReqInv K S up (down ++ [a]) := by
  have hp : (inFlight K up (down ++ [a])).Perm (inFlight K (m :: up) down) := by
    rw [inFlight_cons_up, inFlight_append_down]
    have : (([a].filterMap replyTo).filter (K ·.1)) = (requestOf m).toList.filter (K ·.1) := by
      rw [← ha]; cases h : replyTo a <;> simp [h]
    rw [this]; exact List.perm_append_comm
  refine ⟨hp.nodup_iff.2 h.nodup, fun k i hi => h.has k i (hp.mem_iff.1 hi),
    fun hK m' hm => h.unsub hK m' (List.mem_cons_of_mem _ hm), fun hK m' hm => h.unreg hK m' (List.mem_cons_of_mem _ hm)⟩

/-- Messages that reply to no request of these kinds. -/
theorem ReqInv.push {K : Kind → Bool} {S : WAMPSession} {up down more : List Message} (h : ReqInv K S up down)
    (hm : ∀ m ∈ more, ∀ k i, replyTo m = some (k, i) → K k = false) : ReqInv K S up (down ++ more) := by
  have : inFlight K up (down ++ more) = inFlight K up down := by
    rw [inFlight_append_down]
    have : (more.filterMap replyTo).filter (K ·.1) = [] := by
      rw [List.filter_eq_nil_iff]
      rintro ⟨k, i⟩ hx
      obtain ⟨m, h1, h2⟩ := List.mem_filterMap.1 hx
      simp [hm m h1 k i h2]
    rw [this, List.append_nil]
  exact ⟨this ▸ h.nodup, fun k i hi => h.has k i (this ▸ hi), h.unsub, h.unreg⟩

/-! ## Grants -/

theorem Replays.send {wk gk : Kind} {S : WAMPSession} {l : List Eff} {Q : Int → Prop} {m : Message}
    (h : Replays (S.names wk) l (S.grants gk) Q) (hf : ∀ r, Eff.withdraw r ∈ l → requestOf m ≠ some (wk, r)) :
    Replays ((S.sendMessage c m).1.names wk) l ((S.sendMessage c m).1.grants gk) Q := by
  refine h.congr (fun i => (WAMPSession.grants_send c S m gk i).symm) (fun _ => .rfl) ?_
  intro r hr t
  rw [WAMPSession.names_send]
  constructor
  · intro h; exact .inr ⟨h, hf r hr⟩
  · rintro (h | h)
    · rcases h with ⟨rfl, m', e, rfl, -⟩ | ⟨rfl, m', e, rfl, -⟩ <;>
        · cases e; exact absurd rfl (hf _ hr)
    · exact h.1

theorem withdraw_sub {l : List Message} {r : Int} (h : Eff.withdraw r ∈ l.map subEff) :
    ∃ m ∈ l, replyTo m = some (.unsubscribe, r) := by
  obtain ⟨m, hm, e⟩ := List.mem_map.1 h
  cases m <;> simp only [subEff] at e <;> cases e
  exact ⟨_, hm, rfl⟩

theorem withdraw_reg {l : List Message} {r : Int} (h : Eff.withdraw r ∈ l.map regEff) :
    ∃ m ∈ l, replyTo m = some (.unregister, r) := by
  obtain ⟨m, hm, e⟩ := List.mem_map.1 h
  cases m <;> simp only [regEff] at e <;> cases e
  exact ⟨_, hm, rfl⟩

/-- A broker message at the head of the channel is accepted. -/
theorem accept_pub {K : Kind → Bool} (hK : ∀ k, pubSub k = true → K k = true) {S : WAMPSession} {up down : List Message}
    {m : Message} {Q : Int → Prop} (h : ReqInv K S up (m :: down)) (hm : isPub m = true)
    (hr : Replays (S.names .unsubscribe) ((m :: down).map subEff) (S.grants .subscribe) Q) :
    (S.receiveMessage m).2 = .ok m := by
  cases m <;> simp only [isPub, Bool.false_eq_true] at hm
  case subscribed m => exact (WAMPSession.recv_plain rfl rfl).1 (h.head rfl (hK _ rfl)).1
  case published m => exact (WAMPSession.recv_plain rfl rfl).1 (h.head rfl (hK _ rfl)).1
  case unsubscribed m =>
    obtain ⟨t, h1, h2, -⟩ := hr
    exact ((WAMPSession.recv_unsubscribed S m).2 t h1).1 h2
  case event m =>
    have h1 : m.subscriptionId.val ∈ S.subscriptions := hr.1
    simp only [WAMPSession.receiveMessage, h1, if_true]

theorem Replays.deliver_sub {S : WAMPSession} {m : Message} {l : List Message} {Q : Int → Prop}
    (h : Replays (S.names .unsubscribe) ((m :: l).map subEff) (S.grants .subscribe) Q)
    (ha : isPub m = true → (S.receiveMessage m).2 = .ok m)
    (hn : ∀ r, Eff.withdraw r ∈ l.map subEff → replyTo m ≠ some (.unsubscribe, r)) :
    Replays ((S.receiveMessage m).1.names .unsubscribe) (l.map subEff) ((S.receiveMessage m).1.grants .subscribe) Q := by
  have hg : ∀ i, (S.receiveMessage m).1.grants .subscribe i ↔ _ := fun i => WAMPSession.subs_recv S m i
  have hnm : ∀ r, Eff.withdraw r ∈ l.map subEff → ∀ t, S.names .unsubscribe r t ↔ (S.receiveMessage m).1.names .unsubscribe r t := by
    intro r hr t; rw [WAMPSession.names_recv]; exact ⟨fun h => ⟨h, hn r hr⟩, fun h => h.1⟩
  cases m
  case subscribed m =>
    refine Replays.congr (P := fun i => S.grants .subscribe i ∨ i = m.subscriptionId.val) h ?_ (fun _ => .rfl) hnm
    intro i; rw [hg]; simp [ha rfl, WAMPSession.grants, or_comm, eq_comm]
  case unsubscribed m =>
    obtain ⟨t, h1, h2, h3⟩ := h
    refine Replays.congr h3 ?_ (fun _ => .rfl) hnm
    intro i; rw [hg, ha rfl]
    constructor
    · rintro ⟨h4, h5⟩
      refine .inr ⟨h4, ?_⟩
      rintro ⟨-, m', e, h6⟩; cases e; exact h5 (names_unique h6 h1)
    · rintro (⟨-, m', e, -⟩ | ⟨h4, h5⟩)
      · cases e
      · exact ⟨h4, by rintro rfl; exact h5 ⟨⟨_, rfl⟩, m, rfl, h1⟩⟩
  case event m =>
    refine Replays.congr h.2 ?_ (fun _ => .rfl) hnm
    intro i; rw [hg]; simp [WAMPSession.grants]
  all_goals
    refine Replays.congr (P := S.grants .subscribe) h ?_ (fun _ => .rfl) hnm
    intro i; rw [hg]; simp [WAMPSession.grants]

/-- A dealer message at the head of the channel is accepted. -/
theorem accept_rpc {K : Kind → Bool} (hK : ∀ k, rpc k = true → K k = true) {S : WAMPSession} {up down : List Message}
    {m : Message} {Q : Int → Prop} (h : ReqInv K S up (m :: down)) (hm : isRpc m = true)
    (hr : Replays (S.names .unregister) ((m :: down).map regEff) (S.grants .register) Q) :
    (S.receiveMessage m).2 = .ok m := by
  cases m <;> simp only [isRpc, Bool.false_eq_true] at hm
  case registered m => exact (WAMPSession.recv_plain rfl rfl).1 (h.head rfl (hK _ rfl)).1
  case result m => exact (WAMPSession.recv_plain rfl rfl).1 (h.head rfl (hK _ rfl)).1
  case error m =>
    simp only [Bool.or_eq_true, decide_eq_true_eq] at hm
    rcases hm with hm | hm
    · have e : replyTo (.error m) = some (.call, m.requestId.val) := by simp [replyTo, kindOfCode, hm]
      exact (WAMPSession.recv_plain (by simp [WAMPSession.plainReply, kindOfCode, hm]) e).1 (h.head e (hK _ rfl)).1
    · have e : replyTo (.error m) = some (.register, m.requestId.val) := by simp [replyTo, kindOfCode, hm]
      exact (WAMPSession.recv_plain (by simp [WAMPSession.plainReply, kindOfCode, hm]) e).1 (h.head e (hK _ rfl)).1
  case unregistered m =>
    obtain ⟨t, h1, h2, -⟩ := hr
    exact ((WAMPSession.recv_unregistered S m).2 t h1).1 h2
  case invocation m =>
    have h1 : m.registrationId.val ∈ S.registrations := hr.1
    simp only [WAMPSession.receiveMessage, h1, if_true]

theorem Replays.deliver_reg {S : WAMPSession} {m : Message} {l : List Message} {Q : Int → Prop}
    (h : Replays (S.names .unregister) ((m :: l).map regEff) (S.grants .register) Q)
    (ha : isRpc m = true → (S.receiveMessage m).2 = .ok m)
    (hn : ∀ r, Eff.withdraw r ∈ l.map regEff → replyTo m ≠ some (.unregister, r)) :
    Replays ((S.receiveMessage m).1.names .unregister) (l.map regEff) ((S.receiveMessage m).1.grants .register) Q := by
  have hg : ∀ i, (S.receiveMessage m).1.grants .register i ↔ _ := fun i => WAMPSession.regs_recv S m i
  have hnm : ∀ r, Eff.withdraw r ∈ l.map regEff → ∀ t, S.names .unregister r t ↔ (S.receiveMessage m).1.names .unregister r t := by
    intro r hr t; rw [WAMPSession.names_recv]; exact ⟨fun h => ⟨h, hn r hr⟩, fun h => h.1⟩
  cases m
  case registered m =>
    refine Replays.congr (P := fun i => S.grants .register i ∨ i = m.registrationId.val) h ?_ (fun _ => .rfl) hnm
    intro i; rw [hg]; simp [ha rfl, WAMPSession.grants, or_comm, eq_comm]
  case unregistered m =>
    obtain ⟨t, h1, h2, h3⟩ := h
    refine Replays.congr h3 ?_ (fun _ => .rfl) hnm
    intro i; rw [hg, ha rfl]
    constructor
    · rintro ⟨h4, h5⟩
      refine .inr ⟨h4, ?_⟩
      rintro ⟨-, m', e, h6⟩; cases e; exact h5 (names_unique h6 h1)
    · rintro (⟨-, m', e, -⟩ | ⟨h4, h5⟩)
      · cases e
      · exact ⟨h4, by rintro rfl; exact h5 ⟨⟨_, rfl⟩, m, rfl, h1⟩⟩
  case invocation m =>
    refine Replays.congr h.2 ?_ (fun _ => .rfl) hnm
    intro i; rw [hg]; simp [WAMPSession.grants]
  all_goals
    refine Replays.congr (P := S.grants .register) h ?_ (fun _ => .rfl) hnm
    intro i; rw [hg]; simp [WAMPSession.grants]

end Wamp.Spec.Net
