import Verif.Spec.Rest
import Verif.Proofs.NetStream

/-! # Helper lemmas: the network comes to rest -/

namespace Wamp.Spec.Net
open Wamp.Spec.Ses

variable {W : Type} (c : Codec W)

/-! ## Sums over clients -/

theorem sum_update {f g : Int → Nat} {s : Int} (L : List Int) (hn : L.Nodup) (hs : s ∈ L) (h : ∀ x, x ≠ s → g x = f x) :
    (L.map g).sum + f s = (L.map f).sum + g s := by
  induction L with
  | nil => cases hs
  | cons x L ih =>
    rw [List.nodup_cons] at hn
    simp only [List.map_cons, List.sum_cons]
    by_cases e : x = s
    · subst e
      have : L.map g = L.map f := List.map_congr_left fun y hy => h y (fun e => hn.1 (e ▸ hy))
      rw [this]; omega
    · have := ih hn.2 ((List.mem_cons.1 hs).resolve_left (fun h' => e h'.symm))
      rw [h x e]; omega

theorem sum_le {f g : Int → Nat} (L : List Int) (h : ∀ x ∈ L, f x ≤ g x) : (L.map f).sum ≤ (L.map g).sum := by
  induction L with
  | nil => exact Nat.le_refl _
  | cons x L ih =>
    simp only [List.map_cons, List.sum_cons]
    exact Nat.add_le_add (h x List.mem_cons_self) (ih fun y hy => h y (List.mem_cons_of_mem _ hy))

theorem sum_add (f g : Int → Nat) (L : List Int) : (L.map fun x => f x + g x).sum = (L.map f).sum + (L.map g).sum := by
  induction L with
  | nil => rfl
  | cons x L ih => simp only [List.map_cons, List.sum_cons, ih]; omega

theorem sum_const (k : Nat) (L : List Int) : (L.map fun _ => k).sum = k * L.length := by
  induction L with
  | nil => rfl
  | cons x L ih => simp only [List.map_cons, List.sum_cons, ih, List.length_cons, Nat.mul_succ]; omega

theorem sum_one {s : Int} {v : Nat} (L : List Int) (hn : L.Nodup) : (L.map fun x => if x = s then v else 0).sum ≤ v := by
  by_cases hs : s ∈ L
  · have := sum_update (f := fun _ => 0) (g := fun x => if x = s then v else 0) (s := s) L hn hs (by intro x hx; simp [hx])
    rw [sum_const] at this
    simp at this
    omega
  · have : (L.map fun x => if x = s then v else 0) = L.map fun _ => 0 :=
      List.map_congr_left fun x hx => if_neg (fun e : x = s => hs (e ▸ hx))
    rw [this, sum_const]; omega

/-! ## The weight of what is under way -/

/-- Weight of a message on its way to the router. -/
def wUp (A : Nat) : Message → Nat
  | .yield_ _ => 2
  | .error _ => 2
  | _ => A
/-- Weight of a message on its way to a client. -/
def wDown : Message → Nat
  | .invocation _ => 4
  | _ => 1
/-- Weight of a client. -/
def wConn (A : Nat) (k : Conn W) : Nat :=
  (k.up.map (wUp A)).sum + (k.down.map wDown).sum + 3 * (WAMPSession.after c k.calls).invocationRequests.length
def wOpt (A : Nat) : Option (Conn W) → Nat
  | none => 0
  | some k => wConn c A k
/-- Weight of the system. -/
def weight (A : Nat) (L : List Int) (n : Net W) : Nat := (L.map fun s => wOpt c A (n.conns s)).sum

theorem weight_set {A : Nat} {L : List Int} (hn : L.Nodup) {n : Net W} {s : Int} (hs : s ∈ L) (k : Option (Conn W)) :
    weight c A L (n.setConn s k) + wOpt c A (n.conns s) = weight c A L n + wOpt c A k := by
  have := sum_update (f := fun x => wOpt c A (n.conns x)) (g := fun x => wOpt c A ((n.setConn s k).conns x)) L hn hs
    (by intro x hx; simp [setConn_conns, hx])
  simpa [setConn_conns, weight] using this

/-- Clients not in the list do not count. -/
theorem weight_other {A : Nat} {L : List Int} {n : Net W} {s : Int} (hs : s ∉ L) (k : Option (Conn W)) :
    weight c A L (n.setConn s k) = weight c A L n := by
  unfold weight
  congr 1
  exact List.map_congr_left fun x hx => by rw [setConn_conns, if_neg (fun e : x = s => hs (e ▸ hx))]

theorem weight_push {A : Nat} {L : List Int} (n : Net W) (out : List (Int × Message)) :
    weight c A L (n.push out) ≤ weight c A L n + (L.map fun s => ((inbox out s).map wDown).sum).sum := by
  unfold weight
  rw [← sum_add]
  apply sum_le
  intro s _
  rw [conns_push]
  cases n.conns s with
  | none => exact Nat.zero_le _
  | some k =>
    simp only [Option.map_some, wOpt, wConn, List.map_append, List.sum_append]
    omega

theorem out_single {L : List Int} (hn : L.Nodup) (q : Int) (m : Message) :
    (L.map fun s => ((inbox [(q, m)] s).map wDown).sum).sum ≤ wDown m := by
  have : (L.map fun s => ((inbox [(q, m)] s).map wDown).sum) = L.map fun s => if s = q then wDown m else 0 := by
    apply List.map_congr_left
    intro s _
    rw [inbox_single]
    by_cases e : q = s
    · subst e; simp
    · rw [if_neg e, if_neg (fun h => e h.symm)]; rfl
  rw [this]; exact sum_one L hn

/-- The most a call of the dealer puts on its way. -/
def wOp : Dealer.Op → Nat
  | .receiveMessage _ (.yield_ _) => 1
  | .receiveMessage _ (.error _) => 1
  | _ => 4

/-- What the dealer sends. -/
theorem dealer_weight {L : List Int} (hn : L.Nodup) (ops : List Dealer.Op) (op : Dealer.Op) :
    (L.map fun s => ((inbox (dealerOut (Dealer.outcome ops op)) s).map wDown).sum).sum ≤
      wOp op := by
  have hk := Dealer.kind (Dealer.after ops) (Dealer.wf_after ops) op
  rw [Dealer.outcome]
  generalize (Dealer.after ops).step op = res at hk
  have nil : ∀ v, (L.map fun s => ((inbox [] s).map wDown).sum).sum ≤ v := by
    intro v
    have : (L.map fun s => ((inbox [] s).map wDown).sum) = L.map fun _ => 0 := rfl
    rw [this, sum_const]; omega
  cases hk <;> simp only [dealerOut] <;>
    first
      | exact nil _
      | exact out_single hn _ _
      | exact Nat.le_trans (out_single hn _ _) (by simp only [wDown, wOp]; omega)

/-- What the broker sends. -/
theorem broker_weight (L : List Int) (ops : List Broker.Op) (op : Broker.Op) :
    (L.map fun s => ((inbox (brokerOut (Broker.outcome ops op)) s).map wDown).sum).sum ≤ 2 * L.length := by
  rw [← sum_const]
  apply sum_le
  intro s _
  have one : ∀ m ∈ inbox (brokerOut (Broker.outcome ops op)) s, wDown m = 1 := by
    intro m hm
    have := brokerOut_isPub ops op _ (mem_inbox.1 hm)
    cases m <;> first | rfl | cases this
  have hlen : (inbox (brokerOut (Broker.outcome ops op)) s).length ≤ 2 := by
    cases ho : Broker.outcome ops op with
    | error e => simp [brokerOut, inbox]
    | ok out =>
      cases out with
      | unit => simp [brokerOut, inbox]
      | bool b => simp [brokerOut, inbox]
      | reply r =>
        simp only [brokerOut, inbox_single]
        split <;> simp
      | publication p =>
        have hnd : p.recipients.Nodup := by
          cases op with
          | receivePublish q m =>
            simp only [Broker.outcome, Broker.step, Broker.receivePublish] at ho
            split at ho
            · simp only [Except.map, Except.ok.injEq, Broker.Out.publication.injEq] at ho
              cases ht : (Broker.after ops).subscriptionsByTopic.get m.topic with
              | none =>
                rw [ht] at ho
                rw [← ho]; split <;> simp
              | some r =>
                have h3 : (((Broker.after ops).heap r).subscribers.keys).Nodup := ((Broker.wf_after ops).top _ _ ht).2.2.1
                rw [ht] at ho
                rw [← ho]; split <;> simpa using h3
            · cases ho
          | addSession d =>
            simp only [Broker.outcome, Broker.step] at ho
            generalize ((Broker.after ops).addSession d).2 = r at ho
            cases r <;> cases ho
          | removeSession d =>
            simp only [Broker.outcome, Broker.step] at ho
            generalize ((Broker.after ops).removeSession d).2 = r at ho
            cases r <;> cases ho
          | hasSubscription t => cases ho
          | receiveMessage q m =>
            simp only [Broker.outcome, Broker.step] at ho
            generalize ((Broker.after ops).receiveMessage q m).2 = r at ho
            cases r <;> cases ho
        simp only [brokerOut, inbox_append, List.length_append]
        have h1 : (inbox (eventsOf p) s).length ≤ 1 := by
          unfold eventsOf
          split
          · rw [inbox_events_self _ _ hnd]; split <;> simp
          · simp [inbox]
        have h2 : (inbox (ackOf p) s).length ≤ 1 := by
          unfold ackOf
          split
          · rw [inbox_single]; split <;> simp
          · simp [inbox]
        omega
  have : (inbox (brokerOut (Broker.outcome ops op)) s).map wDown = (inbox (brokerOut (Broker.outcome ops op)) s).map fun _ => 1 :=
    List.map_congr_left one
  rw [this, List.map_const', List.sum_replicate_nat]
  omega

/-! ## The session's invocations -/

theorem discard_lt {l : IdSet} {i : Int} (h : i ∈ l) : (l.discard i).length + 1 ≤ l.length := by
  induction l with
  | nil => cases h
  | cons x l ih =>
    have hle : (l.filter (· ≠ i)).length ≤ l.length := List.length_filter_le _ _
    unfold IdSet.discard
    by_cases e : x = i
    · subst e; simp only [List.filter_cons]; simpa using hle
    · have := ih ((List.mem_cons.1 h).resolve_left (fun h' => e h'.symm))
      unfold IdSet.discard at this
      rw [List.filter_cons, if_pos (by simpa using e), List.length_cons, List.length_cons]
      omega

theorem discard_le (l : IdSet) (i : Int) : (l.discard i).length ≤ l.length := List.length_filter_le _ _

theorem add_le (l : IdSet) (i : Int) : (l.add i).length ≤ l.length + 1 := by
  unfold IdSet.add; split <;> simp

theorem send_weight (S : WAMPSession) (m : Message) :
    (S.sendMessage c m).1.invocationRequests.length ≤ S.invocationRequests.length := by
  cases m <;> simp only [WAMPSession.sendMessage] <;> (try split) <;>
    first | exact Nat.le_refl _ | exact discard_le _ _

theorem recv_weight (S : WAMPSession) (m : Message) :
    3 * (S.receiveMessage m).1.invocationRequests.length + 1 ≤ 3 * S.invocationRequests.length + wDown m := by
  cases m <;> simp only [WAMPSession.receiveMessage, wDown] <;> (try split) <;> (try split) <;>
    first
      | exact Nat.le_refl _
      | (simp only [WAMPSession.receiveError]; repeat' split) <;> exact Nat.le_refl _
      | omega
      | (have := add_le S.invocationRequests; dsimp only; rename_i m _; have := this m.requestId.val; omega)

/-! ## Steps -/

theorem wUp_le {A : Nat} (hA : 2 ≤ A) (m : Message) : wUp A m ≤ A := by
  cases m <;> first | exact hA | exact Nat.le_refl _

/-- Handling a message makes less than it weighed. -/
theorem weight_handle {A : Nat} {L : List Int} (hn : L.Nodup) (hA : 2 * L.length + 5 ≤ A) (n : Net W) (s : Int) (m : Message) :
    weight c A L (n.handle s m) + 1 ≤ weight c A L n + wUp A m := by
  unfold Net.handle
  cases hb : brokerCall s m with
  | some op =>
    dsimp only
    have h1 := weight_push c (A := A) (L := L) { n with broker := n.broker ++ [op] } (brokerOut (Broker.outcome n.broker op))
    have h2 := broker_weight L n.broker op
    have h3 : wUp A m = A := by cases m <;> cases hb <;> rfl
    have h4 : weight c A L { n with broker := n.broker ++ [op] } = weight c A L n := rfl
    rw [h3]; omega
  | none =>
    cases hd : dealerCall s m with
    | some op =>
      dsimp only
      have h1 := weight_push c (A := A) (L := L) { n with dealer := n.dealer ++ [op] } (dealerOut (Dealer.outcome n.dealer op))
      have h2 := dealer_weight hn n.dealer op
      have h4 : weight c A L { n with dealer := n.dealer ++ [op] } = weight c A L n := rfl
      have h3 : wOp op + 1 ≤ wUp A m := by
        cases m <;> cases hd <;> simp only [wUp, wOp] <;> omega
      omega
    | none =>
      dsimp only
      have : 1 ≤ wUp A m := by cases m <;> simp only [wUp] <;> omega
      omega

theorem weight_route {A : Nat} {L : List Int} (hn : L.Nodup) (hA : 2 * L.length + 5 ≤ A) {n : Net W} {s : Int} (hs : s ∈ L)
    {k : Conn W} {m : Message} {rest : List Message} (hk : n.conns s = some k) (hu : k.up = m :: rest) :
    weight c A L (n.step c (.route s)) + 1 ≤ weight c A L n := by
  rw [step_route c hk hu]
  have h1 := weight_handle c hn hA (n.setConn s (some { k with up := rest })) s m
  have h2 := weight_set c (A := A) hn (n := n) hs (some { k with up := rest })
  have h3 : wOpt c A (n.conns s) = wUp A m + wOpt c A (some { k with up := rest }) := by
    rw [hk]
    simp only [wOpt, wConn, hu, List.map_cons, List.sum_cons]
    omega
  omega

theorem weight_deliver {A : Nat} {L : List Int} (hn : L.Nodup) {n : Net W} {s : Int} (hs : s ∈ L)
    {k : Conn W} {m : Message} {rest : List Message} (hk : n.conns s = some k) (hd : k.down = m :: rest) :
    weight c A L (n.step c (.deliver s)) + 1 ≤ weight c A L n := by
  rw [step_deliver c hk hd]
  have h2 := weight_set c (A := A) hn (n := n) hs (some ⟨k.calls ++ [.receiveMessage m], k.up, rest⟩)
  have h3 : wOpt c A (some ⟨k.calls ++ [.receiveMessage m], k.up, rest⟩) + 1 ≤ wOpt c A (n.conns s) := by
    rw [hk]
    simp only [wOpt, wConn, hd, List.map_cons, List.sum_cons, after_recv]
    have := recv_weight (WAMPSession.after c k.calls) m
    omega
  omega

theorem weight_send {A : Nat} {L : List Int} (hn : L.Nodup) {n : Net W} {s : Int} (hs : s ∈ L) (m : Message) :
    weight c A L (n.step c (.send s m)) ≤ weight c A L n + wUp A m := by
  cases hk : n.conns s with
  | none => rw [step_send_none c hk]; omega
  | some k =>
    rw [step_send c hk]
    have h2 := weight_set c (A := A) hn (n := n) hs (some ⟨k.calls ++ [.sendMessage m],
      if returned (WAMPSession.outcome c k.calls (.sendMessage m)) then k.up ++ [m] else k.up, k.down⟩)
    have h3 := send_weight c (WAMPSession.after c k.calls) m
    rw [hk] at h2
    simp only [wOpt, wConn, after_send] at h2
    have h4 : ((if returned (WAMPSession.outcome c k.calls (.sendMessage m)) then k.up ++ [m] else k.up).map (wUp A)).sum ≤
        (k.up.map (wUp A)).sum + wUp A m := by
      split
      · simp
      · omega
    omega

/-- Answering an invocation. -/
theorem weight_answer {A : Nat} {L : List Int} (hn : L.Nodup) {n : Net W} {s : Int} (hs : s ∈ L) {m : Message} {k : Conn W}
    (hk : n.conns s = some k) (hw : wUp A m = 2)
    (hi : ((WAMPSession.after c k.calls).sendMessage c m).1.invocationRequests.length + 1 ≤
      (WAMPSession.after c k.calls).invocationRequests.length) :
    weight c A L (n.step c (.send s m)) + 1 ≤ weight c A L n := by
  rw [step_send c hk]
  have h2 := weight_set c (A := A) hn (n := n) hs (some ⟨k.calls ++ [.sendMessage m],
    if returned (WAMPSession.outcome c k.calls (.sendMessage m)) then k.up ++ [m] else k.up, k.down⟩)
  rw [hk] at h2
  simp only [wOpt, wConn, after_send] at h2
  have h4 : ((if returned (WAMPSession.outcome c k.calls (.sendMessage m)) then k.up ++ [m] else k.up).map (wUp A)).sum ≤
      (k.up.map (wUp A)).sum + 2 := by
    split
    · simp [hw]
    · omega
  omega

/-! ## Schedules -/

/-- The connected clients are among these. -/
def Among (L : List Int) (n : Net W) : Prop := ∀ s k, n.conns s = some k → s ∈ L

theorem handle_some {n : Net W} {s s' : Int} {m : Message} {k : Conn W} (h : (n.handle s m).conns s' = some k) :
    ∃ k0, n.conns s' = some k0 := by
  unfold Net.handle at h
  split at h
  · rw [conns_push, Option.map_eq_some_iff] at h; exact ⟨_, h.choose_spec.1⟩
  · rw [conns_push, Option.map_eq_some_iff] at h; exact ⟨_, h.choose_spec.1⟩
  · exact ⟨_, h⟩

theorem step_some {n : Net W} {a : Act} {s : Int} {k : Conn W} (h : (n.step c a).conns s = some k) :
    (∃ k0, n.conns s = some k0) ∨ ∃ d, a = .join d ∧ d.sessionId.val = s := by
  have set : ∀ (n : Net W) s0 k0, (n.setConn s0 k0).conns s = some k → s = s0 ∨ n.conns s = some k := by
    intro n s0 k0 h
    rw [setConn_conns] at h
    split at h
    · rename_i e; exact .inl e
    · exact .inr h
  cases a with
  | join d =>
    simp only [Net.step] at h
    split at h
    · rcases set _ _ _ h with e | e
      · exact .inr ⟨d, rfl, e.symm⟩
      · exact .inl ⟨_, e⟩
    · exact .inl ⟨_, h⟩
  | leave q =>
    simp only [Net.step, setConn_conns] at h
    split at h
    · cases h
    · exact .inl ⟨_, h⟩
  | send q m =>
    simp only [Net.step] at h
    split at h
    · exact .inl ⟨_, h⟩
    · rename_i k0 hk0
      rcases set _ _ _ h with e | e
      · subst e; exact .inl ⟨_, hk0⟩
      · exact .inl ⟨_, e⟩
  | deliver q =>
    simp only [Net.step] at h
    split at h
    · exact .inl ⟨_, h⟩
    · rename_i k0 hk0
      split at h
      · exact .inl ⟨_, h⟩
      · rcases set _ _ _ h with e | e
        · subst e; exact .inl ⟨_, hk0⟩
        · exact .inl ⟨_, e⟩
  | route q =>
    simp only [Net.step] at h
    split at h
    · exact .inl ⟨_, h⟩
    · rename_i k0 hk0
      split at h
      · exact .inl ⟨_, h⟩
      · obtain ⟨k1, h1⟩ := handle_some h
        rcases set' n q _ k1 h1 with e | e
        · subst e; exact .inl ⟨_, hk0⟩
        · exact .inl ⟨_, e⟩
where
  set' (n : Net W) (s0 : Int) (k0 : Option (Conn W)) {s : Int} (k : Conn W) (h : (n.setConn s0 k0).conns s = some k) :
      s = s0 ∨ n.conns s = some k := by
    rw [setConn_conns] at h
    split at h
    · rename_i e; exact .inl e
    · exact .inr h

/-- There is a list of all clients that ever joined. -/
theorem exists_among (sched : List Act) :
    ∃ L : List Int, L.Nodup ∧ L.length ≤ sched.length ∧ ∀ pre post, sched = pre ++ post → Among L (run c pre) := by
  induction sched using snoc_induction with
  | nil =>
    refine ⟨[], List.nodup_nil, Nat.le_refl _, ?_⟩
    intro pre post e s k h
    simp at e
    rw [e.1] at h; cases h
  | snoc sched a ih =>
    obtain ⟨L, h1, h2, h3⟩ := ih
    have key : ∀ L' : List Int, (∀ s ∈ L, s ∈ L') → (∀ d, a = .join d → d.sessionId.val ∈ L') →
        ∀ pre post, sched ++ [a] = pre ++ post → Among L' (run c pre) := by
      intro L' hs hj pre post e
      rcases List.eq_nil_or_concat post with rfl | ⟨p, z, rfl⟩
      · rw [List.append_nil] at e
        subst e
        intro s k hk
        rw [run_snoc] at hk
        rcases step_some c hk with ⟨k0, h⟩ | ⟨d, rfl, rfl⟩
        · exact hs s (h3 sched [] (by simp) s k0 h)
        · exact hj d rfl
      · rw [List.concat_eq_append, ← List.append_assoc] at e
        obtain ⟨e1, -⟩ := List.append_inj' e rfl
        intro s k hk
        exact hs s (h3 pre p e1 s k hk)
    by_cases hj : ∃ d, a = .join d ∧ d.sessionId.val ∉ L
    · obtain ⟨d, rfl, hd⟩ := hj
      refine ⟨d.sessionId.val :: L, List.nodup_cons.2 ⟨hd, h1⟩, by simp; omega, key _ (fun s hs => List.mem_cons_of_mem _ hs) ?_⟩
      intro d' e; cases e; exact List.mem_cons_self
    · refine ⟨L, h1, by rw [List.length_append]; omega, key _ (fun s hs => hs) ?_⟩
      intro d e
      exact Classical.byContradiction fun h => hj ⟨d, e, h⟩

/-- One action adds at most the weight of one message. -/
theorem weight_step {A : Nat} {L : List Int} (hn : L.Nodup) (hA : 2 * L.length + 5 ≤ A) {n : Net W} (ha : Among L n) (a : Act) :
    weight c A L (n.step c a) ≤ weight c A L n + A := by
  have set0 : ∀ (n : Net W) s k0, wOpt c A k0 = 0 → weight c A L (n.setConn s k0) ≤ weight c A L n := by
    intro n s k0 h0
    by_cases hs : s ∈ L
    · have := weight_set c (A := A) hn (n := n) hs k0
      omega
    · rw [weight_other c hs]; exact Nat.le_refl _
  cases a with
  | join d =>
    simp only [Net.step]
    split
    · exact Nat.le_trans (set0 _ _ _ rfl) (Nat.le_add_right _ _)
    · exact Nat.le_add_right (weight c A L n) _
  | leave s => exact Nat.le_trans (set0 _ _ _ rfl) (Nat.le_add_right _ _)
  | send s m =>
    cases hk : n.conns s with
    | none => rw [step_send_none c hk]; omega
    | some k =>
      have := weight_send c hn (ha s k hk) (n := n) (A := A) m
      have := wUp_le (A := A) (by omega) m
      omega
  | route s =>
    cases hk : n.conns s with
    | none => simp only [Net.step, hk]; omega
    | some k =>
      cases hu : k.up with
      | nil => simp only [Net.step, hk, hu]; omega
      | cons m rest => have := weight_route c hn hA (ha s k hk) hk hu; omega
  | deliver s =>
    cases hk : n.conns s with
    | none => simp only [Net.step, hk]; omega
    | some k =>
      cases hu : k.down with
      | nil => simp only [Net.step, hk, hu]; omega
      | cons m rest => have := weight_deliver c (A := A) hn (ha s k hk) hk hu; omega

theorem weight_run {A : Nat} {L : List Int} (hn : L.Nodup) (hA : 2 * L.length + 5 ≤ A) (sched : List Act)
    (ha : ∀ pre post, sched = pre ++ post → Among L (run c pre)) : weight c A L (run c sched) ≤ A * sched.length := by
  induction sched using snoc_induction with
  | nil =>
    have : weight c A L (run c []) = 0 := by
      show (L.map fun _ => 0).sum = 0
      rw [sum_const]; omega
    omega
  | snoc sched a ih =>
    have h1 := ih (fun pre post e => ha pre (post ++ [a]) (by rw [e, List.append_assoc]))
    have h2 := weight_step c hn hA (ha sched [a] rfl) a
    rw [run_snoc, List.length_append, List.length_singleton, Nat.mul_add, Nat.mul_one]
    omega

/-- Winding down makes the system lighter. -/
theorem weight_moves {A : Nat} {L : List Int} (hn : L.Nodup) (hA : 2 * L.length + 5 ≤ A) (sched : List Act)
    (ha : Among L (run c sched)) (a : Act) (hm : Moves c sched a) :
    weight c A L (run c (sched ++ [a])) + 1 ≤ weight c A L (run c sched) := by
  rw [run_snoc]
  cases a with
  | join d => cases hm
  | leave s => cases hm
  | route s =>
    obtain ⟨k, m, rest, h1, h2⟩ := hm
    exact weight_route c hn hA (ha s k h1) h1 h2
  | deliver s =>
    obtain ⟨k, m, rest, h1, h2⟩ := hm
    exact weight_deliver c hn (ha s k h1) h1 h2
  | send s m =>
    cases m with
    | yield_ y =>
      obtain ⟨k, h1, h2⟩ := hm
      rw [← WAMPSession.inv_after] at h2
      refine weight_answer c hn (ha s k h1) h1 rfl ?_
      simp only [WAMPSession.sendMessage, if_pos h2]
      exact discard_lt h2
    | error e =>
      obtain ⟨he, k, h1, h2⟩ := hm
      rw [← WAMPSession.inv_after] at h2
      refine weight_answer c hn (ha s k h1) h1 rfl ?_
      simp only [WAMPSession.sendMessage]
      rw [if_neg (by rw [he]; decide)]
      exact discard_lt h2
    | _ => cases hm

end Wamp.Spec.Net
