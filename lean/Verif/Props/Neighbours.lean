import Verif.Spec.Neighbours
import Verif.Props.Tenants
import Verif.Props.SessionIds
import Verif.Props.StackLost
import Verif.Props.NetworkRpc

/-!
# C133: two applications share a network
-/

namespace Wamp.Spec.Neighbours
open Wamp.Spec.Net Wamp.Spec.Naming Wamp.Spec.Tenants
variable {W : Type}

/-! ## From the whole history of the router to each of its calls -/

theorem flatMap_filter_nil {α β : Type} (p : α → Bool) (f : α → List β) : ∀ l : List α,
    (l.flatMap f).length = ((l.filter p).flatMap f).length → ∀ x ∈ l, p x = false → f x = []
  | [], _, x, hx, _ => by cases hx
  | y :: l, h, x, hx, hp => by
    have le : ∀ l : List α, ((l.filter p).flatMap f).length ≤ (l.flatMap f).length := by
      intro l
      induction l with
      | nil => exact Nat.le_refl _
      | cons y l ih =>
        rw [List.filter_cons]
        split
        · simp only [List.flatMap_cons, List.length_append]; omega
        · simp only [List.flatMap_cons, List.length_append]; omega
    rw [List.filter_cons] at h
    by_cases hy : p y = true
    · rw [if_pos hy] at h
      simp only [List.flatMap_cons, List.length_append] at h
      rcases List.mem_cons.1 hx with rfl | hx
      · rw [hp] at hy; cases hy
      · exact flatMap_filter_nil p f l (by omega) x hx hp
    · rw [if_neg hy] at h
      simp only [List.flatMap_cons, List.length_append] at h
      have := le l
      rcases List.mem_cons.1 hx with rfl | hx
      · exact List.eq_nil_of_length_eq_zero (by omega)
      · exact flatMap_filter_nil p f l (by omega) x hx hp

/-- What C117 says of each call of the broker. -/
structure Parted (mine : Int → Bool) (topics : String → Bool) (ρ : Int → Int) (all : List Broker.Op) : Prop where
  own : ∀ pre op post, all = pre ++ op :: post → pubMine mine topics op = true →
    (Broker.outcome ((pre.filter (pubMine mine topics)).map (pubIds ρ)) (pubIds ρ op)).toOption =
      (Broker.outcome pre op).toOption.map (pubOutIds ρ)
  other : ∀ pre op post, all = pre ++ op :: post → pubMine mine topics op = false → ∀ s, mine s = true →
    pubMail s (Broker.outcome pre op) = []

theorem pubMail_option (s : Int) (r : Except Exc Broker.Out) : pubMail s r = (r.toOption.map fun o => pubMail s (.ok o)).getD [] := by
  cases r <;> rfl

theorem trace_at (pre : List Broker.Op) (op : Broker.Op) (post : List Broker.Op) :
    ∃ tr, Broker.trace (pre ++ op :: post) = Broker.trace pre ++ (op, Broker.outcome pre op) :: tr := by
  induction post using snoc_induction with
  | nil => exact ⟨[], Broker.trace_snoc _ _⟩
  | snoc post x ih =>
    obtain ⟨tr, h⟩ := ih
    refine ⟨tr ++ [(x, Broker.outcome (pre ++ op :: post) x)], ?_⟩
    rw [show pre ++ op :: (post ++ [x]) = (pre ++ op :: post) ++ [x] by simp, Broker.trace_snoc, h]
    simp [Broker.outcome]

theorem trace_ops (ops : List Broker.Op) : (Broker.trace ops).map (·.1) = ops := by
  induction ops using snoc_induction with
  | nil => rfl
  | snoc ops op ih => rw [Broker.trace_snoc, List.map_append, ih]; rfl

theorem parted (mine : Int → Bool) (topics : String → Bool) (all : List Broker.Op) (hl : all.length ≤ 2 ^ 53)
    (ha : ∀ op ∈ all, pubApart mine topics op) : ∃ ρ, OneToOne ρ ∧ Parted mine topics ρ all := by
  obtain ⟨ρ, h1, h2, h3⟩ := C117_broker mine topics all hl ha
  refine ⟨ρ, h1, ?_, ?_⟩
  · rintro pre op post rfl hm
    obtain ⟨tr, ht⟩ := trace_at pre op post
    have e1 : ((pre ++ op :: post).filter (pubMine mine topics)).map (pubIds ρ) =
        (pre.filter (pubMine mine topics)).map (pubIds ρ) ++ pubIds ρ op :: (post.filter (pubMine mine topics)).map (pubIds ρ) := by
      rw [List.filter_append, List.filter_cons_of_pos hm, List.map_append, List.map_cons]
    obtain ⟨tr', ht'⟩ := trace_at ((pre.filter (pubMine mine topics)).map (pubIds ρ)) (pubIds ρ op)
      ((post.filter (pubMine mine topics)).map (pubIds ρ))
    rw [e1, ht', ht, List.filter_append, List.filter_cons_of_pos (by exact hm)] at h2
    simp only [List.map_append, List.map_cons] at h2
    have hlen : (Broker.trace ((pre.filter (pubMine mine topics)).map (pubIds ρ))).length =
        ((Broker.trace pre).filter fun e => pubMine mine topics e.1).length := by
      rw [← List.length_map (f := (·.1)), trace_ops, List.length_map]
      conv => lhs; rw [← trace_ops pre]
      rw [List.filter_map, List.length_map]; rfl
    have := (List.append_inj h2 (by rw [List.length_map, List.length_map, hlen])).2
    exact (List.cons.inj this).1
  · rintro pre op post rfl hm s hs
    obtain ⟨tr, ht⟩ := trace_at pre op post
    have h3 := h3 s hs
    have hlen : (pubInbox s (Broker.trace (pre ++ op :: post))).length =
        (((Broker.trace (pre ++ op :: post)).filter fun e => pubMine mine topics e.1).flatMap fun x => pubMail s x.2).length := by
      rw [← List.length_map (f := Tenants.ids ρ), ← h3, pubInbox]
      have e4 : ∀ l : List Broker.Obs, (l.flatMap fun x => pubMail s x.2) =
          (l.map (·.2.toOption)).flatMap (fun o => (o.map fun o => pubMail s (.ok o)).getD []) := by
        intro l; rw [List.flatMap_map]; congr 1; funext x; exact pubMail_option s x.2
      rw [e4, h2, e4, List.flatMap_map, List.flatMap_map, List.length_flatMap, List.length_flatMap]
      congr 1
      apply List.map_congr_left
      intro x _
      cases x.2 with
      | error e => rfl
      | ok o =>
        show (pubMail s (.ok (pubOutIds ρ o))).length = (pubMail s (.ok o)).length
        rw [pubMail_ids, List.length_map]
    exact flatMap_filter_nil _ _ _ hlen (op, Broker.outcome pre op) (by rw [ht]; simp) hm

/-- What C117 says of each call of the dealer. -/
structure PartedRpc (mine : Int → Bool) (procs : String → Bool) (σ : Int → Int) (all : List Dealer.Op) : Prop where
  own : ∀ pre op post, all = pre ++ op :: post → rpcMine mine procs op = true →
    (Dealer.outcome ((pre.filter (rpcMine mine procs)).map (rpcIds σ)) (rpcIds σ op)).toOption =
      (Dealer.outcome pre op).toOption.map (rpcOutIds σ)
  other : ∀ pre op post, all = pre ++ op :: post → rpcMine mine procs op = false → ∀ s, mine s = true →
    rpcMail s (Dealer.outcome pre op) = []

theorem rpcMail_option (s : Int) (r : Except Exc Dealer.Out) : rpcMail s r = (r.toOption.map fun o => rpcMail s (.ok o)).getD [] := by
  cases r <;> rfl

theorem graded_option (r : Except Exc Dealer.Out) : r.toOption = (Dealer.graded r).bind (·.toOption) := by
  cases r with
  | ok o => rfl
  | error e => cases e <;> rfl

theorem rpcTrace_at (pre : List Dealer.Op) (op : Dealer.Op) (post : List Dealer.Op) :
    ∃ tr, Dealer.trace (pre ++ op :: post) = Dealer.trace pre ++ (op, Dealer.outcome pre op) :: tr := by
  induction post using snoc_induction with
  | nil => exact ⟨[], Dealer.trace_snoc _ _⟩
  | snoc post x ih =>
    obtain ⟨tr, h⟩ := ih
    refine ⟨tr ++ [(x, Dealer.outcome (pre ++ op :: post) x)], ?_⟩
    rw [show pre ++ op :: (post ++ [x]) = (pre ++ op :: post) ++ [x] by simp, Dealer.trace_snoc, h]
    simp [Dealer.outcome]

theorem rpcTrace_ops (ops : List Dealer.Op) : (Dealer.trace ops).map (·.1) = ops := by
  induction ops using snoc_induction with
  | nil => rfl
  | snoc ops op ih => rw [Dealer.trace_snoc, List.map_append, ih]; rfl

theorem partedRpc (mine : Int → Bool) (procs : String → Bool) (all : List Dealer.Op) (hl : all.length ≤ 2 ^ 53)
    (ha : ∀ op ∈ all, rpcApart mine procs op) (he : ErrorsApart mine all) : ∃ σ, OneToOne σ ∧ PartedRpc mine procs σ all := by
  obtain ⟨σ, h1, h2, h3⟩ := C117_dealer_partial mine procs all hl ha he
  have h2' := congrArg (List.map fun g : Option (Except _ Dealer.Out) => g.bind (·.toOption)) h2
  simp only [List.map_map] at h2'
  have e5 : ((fun g : Option (Except _ Dealer.Out) => g.bind (·.toOption)) ∘ fun e : Dealer.Obs => Dealer.graded e.2) = fun e => e.2.toOption := by
    funext e; exact (graded_option e.2).symm
  have e6 : ((fun g : Option (Except _ Dealer.Out) => g.bind (·.toOption)) ∘ fun e : Dealer.Obs => (Dealer.graded e.2).map (·.map (rpcOutIds σ))) =
      fun e => e.2.toOption.map (rpcOutIds σ) := by
    funext e
    obtain ⟨op, r⟩ := e
    cases r with
    | ok o => rfl
    | error e => cases e <;> rfl
  rw [e5, e6] at h2'
  clear h2 e5 e6
  refine ⟨σ, h1, ?_, ?_⟩
  · rintro pre op post rfl hm
    obtain ⟨tr, ht⟩ := rpcTrace_at pre op post
    have e1 : ((pre ++ op :: post).filter (rpcMine mine procs)).map (rpcIds σ) =
        (pre.filter (rpcMine mine procs)).map (rpcIds σ) ++ rpcIds σ op :: (post.filter (rpcMine mine procs)).map (rpcIds σ) := by
      rw [List.filter_append, List.filter_cons_of_pos hm, List.map_append, List.map_cons]
    obtain ⟨tr', ht'⟩ := rpcTrace_at ((pre.filter (rpcMine mine procs)).map (rpcIds σ)) (rpcIds σ op)
      ((post.filter (rpcMine mine procs)).map (rpcIds σ))
    rw [e1, ht', ht, List.filter_append, List.filter_cons_of_pos (by exact hm)] at h2'
    simp only [List.map_append, List.map_cons] at h2'
    have hlen : (Dealer.trace ((pre.filter (rpcMine mine procs)).map (rpcIds σ))).length =
        ((Dealer.trace pre).filter fun e => rpcMine mine procs e.1).length := by
      rw [← List.length_map (f := (·.1)), rpcTrace_ops, List.length_map]
      conv => lhs; rw [← rpcTrace_ops pre]
      rw [List.filter_map, List.length_map]; rfl
    have := (List.append_inj h2' (by rw [List.length_map, List.length_map, hlen])).2
    exact (List.cons.inj this).1
  · rintro pre op post rfl hm s hs
    obtain ⟨tr, ht⟩ := rpcTrace_at pre op post
    have h3 := h3 s hs
    have hlen : (rpcInbox s (Dealer.trace (pre ++ op :: post))).length =
        (((Dealer.trace (pre ++ op :: post)).filter fun e => rpcMine mine procs e.1).flatMap fun x => rpcMail s x.2).length := by
      rw [← List.length_map (f := Tenants.ids σ), ← h3, rpcInbox]
      have e4 : ∀ l : List Dealer.Obs, (l.flatMap fun x => rpcMail s x.2) =
          (l.map (·.2.toOption)).flatMap (fun o => (o.map fun o => rpcMail s (.ok o)).getD []) := by
        intro l; rw [List.flatMap_map]; congr 1; funext x; exact rpcMail_option s x.2
      rw [e4, h2', e4, List.flatMap_map, List.flatMap_map, List.length_flatMap, List.length_flatMap]
      congr 1
      apply List.map_congr_left
      intro x _
      cases x.2 with
      | error e => rfl
      | ok o =>
        show (rpcMail s (.ok (rpcOutIds σ o))).length = (rpcMail s (.ok o)).length
        rw [rpcMail_ids, List.length_map]
    exact flatMap_filter_nil _ _ _ hlen (op, Dealer.outcome pre op) (by rw [ht]; simp) hm

/-! ## What the answers put into the channels -/

theorem inbox_append (a b : List (Int × Message)) (s : Int) : inbox (a ++ b) s = inbox a s ++ inbox b s := by
  simp [inbox]

theorem inbox_reply (r : MessageWithRecipient) (s : Int) : inbox [(r.recipient, r.message)] s = mail s r := by
  unfold inbox mail
  by_cases h : r.recipient = s
  · rw [if_pos h, List.filter_cons_of_pos (by simpa using h)]; rfl
  · rw [if_neg h, List.filter_cons_of_neg (by simpa using h)]; rfl

/-- A message of the broker. -/
def Published : Message → Prop
  | .subscribed _ | .unsubscribe _ | .published _ | .event _ => True
  | _ => False

theorem dealerOut_ids (ρ σ : Int → Int) {r r' : Except Exc Dealer.Out} (h : r'.toOption = r.toOption.map (rpcOutIds σ)) (s : Int)
    (hr : ∀ x ∈ dealerOut r, ¬ Published x.2) : inbox (dealerOut r') s = (inbox (dealerOut r) s).map (renamed ρ σ) := by
  cases r with
  | error e => cases r' <;> first | rfl | cases h
  | ok o =>
    cases r' with
    | error e => cases h
    | ok o' =>
      replace h : o' = rpcOutIds σ o := Option.some.inj h
      subst h
      cases o with
      | reply m =>
        show inbox [((Tenants.sent σ m).recipient, (Tenants.sent σ m).message)] s = (inbox [(m.recipient, m.message)] s).map _
        rw [inbox_reply, inbox_reply, mail_ids]
        apply List.map_congr_left
        intro x hx
        have hx' : x = m.message := by
          unfold mail at hx; split at hx
          · simpa using hx
          · cases hx
        have := hr (m.recipient, m.message) (List.mem_singleton.2 rfl)
        subst hx'
        revert this
        generalize m.message = x
        cases x <;> intro this <;> first | rfl | exact (this trivial).elim
      | _ => rfl

theorem renamed_pub (ρ σ : Int → Int) {m : Message} (h : isPub m = true) : renamed ρ σ m = Tenants.ids ρ m := by
  cases m <;> first | rfl | cases h

theorem brokerOut_ids (ρ σ : Int → Int) {r r' : Except Exc Broker.Out} (h : r'.toOption = r.toOption.map (pubOutIds ρ)) (s : Int)
    (hr : ∀ x ∈ brokerOut r, isPub x.2 = true) : inbox (brokerOut r') s = (inbox (brokerOut r) s).map (renamed ρ σ) := by
  have key : ∀ x ∈ inbox (brokerOut r) s, renamed ρ σ x = Tenants.ids ρ x :=
    fun x hx => renamed_pub ρ σ (hr _ (mem_inbox.1 hx))
  rw [List.map_congr_left key]
  cases r with
  | error e => cases r' <;> first | rfl | cases h
  | ok o =>
    cases r' with
    | error e => cases h
    | ok o' =>
      replace h : o' = pubOutIds ρ o := Option.some.inj h
      subst h
      cases o with
      | reply m =>
        show inbox [((Tenants.sent ρ m).recipient, (Tenants.sent ρ m).message)] s = (inbox [(m.recipient, m.message)] s).map _
        rw [inbox_reply, inbox_reply, mail_ids]
      | publication p =>
        simp only [brokerOut, pubOutIds, inbox_append, List.map_append]
        congr 1
        · cases he : p.event with
          | none => simp [eventsOf, he, inbox]
          | some e =>
            simp only [eventsOf, he, Option.map_some, inbox, List.filter_map, List.map_map]
            rfl
        · cases ha : p.ack with
          | none => simp [ackOf, ha, inbox]
          | some m =>
            simp only [ackOf, ha, Option.map_some]
            rw [inbox_reply, inbox_reply, mail_ids]
      | _ => rfl

theorem brokerOut_other {r : Except Exc Broker.Out} {s : Int} (h : pubMail s r = []) : inbox (brokerOut r) s = [] := by
  cases r with
  | error e => rfl
  | ok o =>
    cases o with
    | reply m => exact (inbox_reply m s).trans h
    | publication p =>
      simp only [pubMail, List.append_eq_nil_iff] at h
      obtain ⟨h1, h2⟩ := h
      simp only [brokerOut, inbox_append, List.append_eq_nil_iff]
      constructor
      · cases he : p.event with
        | none => simp [eventsOf, he, inbox]
        | some e =>
          rw [he] at h1
          simp only [eventsOf, he, inbox, List.map_eq_nil_iff, List.filter_eq_nil_iff, List.mem_map]
          rintro x ⟨q, hq, rfl⟩
          simp only [decide_eq_true_eq]
          rintro rfl
          rw [if_pos hq] at h1; cases h1
      · cases ha : p.ack with
        | none => simp [ackOf, ha, inbox]
        | some m =>
          rw [ha] at h2
          simp only [ackOf, ha]
          rw [inbox_reply]
          simpa using h2
    | _ => rfl

theorem dealerOut_other {r : Except Exc Dealer.Out} {s : Int} (h : rpcMail s r = []) : inbox (dealerOut r) s = [] := by
  cases r with
  | error e => rfl
  | ok o =>
    cases o with
    | reply m => exact (inbox_reply m s).trans h
    | _ => rfl

/-! ## The calls of the router -/

theorem brokerCall_ids (ρ σ : Int → Int) (s : Int) (m : Message) : brokerCall s (renamed ρ σ m) = (brokerCall s m).map (pubIds ρ) := by
  cases m <;> rfl

theorem dealerCall_ids (ρ σ : Int → Int) (s : Int) (m : Message) : dealerCall s (renamed ρ σ m) = (dealerCall s m).map (rpcIds σ) := by
  cases m <;> rfl

theorem brokerCall_mine {mine : Int → Bool} {topics : String → Bool} {s : Int} {m : Message} {op : Broker.Op} (h : brokerCall s m = some op) :
    pubMine mine topics op = mine s := by
  cases m <;> first | (cases h; rfl) | cases h

theorem dealerCall_mine {mine : Int → Bool} {procs : String → Bool} {s : Int} {m : Message} {op : Dealer.Op} (h : dealerCall s m = some op) :
    rpcMine mine procs op = mine s := by
  cases m <;> first | (cases h; rfl) | cases h

/-! ## The sessions of the clients -/

/-- The renaming, as C114 takes it. -/
def names (ρ σ : Int → Int) : Ids.Names := ⟨fun _ => id, ρ, σ, σ⟩

theorem names_ok {ρ σ : Int → Int} (hρ : OneToOne ρ) (hσ : OneToOne σ) : (names ρ σ).Ok :=
  ⟨fun _ _ _ h => h, hρ, hσ, hσ⟩

/-- An ERROR that answers nothing there is. -/
def Odd : Message → Prop
  | .error e => Ses.kindOfCode e.messageType.val = none ∧ e.messageType.val ≠ 68
  | _ => False

theorem corresponds (ρ σ : Int → Int) {m : Message} (h : ¬ Odd m) : Ids.Corresponds (names ρ σ) m (renamed ρ σ m) := by
  cases m with
  | error e =>
    by_cases h8 : e.messageType.val = 68
    · have hk : Ses.kindOfCode 68 = none := by decide
      have hr : renamed ρ σ (.error e) = .error { e with requestId := .int (σ e.requestId.val) } := by
        simp only [renamed, Tenants.ids, if_pos h8]
      rw [hr]
      simp only [Ids.Corresponds, Ids.ids, h8, hk]
      exact ⟨rfl, rfl⟩
    · cases hk : Ses.kindOfCode e.messageType.val with
      | none => exact absurd ⟨hk, h8⟩ h
      | some k =>
        have hr : renamed ρ σ (.error e) = .error e := by simp only [renamed, Tenants.ids, if_neg h8]
        rw [hr]
        refine ⟨rfl, ?_⟩
        simp only [Ids.ids, hk]
        rfl
  | publish p =>
    refine ⟨rfl, ?_⟩
    simp only [renamed, Tenants.ids, Ids.ids]
    split <;> rfl
  | _ => exact ⟨rfl, rfl⟩

theorem odd_same {ρ σ : Int → Int} {m : Message} (h : Odd m) : renamed ρ σ m = m := by
  cases m <;> first | exact h.elim | skip
  rename_i e
  simp only [renamed, Tenants.ids]
  rw [if_neg h.2]

theorem odd_send (c : Codec W) (st : WAMPSession) {m : Message} (h : Odd m) :
    (st.sendMessage c m).1 = st ∧ ∃ e, (st.sendMessage c m).2 = .error e := by
  cases m <;> first | exact h.elim | skip
  simp only [WAMPSession.sendMessage]
  rw [if_pos (by exact h.2)]
  exact ⟨rfl, _, rfl⟩

theorem odd_receive (st : WAMPSession) {m : Message} (h : Odd m) :
    (st.receiveMessage m).1 = st ∧ ∃ e, (st.receiveMessage m).2 = .error e := by
  cases m <;> first | exact h.elim | skip
  rename_i e
  obtain ⟨h1, h2⟩ := h
  have ne : ∀ n k, Ses.kindOfCode n = some k → e.messageType.val ≠ n := by
    intro n k hk he; rw [he, hk] at h1; cases h1
  show (st.receiveError e).1 = st ∧ ∃ x, (st.receiveError e).2 = .error x
  unfold WAMPSession.receiveError
  rw [if_neg (ne _ .call rfl), if_neg (ne _ .register rfl), if_neg (ne _ .unregister rfl), if_neg (ne _ .subscribe rfl),
    if_neg (ne _ .unsubscribe rfl), if_neg (ne _ .publish rfl)]
  exact ⟨rfl, _, rfl⟩

/-- The two sessions stand alike, and their applications have seen the same. -/
structure Twins (c : Codec W) (ρ σ : Int → Int) (calls calls' : List (WAMPSession.Op W)) : Prop where
  state : WAMPSession.after c calls' = WAMPSession.renamed (names ρ σ) (WAMPSession.after c calls)
  seen : (WAMPSession.trace c calls').map appSees = (WAMPSession.trace c calls).map (fun e => seenIds ρ σ (appSees e))

theorem twins_nil (c : Codec W) (ρ σ : Int → Int) : Twins c ρ σ [] [] := ⟨rfl, rfl⟩

section
variable {c : Codec W} (hc : ∀ m, ∃ w, c.serialize m = .ok w) {ρ σ : Int → Int} (hρ : OneToOne ρ) (hσ : OneToOne σ)
  {calls calls' : List (WAMPSession.Op W)} (ht : Twins c ρ σ calls calls')
include hc hρ hσ ht

theorem twins_send (m : Message) :
    Twins c ρ σ (calls ++ [.sendMessage m]) (calls' ++ [.sendMessage (renamed ρ σ m)]) ∧
      returned (WAMPSession.outcome c calls' (.sendMessage (renamed ρ σ m))) = returned (WAMPSession.outcome c calls (.sendMessage m)) := by
  have key : ((WAMPSession.after c calls').sendMessage c (renamed ρ σ m)).1 =
        WAMPSession.renamed (names ρ σ) ((WAMPSession.after c calls).sendMessage c m).1 ∧
      ((∃ w w', ((WAMPSession.after c calls).sendMessage c m).2 = .ok w ∧ ((WAMPSession.after c calls').sendMessage c (renamed ρ σ m)).2 = .ok w') ∨
       ∃ e e', ((WAMPSession.after c calls).sendMessage c m).2 = .error e ∧ ((WAMPSession.after c calls').sendMessage c (renamed ρ σ m)).2 = .error e') := by
    rw [ht.state]
    by_cases ho : Odd m
    · rw [odd_same ho, (odd_send c _ ho).1, (odd_send c _ ho).1]
      obtain ⟨e, he⟩ := (odd_send c (WAMPSession.after c calls) ho).2
      obtain ⟨e', he'⟩ := (odd_send c (WAMPSession.renamed (names ρ σ) (WAMPSession.after c calls)) ho).2
      exact ⟨rfl, .inr ⟨e, e', he, he'⟩⟩
    · obtain ⟨h1, h2⟩ := WAMPSession.send_like c c (names_ok hρ hσ) (WAMPSession.after c calls) (corresponds ρ σ ho)
      refine ⟨h1, ?_⟩
      rcases h2 with ⟨h2, h3⟩ | ⟨t, h2, h3⟩
      · obtain ⟨w, hw⟩ := hc m
        obtain ⟨w', hw'⟩ := hc (renamed ρ σ m)
        exact .inl ⟨w, w', h2.trans hw, h3.trans hw'⟩
      · exact .inr ⟨_, _, h2, h3⟩
  obtain ⟨h1, h2⟩ := key
  have o1 : WAMPSession.outcome c calls (.sendMessage m) = ((WAMPSession.after c calls).sendMessage c m).2.map .data := rfl
  have o2 : WAMPSession.outcome c calls' (.sendMessage (renamed ρ σ m)) =
      ((WAMPSession.after c calls').sendMessage c (renamed ρ σ m)).2.map .data := rfl
  refine ⟨⟨?_, ?_⟩, ?_⟩
  · rw [WAMPSession.after_snoc, WAMPSession.after_snoc]; exact h1
  · rw [WAMPSession.trace_snoc, WAMPSession.trace_snoc, List.map_append, List.map_append, ht.seen]
    congr 1
    rw [o1, o2]
    rcases h2 with ⟨w, w', e1, e2⟩ | ⟨w, w', e1, e2⟩ <;> rw [e1, e2] <;> rfl
  · rw [o1, o2]
    rcases h2 with ⟨w, w', e1, e2⟩ | ⟨w, w', e1, e2⟩ <;> rw [e1, e2] <;> rfl

omit hc in
theorem twins_receive (m : Message) : Twins c ρ σ (calls ++ [.receiveMessage m]) (calls' ++ [.receiveMessage (renamed ρ σ m)]) := by
  have key : ((WAMPSession.after c calls').receiveMessage (renamed ρ σ m)).1 =
        WAMPSession.renamed (names ρ σ) ((WAMPSession.after c calls).receiveMessage m).1 ∧
      ((((WAMPSession.after c calls).receiveMessage m).2 = .ok m ∧ ((WAMPSession.after c calls').receiveMessage (renamed ρ σ m)).2 = .ok (renamed ρ σ m)) ∨
       ∃ e e', ((WAMPSession.after c calls).receiveMessage m).2 = .error e ∧ ((WAMPSession.after c calls').receiveMessage (renamed ρ σ m)).2 = .error e') := by
    rw [ht.state]
    by_cases ho : Odd m
    · rw [odd_same ho, (odd_receive _ ho).1, (odd_receive _ ho).1]
      obtain ⟨e, he⟩ := (odd_receive (WAMPSession.after c calls) ho).2
      obtain ⟨e', he'⟩ := (odd_receive (WAMPSession.renamed (names ρ σ) (WAMPSession.after c calls)) ho).2
      exact ⟨rfl, .inr ⟨e, e', he, he'⟩⟩
    · obtain ⟨h1, h2⟩ := WAMPSession.receive_like (names_ok hρ hσ) (WAMPSession.after c calls) (corresponds ρ σ ho)
      refine ⟨h1, ?_⟩
      rcases h2 with ⟨h2, h3⟩ | ⟨t, h2, h3⟩
      · exact .inl ⟨h2, h3⟩
      · exact .inr ⟨_, _, h2, h3⟩
  obtain ⟨h1, h2⟩ := key
  have o1 : WAMPSession.outcome c calls (.receiveMessage m) = ((WAMPSession.after c calls).receiveMessage m).2.map .msg := rfl
  have o2 : WAMPSession.outcome c calls' (.receiveMessage (renamed ρ σ m)) =
      ((WAMPSession.after c calls').receiveMessage (renamed ρ σ m)).2.map .msg := rfl
  refine ⟨?_, ?_⟩
  · rw [WAMPSession.after_snoc, WAMPSession.after_snoc]; exact h1
  · rw [WAMPSession.trace_snoc, WAMPSession.trace_snoc, List.map_append, List.map_append, ht.seen]
    congr 1
    rw [o1, o2]
    rcases h2 with ⟨e1, e2⟩ | ⟨w, w', e1, e2⟩ <;> rw [e1, e2] <;> rfl
end

/-! ## The two networks side by side -/

/-- Two clients, or none. -/
def Pair (c : Codec W) (ρ σ : Int → Int) : Option (Conn W) → Option (Conn W) → Prop
  | none, none => True
  | some k, some k' => Twins c ρ σ k.calls k'.calls ∧ k'.up = k.up.map (renamed ρ σ) ∧ k'.down = k.down.map (renamed ρ σ)
  | _, _ => False

/-- The second network is the first one without the others. -/
structure Beside (c : Codec W) (mine : Int → Bool) (topics procs : String → Bool) (ρ σ : Int → Int) (n n' : Net W) : Prop where
  broker : n'.broker = (n.broker.filter (pubMine mine topics)).map (pubIds ρ)
  dealer : n'.dealer = (n.dealer.filter (rpcMine mine procs)).map (rpcIds σ)
  conns : ∀ s, mine s = true → Pair c ρ σ (n.conns s) (n'.conns s)

section
variable {c : Codec W} {mine : Int → Bool} {topics procs : String → Bool} {ρ σ : Int → Int}

theorem pair_push {s : Int} {out out' : List (Int × Message)} {n n' : Net W} (h : Pair c ρ σ (n.conns s) (n'.conns s))
    (ho : inbox out' s = (inbox out s).map (renamed ρ σ)) : Pair c ρ σ ((n.push out).conns s) ((n'.push out').conns s) := by
  rw [conns_push, conns_push]
  revert h
  cases n.conns s <;> cases n'.conns s <;> intro h <;> first | exact h | skip
  exact ⟨h.1, h.2.1, by simp only [List.map_append, h.2.2, ho]⟩

theorem pair_push_left {s : Int} {out : List (Int × Message)} {n : Net W} {k' : Option (Conn W)} (h : Pair c ρ σ (n.conns s) k')
    (ho : inbox out s = []) : Pair c ρ σ ((n.push out).conns s) k' := by
  rw [conns_push]
  revert h
  cases n.conns s <;> cases k' <;> intro h <;> first | exact h | skip
  exact ⟨h.1, h.2.1, by simp only [ho, List.append_nil]; exact h.2.2⟩

theorem beside_set {n n' : Net W} (h : Beside c mine topics procs ρ σ n n') {s : Int} {k k' : Option (Conn W)} (hk : Pair c ρ σ k k') :
    Beside c mine topics procs ρ σ (n.setConn s k) (n'.setConn s k') := by
  refine ⟨h.broker, h.dealer, fun s' hs' => ?_⟩
  rw [setConn_conns, setConn_conns]
  split
  · exact hk
  · exact h.conns s' hs'

theorem beside_set_other {n n' : Net W} (h : Beside c mine topics procs ρ σ n n') {s : Int} (hs : mine s = false) (k : Option (Conn W)) :
    Beside c mine topics procs ρ σ (n.setConn s k) n' := by
  refine ⟨h.broker, h.dealer, fun s' hs' => ?_⟩
  rw [setConn_conns, if_neg (by rintro rfl; rw [hs] at hs'; cases hs')]
  exact h.conns s' hs'

/-- The calls of the broker for the application have corresponding outcomes with and without the others. -/
def OwnPub (mine : Int → Bool) (topics : String → Bool) (ρ : Int → Int) (all : List Broker.Op) : Prop :=
  ∀ pre op post, all = pre ++ op :: post → pubMine mine topics op = true →
    (Broker.outcome ((pre.filter (pubMine mine topics)).map (pubIds ρ)) (pubIds ρ op)).toOption =
      (Broker.outcome pre op).toOption.map (pubOutIds ρ)

/-- The same for the dealer. -/
def OwnRpc (mine : Int → Bool) (procs : String → Bool) (σ : Int → Int) (all : List Dealer.Op) : Prop :=
  ∀ pre op post, all = pre ++ op :: post → rpcMine mine procs op = true →
    (Dealer.outcome ((pre.filter (rpcMine mine procs)).map (rpcIds σ)) (rpcIds σ op)).toOption =
      (Dealer.outcome pre op).toOption.map (rpcOutIds σ)

variable {B : List Broker.Op} {D : List Dealer.Op}

section
variable (hB : OwnPub mine topics ρ B) (hD : OwnRpc mine procs σ D)

include hB hD in
theorem beside_handle {n n' : Net W} (h : Beside c mine topics procs ρ σ n n') {s : Int} (hs : mine s = true) (m : Message)
    (hb : ∃ z, B = (n.handle s m).broker ++ z) (hd : ∃ z, D = (n.handle s m).dealer ++ z) :
    Beside c mine topics procs ρ σ (n.handle s m) (n'.handle s (renamed ρ σ m)) := by
  revert hb hd
  unfold Net.handle
  rw [brokerCall_ids, dealerCall_ids]
  cases e1 : brokerCall s m with
  | some op =>
    rintro ⟨z, hz⟩ -
    have hz : B = n.broker ++ op :: z := by rw [hz]; simp [Net.push]
    have hm : pubMine mine topics op = true := (brokerCall_mine e1).trans hs
    refine ⟨?_, h.dealer, fun s' hs' => pair_push (h.conns s' hs') ?_⟩
    · simp only [Option.map_some, Net.push, h.broker, List.filter_append, List.filter_cons_of_pos hm, List.filter_nil, List.map_append, List.map_cons, List.map_nil]
    · have := hB _ _ _ hz hm
      rw [← h.broker] at this
      exact brokerOut_ids ρ σ this s' (brokerOut_isPub _ _)
  | none =>
    cases e2 : dealerCall s m with
    | some op =>
      rintro - ⟨z, hz⟩
      have hz : D = n.dealer ++ op :: z := by rw [hz]; simp [Net.push]
      have hm : rpcMine mine procs op = true := (dealerCall_mine e2).trans hs
      refine ⟨h.broker, ?_, fun s' hs' => pair_push (h.conns s' hs') ?_⟩
      · simp only [Option.map_some, Option.map_none, Net.push, h.dealer, List.filter_append, List.filter_cons_of_pos hm, List.filter_nil, List.map_append, List.map_cons, List.map_nil]
      · have := hD _ _ _ hz hm
        rw [← h.dealer] at this
        exact dealerOut_ids ρ σ this s' fun x hx => by
          have := dealerOut_isRpc _ _ x hx
          revert this
          generalize x.2 = y
          cases y <;> intro h <;> first | exact id | cases h
    | none => exact fun _ _ => h

theorem returned_option {α β : Type} {r : Except Exc α} {r' : Except Exc β} {f : α → β} (h : r'.toOption = r.toOption.map f) :
    returned r' = returned r := by
  cases r <;> cases r' <;> first | rfl | cases h

include hB hD in
theorem beside_step (hc : ∀ m, ∃ w, c.serialize m = .ok w) (hρ : OneToOne ρ) (hσ : OneToOne σ) {n n' : Net W}
    (h : Beside c mine topics procs ρ σ n n') (a : Act) (ha : actMine mine a = true)
    (hb : ∃ z, B = (n.step c a).broker ++ z) (hd : ∃ z, D = (n.step c a).dealer ++ z) :
    Beside c mine topics procs ρ σ (n.step c a) (n'.step c (actIds ρ σ a)) := by
  cases a with
  | join d =>
    have hm : pubMine mine topics (.addSession d) = true := ha
    have hm' : rpcMine mine procs (.addSession d) = true := ha
    have e1 : (n.step c (.join d)).broker = n.broker ++ [.addSession d] := by simp only [Net.step]; split <;> rfl
    have e2 : (n.step c (.join d)).dealer = n.dealer ++ [.addSession d] := by simp only [Net.step]; split <;> rfl
    obtain ⟨zb, hb⟩ := hb
    obtain ⟨zd, hd⟩ := hd
    rw [e1, List.append_assoc] at hb
    rw [e2, List.append_assoc] at hd
    have o1 := hB _ _ _ hb hm
    have o2 := hD _ _ _ hd hm'
    rw [← h.broker] at o1
    rw [← h.dealer] at o2
    have hn : Beside c mine topics procs ρ σ { n with broker := n.broker ++ [.addSession d], dealer := n.dealer ++ [.addSession d] }
        { n' with broker := n'.broker ++ [.addSession d], dealer := n'.dealer ++ [.addSession d] } := by
      refine ⟨?_, ?_, h.conns⟩
      · simp only [h.broker, List.filter_append, List.filter_cons_of_pos hm, List.filter_nil, List.map_append, List.map_cons, List.map_nil]; rfl
      · simp only [h.dealer, List.filter_append, List.filter_cons_of_pos hm', List.filter_nil, List.map_append, List.map_cons, List.map_nil]; rfl
    simp only [actIds, Net.step]
    have r1 := returned_option o1
    have r2 := returned_option o2
    simp only [pubIds, rpcIds] at r1 r2
    rw [r1, r2]
    split
    · exact beside_set hn ⟨twins_nil c ρ σ, rfl, rfl⟩
    · exact hn
  | leave s =>
    have hm : pubMine mine topics (.removeSession s) = true := ha
    have hm' : rpcMine mine procs (.removeSession s) = true := ha
    have hn : Beside c mine topics procs ρ σ { n with broker := n.broker ++ [.removeSession s], dealer := n.dealer ++ [.removeSession s] }
        { n' with broker := n'.broker ++ [.removeSession s], dealer := n'.dealer ++ [.removeSession s] } := by
      refine ⟨?_, ?_, h.conns⟩
      · simp only [h.broker, List.filter_append, List.filter_cons_of_pos hm, List.filter_nil, List.map_append, List.map_cons, List.map_nil]; rfl
      · simp only [h.dealer, List.filter_append, List.filter_cons_of_pos hm', List.filter_nil, List.map_append, List.map_cons, List.map_nil]; rfl
    exact beside_set hn (k := none) (k' := none) trivial
  | send s m =>
    have hp := h.conns s ha
    simp only [actIds, Net.step]
    cases e1 : n.conns s with
    | none =>
      cases e2 : n'.conns s with
      | none => exact h
      | some k' => rw [e1, e2] at hp; exact hp.elim
    | some k =>
      cases e2 : n'.conns s with
      | none => rw [e1, e2] at hp; exact hp.elim
      | some k' =>
        rw [e1, e2] at hp
        obtain ⟨h1, h2, h3⟩ := hp
        obtain ⟨t1, t2⟩ := twins_send hc hρ hσ h1 m
        refine beside_set h ⟨t1, ?_, h3⟩
        simp only [t2]
        split
        · rw [h2, List.map_append]; rfl
        · exact h2
  | route s =>
    have hp := h.conns s ha
    revert hb hd
    simp only [actIds, Net.step]
    cases e1 : n.conns s with
    | none =>
      cases e2 : n'.conns s with
      | none => exact fun _ _ => h
      | some k' => rw [e1, e2] at hp; exact hp.elim
    | some k =>
      cases e2 : n'.conns s with
      | none => rw [e1, e2] at hp; exact hp.elim
      | some k' =>
        rw [e1, e2] at hp
        obtain ⟨h1, h2, h3⟩ := hp
        cases hu : k.up with
        | nil => rw [hu] at h2; simp only [hu, h2, List.map_nil]; exact fun _ _ => h
        | cons m rest =>
          rw [hu] at h2
          simp only [hu, h2, List.map_cons]
          exact fun hb hd => beside_handle hB hD (beside_set h (k := some ⟨k.calls, rest, k.down⟩) (k' := some ⟨k'.calls, rest.map (renamed ρ σ), k'.down⟩) ⟨h1, rfl, h3⟩) ha m hb hd
  | deliver s =>
    have hp := h.conns s ha
    simp only [actIds, Net.step]
    cases e1 : n.conns s with
    | none =>
      cases e2 : n'.conns s with
      | none => exact h
      | some k' => rw [e1, e2] at hp; exact hp.elim
    | some k =>
      cases e2 : n'.conns s with
      | none => rw [e1, e2] at hp; exact hp.elim
      | some k' =>
        rw [e1, e2] at hp
        obtain ⟨h1, h2, h3⟩ := hp
        cases hu : k.down with
        | nil => rw [hu] at h3; simp only [hu, h3, List.map_nil]; exact h
        | cons m rest =>
          rw [hu] at h3
          simp only [hu, h3, List.map_cons]
          exact beside_set h (k := some _) (k' := some _) ⟨twins_receive hρ hσ h1 m, h2, rfl⟩

end

section
variable (hB : Parted mine topics ρ B) (hD : PartedRpc mine procs σ D)

include hB hD in
theorem beside_handle_other {n n' : Net W} (h : Beside c mine topics procs ρ σ n n') {s : Int} (hs : mine s = false) (m : Message)
    (hb : ∃ z, B = (n.handle s m).broker ++ z) (hd : ∃ z, D = (n.handle s m).dealer ++ z) :
    Beside c mine topics procs ρ σ (n.handle s m) n' := by
  revert hb hd
  unfold Net.handle
  cases e1 : brokerCall s m with
  | some op =>
    rintro ⟨z, hz⟩ -
    have hz : B = n.broker ++ op :: z := by rw [hz]; simp [Net.push]
    have hm : pubMine mine topics op = false := (brokerCall_mine e1).trans hs
    refine ⟨?_, h.dealer, fun s' hs' => pair_push_left (h.conns s' hs') (brokerOut_other (hB.other _ _ _ hz hm s' hs'))⟩
    simp [Net.push, h.broker, List.filter_append, hm]
  | none =>
    cases e2 : dealerCall s m with
    | some op =>
      rintro - ⟨z, hz⟩
      have hz : D = n.dealer ++ op :: z := by rw [hz]; simp [Net.push]
      have hm : rpcMine mine procs op = false := (dealerCall_mine e2).trans hs
      refine ⟨h.broker, ?_, fun s' hs' => pair_push_left (h.conns s' hs') (dealerOut_other (hD.other _ _ _ hz hm s' hs'))⟩
      simp [Net.push, h.dealer, List.filter_append, hm]
    | none => exact fun _ _ => h

include hB hD in
theorem beside_step_other {n n' : Net W} (h : Beside c mine topics procs ρ σ n n') (a : Act) (ha : actMine mine a = false)
    (hb : ∃ z, B = (n.step c a).broker ++ z) (hd : ∃ z, D = (n.step c a).dealer ++ z) :
    Beside c mine topics procs ρ σ (n.step c a) n' := by
  cases a with
  | join d =>
    have hm : pubMine mine topics (.addSession d) = false := ha
    have hm' : rpcMine mine procs (.addSession d) = false := ha
    have hn : Beside c mine topics procs ρ σ { n with broker := n.broker ++ [.addSession d], dealer := n.dealer ++ [.addSession d] } n' := by
      refine ⟨?_, ?_, h.conns⟩
      · simp [h.broker, List.filter_append, hm]
      · simp [h.dealer, List.filter_append, hm']
    simp only [Net.step]
    split
    · exact beside_set_other hn ha _
    · exact hn
  | leave s =>
    have hm : pubMine mine topics (.removeSession s) = false := ha
    have hm' : rpcMine mine procs (.removeSession s) = false := ha
    have hn : Beside c mine topics procs ρ σ { n with broker := n.broker ++ [.removeSession s], dealer := n.dealer ++ [.removeSession s] } n' := by
      refine ⟨?_, ?_, h.conns⟩
      · simp [h.broker, List.filter_append, hm]
      · simp [h.dealer, List.filter_append, hm']
    exact beside_set_other hn ha _
  | send s m =>
    simp only [Net.step]
    split
    · exact h
    · exact beside_set_other h ha _
  | route s =>
    revert hb hd
    simp only [Net.step]
    split
    · exact fun _ _ => h
    · split
      · exact fun _ _ => h
      · exact fun hb hd => beside_handle_other hB hD (beside_set_other h ha _) ha _ hb hd
  | deliver s =>
    simp only [Net.step]
    split
    · exact h
    · split
      · exact h
      · exact beside_set_other h ha _

end

end

/-! ## The whole schedule -/

/-- What the router is asked to do is what clients sent. -/
theorem asked (c : Codec W) (P : Int → Message → Prop) (sched : List Act) (hP : ∀ s m, .send s m ∈ sched → P s m) :
    (∀ op ∈ (run c sched).broker, (∃ d, op = .addSession d) ∨ (∃ s, op = .removeSession s) ∨ ∃ s m, brokerCall s m = some op ∧ P s m) ∧
    (∀ op ∈ (run c sched).dealer, (∃ d, op = .addSession d) ∨ (∃ s, op = .removeSession s) ∨ ∃ s m, dealerCall s m = some op ∧ P s m) ∧
    (run c sched).broker.length ≤ sched.length ∧ (run c sched).dealer.length ≤ sched.length := by
  induction sched using snoc_induction with
  | nil => exact ⟨nofun, nofun, Nat.le_refl _, Nat.le_refl _⟩
  | snoc sched a ih =>
    have hP' : ∀ s m, .send s m ∈ sched → P s m := fun s m h => hP s m (List.mem_append_left _ h)
    have hw := on_its_way c P sched hP'
    obtain ⟨i1, i2, i3, i4⟩ := ih hP'
    rw [run_snoc, List.length_append]
    have same : ∀ n' : Net W, n'.broker = (run c sched).broker → n'.dealer = (run c sched).dealer →
        (∀ op ∈ n'.broker, (∃ d, op = .addSession d) ∨ (∃ s, op = .removeSession s) ∨ ∃ s m, brokerCall s m = some op ∧ P s m) ∧
        (∀ op ∈ n'.dealer, (∃ d, op = .addSession d) ∨ (∃ s, op = .removeSession s) ∨ ∃ s m, dealerCall s m = some op ∧ P s m) ∧
        n'.broker.length ≤ sched.length + [a].length ∧ n'.dealer.length ≤ sched.length + [a].length := by
      intro n' h1 h2
      rw [h1, h2]
      exact ⟨i1, i2, Nat.le_trans i3 (Nat.le_add_right _ _), Nat.le_trans i4 (Nat.le_add_right _ _)⟩
    have len : ∀ {α : Type} {l : List α} (x : α), l.length ≤ sched.length → (l ++ [x]).length ≤ sched.length + [a].length := by
      intro α l x h; simp only [List.length_append, List.length_cons, List.length_nil]; omega
    cases a with
    | join d =>
      have e1 : ((run c sched).step c (.join d)).broker = (run c sched).broker ++ [.addSession d] := by simp only [Net.step]; split <;> rfl
      have e2 : ((run c sched).step c (.join d)).dealer = (run c sched).dealer ++ [.addSession d] := by simp only [Net.step]; split <;> rfl
      rw [e1, e2]
      refine ⟨fun op h => ?_, fun op h => ?_, len _ i3, len _ i4⟩
      · rcases List.mem_append.1 h with h | h
        · exact i1 op h
        · exact .inl ⟨d, List.mem_singleton.1 h⟩
      · rcases List.mem_append.1 h with h | h
        · exact i2 op h
        · exact .inl ⟨d, List.mem_singleton.1 h⟩
    | leave s =>
      refine ⟨fun op h => ?_, fun op h => ?_, len (Broker.Op.removeSession s) i3, len (Dealer.Op.removeSession s) i4⟩
      · rcases List.mem_append.1 h with h | h
        · exact i1 op h
        · exact .inr (.inl ⟨s, List.mem_singleton.1 h⟩)
      · rcases List.mem_append.1 h with h | h
        · exact i2 op h
        · exact .inr (.inl ⟨s, List.mem_singleton.1 h⟩)
    | send s m => simp only [Net.step]; split <;> exact same _ rfl rfl
    | deliver s =>
      simp only [Net.step]; split
      · exact same _ rfl rfl
      · split <;> exact same _ rfl rfl
    | route s =>
      simp only [Net.step]; split
      · exact same _ rfl rfl
      · rename_i k hk
        cases hu : k.up with
        | nil => exact same _ rfl rfl
        | cons m rest =>
          have hm := (hw s k hk).1 m (by rw [hu]; exact List.mem_cons_self)
          simp only [Net.handle]
          split
          · rename_i op he
            refine ⟨fun op' h => ?_, i2, len op i3, Nat.le_trans i4 (Nat.le_add_right _ _)⟩
            rcases List.mem_append.1 h with h | h
            · exact i1 op' h
            · exact .inr (.inr ⟨s, m, (List.mem_singleton.1 h) ▸ he, hm⟩)
          · rename_i op _ he
            refine ⟨i1, fun op' h => ?_, Nat.le_trans i3 (Nat.le_add_right _ _), len op i4⟩
            rcases List.mem_append.1 h with h | h
            · exact i2 op' h
            · exact .inr (.inr ⟨s, m, (List.mem_singleton.1 h) ▸ he, hm⟩)
          · exact same _ rfl rfl

theorem apart_ops (c : Codec W) {mine : Int → Bool} {topics procs : String → Bool} {sched : List Act} (h : Apart mine topics procs sched) :
    (∀ op ∈ (run c sched).broker, pubApart mine topics op) ∧ (∀ op ∈ (run c sched).dealer, rpcApart mine procs op) ∧
    (run c sched).broker.length ≤ sched.length ∧ (run c sched).dealer.length ≤ sched.length := by
  obtain ⟨h1, h2, h3, h4⟩ := asked c _ sched h
  refine ⟨fun op ho => ?_, fun op ho => ?_, h3, h4⟩
  · rcases h1 op ho with ⟨d, rfl⟩ | ⟨s, rfl⟩ | ⟨s, m, he, hm⟩
    · trivial
    · trivial
    · cases m <;> cases he <;> exact hm
  · rcases h2 op ho with ⟨d, rfl⟩ | ⟨s, rfl⟩ | ⟨s, m, he, hm⟩
    · trivial
    · trivial
    · cases m <;> cases he <;> exact hm

theorem beside_run {c : Codec W} (hc : ∀ m, ∃ w, c.serialize m = .ok w) {mine : Int → Bool} {topics procs : String → Bool} {ρ σ : Int → Int}
    {sched : List Act} (hρ : OneToOne ρ) (hσ : OneToOne σ) (hB : Parted mine topics ρ (run c sched).broker)
    (hD : PartedRpc mine procs σ (run c sched).dealer) (pre : List Act) : ∀ post, sched = pre ++ post →
    Beside c mine topics procs ρ σ (run c pre) (run c (alone mine ρ σ pre)) := by
  induction pre using snoc_induction with
  | nil => exact fun _ _ => ⟨rfl, rfl, fun _ _ => trivial⟩
  | snoc pre a ih =>
    intro post hs
    have hp := ih (a :: post) (by rw [hs]; simp)
    obtain ⟨hb, hd⟩ := run_grows c (pre ++ [a]) post
    rw [← hs, run_snoc] at hb hd
    rw [run_snoc]
    by_cases ha : actMine mine a = true
    · have : alone mine ρ σ (pre ++ [a]) = alone mine ρ σ pre ++ [actIds ρ σ a] := by
        simp [alone, List.filter_append, ha]
      rw [this, run_snoc]
      exact beside_step hB.own hD.own hc hρ hσ hp a ha hb hd
    · have ha : actMine mine a = false := by simpa using ha
      have : alone mine ρ σ (pre ++ [a]) = alone mine ρ σ pre := by
        simp [alone, List.filter_append, ha]
      rw [this]
      exact beside_step_other hB hD hp a ha hb hd

theorem same_of_pair {c : Codec W} {ρ σ : Int → Int} : ∀ {k k' : Option (Conn W)}, Pair c ρ σ k k' → Same c ρ σ k k'
  | none, none, _ => trivial
  | some _, some _, h => ⟨h.1.seen, h.2.1, h.2.2⟩
  | none, some _, h => h
  | some _, none, h => h

/-! ## Clients that report errors only for what they were asked -/

theorem dealerTrace_mono {ops more : List Dealer.Op} {e : Dealer.Obs} (h : e ∈ Dealer.trace ops) : e ∈ Dealer.trace (ops ++ more) := by
  induction more using snoc_induction with
  | nil => simpa using h
  | snoc more x ih => rw [← List.append_assoc, Dealer.trace_snoc]; exact List.mem_append_left _ ih

theorem mem_dealerTrace {ops : List Dealer.Op} {e : Dealer.Obs} (h : e ∈ Dealer.trace ops) :
    ∃ pre post, ops = pre ++ e.1 :: post ∧ e.2 = Dealer.outcome pre e.1 := by
  induction ops using snoc_induction with
  | nil => cases h
  | snoc ops op ih =>
    rw [Dealer.trace_snoc] at h
    rcases List.mem_append.1 h with h | h
    · obtain ⟨pre, post, e1, e2⟩ := ih h
      exact ⟨pre, post ++ [op], by rw [e1]; simp, e2⟩
    · rw [List.mem_singleton.1 h]; exact ⟨ops, [], rfl, rfl⟩

theorem invocation_call {ops : List Dealer.Op} {op : Dealer.Op} {i : Invocation} {q : Int}
    (h : Dealer.outcome ops op = .ok (.reply ⟨.invocation i, q⟩)) : ∃ s m, op = .receiveMessage s (.call m) := by
  have hk := Dealer.kind (Dealer.after ops) (Dealer.wf_after ops) op
  rw [Dealer.outcome] at h
  generalize hres : (Dealer.after ops).step op = res at hk h
  cases hk <;> first | exact ⟨_, _, rfl⟩ | cases h

/-- Who asked for an invocation. -/
theorem invoker {ops : List Dealer.Op} (hl : ops.length ≤ 2 ^ 53) {op : Dealer.Op} {i : Invocation} {q : Int}
    (h : (op, Except.ok (Dealer.Out.reply ⟨.invocation i, q⟩)) ∈ Dealer.trace ops) :
    ∃ s m, op = .receiveMessage s (.call m) ∧ ∃ x ∈ (Rpc.view (Dealer.trace ops)).issued, x.inv = i.requestId.val ∧ x.caller = s := by
  induction ops using snoc_induction with
  | nil => cases h
  | snoc ops op' ih =>
    have hl' : ops.length < 2 ^ 53 := by simp only [List.length_append, List.length_cons, List.length_nil] at hl; omega
    have hd : (Rpc.view (Dealer.trace ops)).drawn < 2 ^ 53 := Nat.lt_of_le_of_lt (Dealer.drawn_le_length ops) hl'
    rw [Dealer.trace_snoc] at h ⊢
    rw [Dealer.view_snoc]
    have keep : ∀ (v : Rpc.View) e x, x ∈ v.issued → x ∈ (v.next e).issued := by
      intro v e x hx
      unfold Rpc.View.next
      split <;> (try split) <;> first | exact hx | exact List.mem_append_left _ hx
    rcases List.mem_append.1 h with h | h
    · obtain ⟨s, m, e, x, hx, h1, h2⟩ := ih (Nat.le_of_lt hl') h
      exact ⟨s, m, e, x, keep _ _ x hx, h1, h2⟩
    · obtain ⟨rfl, ho⟩ := Prod.mk.inj (List.mem_singleton.1 h)
      obtain ⟨s, m, rfl⟩ := invocation_call ho.symm
      refine ⟨s, m, rfl, ?_⟩
      have hc := (Dealer.rel_after ops hd).2
      obtain ⟨r, h1, h2, ⟨hi, h3⟩ | ⟨-, j, h3, hi, -⟩⟩ := Dealer.call_cases hd ho.symm
      · rw [show ((Dealer.after ops).step (.receiveMessage s (.call m))).2 = _ from ho.symm]
        have hno : (Rpc.view (Dealer.trace ops)).issued.any (fun x => x.inv = i.requestId.val) = false := by
          refine List.any_eq_false.2 fun x hx => ?_
          have hid : i.requestId.val = (Rpc.view (Dealer.trace ops)).drawn + 1 := by rw [hi]; rfl
          have := hc.range x hx
          rw [hid]; simp only [decide_eq_true_eq]; omega
        simp only [Rpc.View.next, hno]
        exact ⟨_, List.mem_append_right _ (List.mem_singleton.2 rfl), rfl, rfl⟩
      · obtain ⟨x, hx, e1, e2⟩ := hc.map _ _ h3
        exact ⟨x, keep _ _ x hx, by rw [hi]; exact e1, congrArg Prod.fst e2⟩

/-- An invocation stays on the side of the call. -/
theorem invocation_side {mine : Int → Bool} {procs : String → Bool} {ops : List Dealer.Op} (hl : ops.length ≤ 2 ^ 53)
    (ha : ∀ op ∈ ops, rpcApart mine procs op) (he : ErrorsApart mine ops) {s : Int} {m : Call} {i : Invocation} {q : Int}
    (h : (.receiveMessage s (.call m), Except.ok (Dealer.Out.reply ⟨.invocation i, q⟩)) ∈ Dealer.trace ops) : mine s = mine q := by
  obtain ⟨pre, post, e1, e2⟩ := mem_dealerTrace h
  have go : ∀ (f : Int → Bool) (g : String → Bool), (∀ op ∈ ops, rpcApart f g op) → ErrorsApart f ops → f s = false → f q = true → False := by
    intro f g ha he h1 h2
    obtain ⟨σ, -, hD⟩ := partedRpc f g ops hl ha he
    have := hD.other pre _ post e1 h1 q h2
    rw [show Dealer.outcome pre _ = _ from e2.symm] at this
    simp [rpcMail, mail] at this
  cases h1 : mine s <;> cases h2 : mine q
  · rfl
  · exact (go mine procs ha he h1 h2).elim
  · refine (go (fun s => !mine s) (fun p => !procs p) (fun op ho => ?_) (fun b s m l e h op i c hc hi => ?_) (by rw [h1]; rfl) (by rw [h2]; rfl)).elim
    · have := ha op ho
      revert this
      unfold rpcApart
      split <;> intro h <;> first | exact congrArg (!·) h | trivial
    · exact congrArg (!·) (he b s m l e h op i c hc hi)
  · rfl

/-- Every invocation ERROR the dealer is asked to handle is about an INVOCATION sent to the same client. -/
def ErrorsOwn (ops : List Dealer.Op) : Prop :=
  ∀ before s m later, ops = before ++ .receiveMessage s (.error m) :: later → m.messageType.val = 68 →
    ∃ op i, (op, Except.ok (Dealer.Out.reply ⟨.invocation i, s⟩)) ∈ Dealer.trace before ∧ i.requestId.val = m.requestId.val

theorem errorsApart_of_own {mine : Int → Bool} {procs : String → Bool} {ops : List Dealer.Op} (hl : ops.length ≤ 2 ^ 53)
    (ha : ∀ op ∈ ops, rpcApart mine procs op) (ho : ErrorsOwn ops) : ErrorsApart mine ops := by
  induction ops using snoc_induction with
  | nil => intro b s m l e; simp at e
  | snoc ops op ih =>
    have hl' : ops.length < 2 ^ 53 := by simp only [List.length_append, List.length_cons, List.length_nil] at hl; omega
    have ha' : ∀ op ∈ ops, rpcApart mine procs op := fun op h => ha op (List.mem_append_left _ h)
    have hi := ih (Nat.le_of_lt hl') ha' (fun b s m l e => ho b s m (l ++ [op]) (by rw [e]; simp))
    intro b s m l e ht op' i q hm hid
    rcases List.eq_nil_or_concat l with rfl | ⟨l', x, rfl⟩
    · obtain ⟨rfl, e2⟩ := List.append_inj' e rfl
      cases e2
      obtain ⟨op0, i0, h0, hid0⟩ := ho ops s m [] rfl ht
      obtain ⟨s0, m0, rfl, x0, hx0, a1, a2⟩ := invoker (Nat.le_of_lt hl') h0
      obtain ⟨s1, m1, rfl, x1, hx1, b1, b2⟩ := invoker (Nat.le_of_lt hl') hm
      have hd : (Rpc.view (Dealer.trace ops)).drawn < 2 ^ 53 := Nat.lt_of_le_of_lt (Dealer.drawn_le_length ops) hl'
      have := (Dealer.rel_after ops hd).2.inj x0 hx0 x1 hx1 (by rw [a1, b1, hid0, hid])
      have hs : s0 = s1 := by rw [← a2, ← b2, this]
      rw [← invocation_side (Nat.le_of_lt hl') ha' hi h0, ← invocation_side (Nat.le_of_lt hl') ha' hi hm, hs]
    · have e' : ops ++ [op] = (b ++ .receiveMessage s (.error m) :: l') ++ [x] := by rw [e]; simp
      exact hi b s m l' (List.append_inj' e' rfl).1 ht op' i q hm hid

/-- What the dealer sent. -/
def WasSent (n : Net W) (s i : Int) : Prop :=
  ∃ op inv, (op, Except.ok (Dealer.Out.reply ⟨.invocation inv, s⟩)) ∈ Dealer.trace n.dealer ∧ inv.requestId.val = i

/-- What clients receive was sent to them, and so was what they report errors about. -/
structure Informed (n : Net W) : Prop where
  own : ErrorsOwn n.dealer
  down : ∀ s k, n.conns s = some k → ∀ inv, .invocation inv ∈ k.down → WasSent n s inv.requestId.val
  got : ∀ s k, n.conns s = some k → ∀ inv, .receiveMessage (.invocation inv) ∈ k.calls → WasSent n s inv.requestId.val
  raw : ∀ s k, n.conns s = some k → ∀ d, .receive d ∉ k.calls
  up : ∀ s k, n.conns s = some k → ∀ m, .error m ∈ k.up → m.messageType.val = 68 → WasSent n s m.requestId.val

theorem WasSent.mono {n n' : Net W} {s i : Int} (h : WasSent n s i) (hd : ∃ z, n'.dealer = n.dealer ++ z) : WasSent n' s i := by
  obtain ⟨op, inv, h, e⟩ := h
  obtain ⟨z, hz⟩ := hd
  exact ⟨op, inv, by rw [hz]; exact dealerTrace_mono h, e⟩

theorem errorsOwn_snoc {ops : List Dealer.Op} (h : ErrorsOwn ops) {op : Dealer.Op}
    (ho : ∀ s m, op = .receiveMessage s (.error m) → m.messageType.val = 68 →
      ∃ op i, (op, Except.ok (Dealer.Out.reply ⟨.invocation i, s⟩)) ∈ Dealer.trace ops ∧ i.requestId.val = m.requestId.val) :
    ErrorsOwn (ops ++ [op]) := by
  intro b s m l e ht
  rcases List.eq_nil_or_concat l with rfl | ⟨l', x, rfl⟩
  · obtain ⟨rfl, e2⟩ := List.append_inj' e rfl
    cases e2
    exact ho s m rfl ht
  · have e' : ops ++ [op] = (b ++ .receiveMessage s (.error m) :: l') ++ [x] := by rw [e]; simp
    exact h b s m l' (List.append_inj' e' rfl).1 ht

theorem informed_set {n : Net W} (h : Informed n) (s : Int) (k : Option (Conn W)) (hk : ∀ k', k = some k' →
    (∀ inv, .invocation inv ∈ k'.down → WasSent n s inv.requestId.val) ∧
    (∀ inv, .receiveMessage (.invocation inv) ∈ k'.calls → WasSent n s inv.requestId.val) ∧
    (∀ d, .receive d ∉ k'.calls) ∧
    ∀ m, .error m ∈ k'.up → m.messageType.val = 68 → WasSent n s m.requestId.val) : Informed (n.setConn s k) := by
  have c : ∀ s' k', (n.setConn s k).conns s' = some k' → (s' = s ∧ k = some k') ∨ n.conns s' = some k' := by
    intro s' k' h
    rw [setConn_conns] at h
    split at h
    · exact .inl ⟨‹_›, h⟩
    · exact .inr h
  constructor
  · exact h.own
  · intro s' k' hk'
    rcases c s' k' hk' with ⟨rfl, e⟩ | e
    · exact (hk k' e).1
    · exact h.down s' k' e
  · intro s' k' hk'
    rcases c s' k' hk' with ⟨rfl, e⟩ | e
    · exact (hk k' e).2.1
    · exact h.got s' k' e
  · intro s' k' hk'
    rcases c s' k' hk' with ⟨rfl, e⟩ | e
    · exact (hk k' e).2.2.1
    · exact h.raw s' k' e
  · intro s' k' hk'
    rcases c s' k' hk' with ⟨rfl, e⟩ | e
    · exact (hk k' e).2.2.2
    · exact h.up s' k' e

theorem informed_push {n : Net W} (h : Informed n) {b : List Broker.Op} {d : List Dealer.Op} (hd : ∃ z, d = n.dealer ++ z) (ho : ErrorsOwn d)
    {out : List (Int × Message)} (hout : ∀ s inv, (s, .invocation inv) ∈ out → WasSent { n with broker := b, dealer := d } s inv.requestId.val) :
    Informed (Net.push { n with broker := b, dealer := d } out) := by
  have c : ∀ s' k', (Net.push { n with broker := b, dealer := d } out).conns s' = some k' →
      ∃ k, n.conns s' = some k ∧ k'.calls = k.calls ∧ k'.up = k.up ∧ k'.down = k.down ++ inbox out s' := by
    intro s' k' h
    rw [conns_push] at h
    obtain ⟨k, h1, rfl⟩ := Option.map_eq_some_iff.1 h
    exact ⟨k, h1, rfl, rfl, rfl⟩
  constructor
  · exact ho
  · intro s' k' hk' inv hi
    obtain ⟨k, h1, -, -, e⟩ := c s' k' hk'
    rw [e] at hi
    rcases List.mem_append.1 hi with hi | hi
    · exact (h.down s' k h1 inv hi).mono hd
    · exact hout s' inv (mem_inbox.1 hi)
  · intro s' k' hk' inv hi
    obtain ⟨k, h1, e, -, -⟩ := c s' k' hk'
    exact (h.got s' k h1 inv (e ▸ hi)).mono hd
  · intro s' k' hk' inv hi
    obtain ⟨k, h1, e, -, -⟩ := c s' k' hk'
    exact h.raw s' k h1 inv (e ▸ hi)
  · intro s' k' hk' m hi ht
    obtain ⟨k, h1, -, e, -⟩ := c s' k' hk'
    exact (h.up s' k h1 m (e ▸ hi) ht).mono hd

theorem informed_run {c : Codec W} (sched : List Act) (he : ErrorsAnswer c sched) : Informed (run c sched) := by
  induction sched using snoc_induction with
  | nil => exact ⟨fun b s m l e => (by simp [run] at e), nofun, nofun, nofun, nofun⟩
  | snoc sched a ih =>
    have h := ih (fun pre s m post e => he pre s m (post ++ [a]) (by rw [e]; simp))
    have hsend := fun s m (e : a = .send s (.error m)) => he sched s m [] (by rw [e])
    rw [run_snoc]
    generalize run c sched = n at h hsend ⊢
    have other : ∀ op : Dealer.Op, (∀ s m, op ≠ .receiveMessage s m) → ErrorsOwn (n.dealer ++ [op]) :=
      fun op ho => errorsOwn_snoc h.own fun s m e => (ho _ _ e).elim
    have grow : ∀ (b : List Broker.Op) (d : List Dealer.Op), (∃ z, d = n.dealer ++ z) → ErrorsOwn d → Informed { n with broker := b, dealer := d } := by
      intro b d hd ho
      exact ⟨ho, fun s k hk inv hi => (h.down s k hk inv hi).mono hd, fun s k hk inv hi => (h.got s k hk inv hi).mono hd, h.raw,
        fun s k hk m hm ht => (h.up s k hk m hm ht).mono hd⟩
    cases a with
    | join d =>
      have hg := grow (n.broker ++ [.addSession d]) (n.dealer ++ [.addSession d]) ⟨_, rfl⟩ (other _ nofun)
      simp only [Net.step]
      split
      · refine informed_set hg _ _ fun k' e => ?_
        cases e
        exact ⟨nofun, nofun, nofun, nofun⟩
      · exact hg
    | leave s =>
      exact informed_set (grow (n.broker ++ [.removeSession s]) (n.dealer ++ [.removeSession s]) ⟨_, rfl⟩ (other _ nofun)) s none nofun
    | send s m =>
      simp only [Net.step]
      split
      · exact h
      · rename_i k hk
        refine informed_set h _ _ fun k' e => ?_
        cases e
        refine ⟨h.down s k hk, fun inv hi => ?_, fun d hd => ?_, fun m' hm' ht => ?_⟩
        · rcases List.mem_append.1 hi with hi | hi
          · exact h.got s k hk inv hi
          · cases List.mem_singleton.1 hi
        · rcases List.mem_append.1 hd with hi | hi
          · exact h.raw s k hk d hi
          · cases List.mem_singleton.1 hi
        · have hm' : .error m' ∈ k.up ∨ m = .error m' := by
            revert hm'; simp only []; split
            · intro hm'; rcases List.mem_append.1 hm' with h | h
              · exact .inl h
              · exact .inr (List.mem_singleton.1 h).symm
            · exact .inl
          rcases hm' with hm' | rfl
          · exact h.up s k hk m' hm' ht
          · obtain ⟨pre, e, post, h1, ⟨out, inv, -, h2, h3⟩, -⟩ := hsend s m' rfl k hk ht
            have hmem : e.1 ∈ k.calls := by
              rw [← WAMPSession.trace_ops c k.calls, h1]; simp
            obtain ⟨op, r⟩ := e
            cases op with
            | receiveMessage m => cases h2; rw [← h3]; exact h.got s k hk inv hmem
            | receive d => exact (h.raw s k hk d hmem).elim
            | sendMessage m => cases h2
    | route s =>
      simp only [Net.step]
      split
      · exact h
      · rename_i k hk
        cases hu : k.up with
        | nil => exact h
        | cons m rest =>
          have h' : Informed (n.setConn s (some { k with up := rest })) := by
            refine informed_set h _ _ fun k' e => ?_
            cases e
            exact ⟨h.down s k hk, h.got s k hk, h.raw s k hk, fun m' hm' => h.up s k hk m' (by rw [hu]; exact List.mem_cons_of_mem _ hm')⟩
          simp only [Net.handle]
          split
          · exact informed_push h' ⟨[], by simp⟩ h'.own fun s' inv hi => by
              have := brokerOut_isPub _ _ _ hi
              cases this
          · rename_i op _ hop
            refine informed_push h' ⟨_, rfl⟩ (errorsOwn_snoc h'.own fun s' m' e ht => ?_) fun s' inv hi => ?_
            · subst e
              have : s' = s ∧ m = .error m' := by
                revert hop; cases m <;> intro hop <;> cases hop
                exact ⟨rfl, rfl⟩
              obtain ⟨rfl, rfl⟩ := this
              exact h.up s' k hk m' (by rw [hu]; exact List.mem_cons_self) ht
            · refine ⟨op, inv, ?_, rfl⟩
              rw [Dealer.trace_snoc]
              refine List.mem_append_right _ (List.mem_singleton.2 ?_)
              revert hi
              rw [Dealer.outcome]
              generalize ((Dealer.after _).step op).2 = r
              intro hi
              unfold dealerOut at hi
              split at hi
              · rename_i r
                obtain ⟨mm, q⟩ := r
                cases List.mem_singleton.1 hi
                rfl
              · cases hi
          · exact h'
    | deliver s =>
      simp only [Net.step]
      split
      · exact h
      · rename_i k hk
        cases hu : k.down with
        | nil => exact h
        | cons m rest =>
          refine informed_set h _ _ fun k' e => ?_
          cases e
          refine ⟨fun inv hi => h.down s k hk inv (by rw [hu]; exact List.mem_cons_of_mem _ hi), fun inv hi => ?_, fun d hd => ?_, h.up s k hk⟩
          · rcases List.mem_append.1 hi with hi | hi
            · exact h.got s k hk inv hi
            · cases List.mem_singleton.1 hi
              exact h.down s k hk inv (by rw [hu]; exact List.mem_cons_self)
          · rcases List.mem_append.1 hd with hi | hi
            · exact h.raw s k hk d hi
            · cases List.mem_singleton.1 hi

/-! ## The property -/

/-- Two applications can share a network: as long as nobody of the one uses topics and procedures of the other, and nobody reports an
error about an invocation that is not theirs to answer, each client of the one sees at every moment what it would see if the others were
not there, and has the same on its way to it and from it, but for the ids the router draws, which are exchanged one to one. -/
theorem C133_neighbours {c : Codec W} (hc : ∀ m, ∃ w, c.serialize m = .ok w) (mine : Int → Bool) (topics procedures : String → Bool)
    (sched : List Act) (hl : sched.length ≤ 2 ^ 53) (ha : Apart mine topics procedures sched) (he : ErrorsAnswer c sched) :
    ∃ ρ σ, OneToOne ρ ∧ OneToOne σ ∧ ∀ pre post, sched = pre ++ post → ∀ s, mine s = true →
      Same c ρ σ ((run c pre).conns s) ((run c (alone mine ρ σ pre)).conns s) := by
  obtain ⟨h1, h2, h3, h4⟩ := apart_ops c ha
  have he := errorsApart_of_own (Nat.le_trans h4 hl) h2 (informed_run sched he).own
  obtain ⟨ρ, hρ, hB⟩ := parted mine topics _ (Nat.le_trans h3 hl) h1
  obtain ⟨σ, hσ, hD⟩ := partedRpc mine procedures _ (Nat.le_trans h4 hl) h2 he
  exact ⟨ρ, σ, hρ, hσ, fun pre post hs s hm => same_of_pair ((beside_run hc hρ hσ hB hD pre post hs).conns s hm)⟩

/-- Clients 1 and 2 use `a`; client 3 uses `b`, and reports an error about a call of its own. -/
def houses : List Act :=
  [joins 3, joins 1, joins 2, .send 3 (.subscribe ⟨.int 7, "b", []⟩), .send 3 (.register ⟨.int 8, "b", []⟩), .route 3, .route 3, .deliver 3, .deliver 3,
   .send 1 (.subscribe ⟨.int 1, "a", []⟩), .send 1 (.register ⟨.int 2, "a", []⟩), .route 1, .route 1, .deliver 1, .deliver 1,
   .send 3 (.call { requestId := .int 9, procedure := "b" }), .route 3, .deliver 3,
   .send 2 (.publish { requestId := .int 4, topic := "a" }), .send 2 (.call { requestId := .int 5, procedure := "a" }), .route 2, .route 2,
   .send 3 (.error { messageType := .int 68, requestId := .int 3, uri := "no" }), .route 3, .deliver 3, .deliver 1, .deliver 1,
   .send 1 (.yield_ { requestId := .int 4 }), .route 1, .deliver 2]

example : Apart (· ≠ 3) (· = "a") (· = "a") houses := by
  intro s m h
  simp only [houses, joins, List.mem_cons, List.not_mem_nil, or_false, reduceCtorEq, Act.send.injEq, false_or] at h
  rcases h with ⟨rfl, rfl⟩ | ⟨rfl, rfl⟩ | ⟨rfl, rfl⟩ | ⟨rfl, rfl⟩ | ⟨rfl, rfl⟩ | ⟨rfl, rfl⟩ | ⟨rfl, rfl⟩ | ⟨rfl, rfl⟩ | ⟨rfl, rfl⟩ <;> first | rfl | trivial

example : ErrorsAnswer WAMPSession.plainCodec houses := errors_of_errorsB _ _ (by decide +kernel)

private def handed (s : Int) (sched : List Act) : Option (List Message) :=
  ((run WAMPSession.plainCodec sched).conns s).map fun k => k.calls.filterMap fun | .receiveMessage m => some m | _ => none

/-- What client 1 is handed with the others there, and without them: other ids, otherwise the same. -/
example : handed 1 houses = some [.subscribed ⟨.int 1, .int 2⟩, .registered ⟨.int 2, .int 2⟩,
      .event { subscriptionId := .int 2, publicationId := .int 3 }, .invocation { requestId := .int 4, registrationId := .int 2 }] ∧
    handed 2 houses = some [.result { requestId := .int 5 }] ∧
    handed 1 (alone (· ≠ 3) (· - 1) (fun i => if i = 2 then 1 else i - 2) houses) = some [.subscribed ⟨.int 1, .int 1⟩, .registered ⟨.int 2, .int 1⟩,
      .event { subscriptionId := .int 1, publicationId := .int 2 }, .invocation { requestId := .int 2, registrationId := .int 1 }] := by
  decide +kernel

/-- The proviso about errors is needed: a client that reports an error about an invocation of the other application ends its call. -/
def burglar : List Act :=
  [joins 1, joins 2, joins 3, .send 2 (.register ⟨.int 1, "a", []⟩), .route 2, .deliver 2, .send 1 (.call { requestId := .int 1, procedure := "a" }), .route 1,
   .send 3 (.error { messageType := .int 68, requestId := .int 2, uri := "no" }), .route 3]

theorem C133_errors_needed : Apart (· ≠ 3) (· = "a") (· = "a") burglar ∧ ¬ ∃ ρ σ, OneToOne ρ ∧ OneToOne σ ∧
    Same WAMPSession.plainCodec ρ σ ((run WAMPSession.plainCodec burglar).conns 1)
      ((run WAMPSession.plainCodec (alone (· ≠ 3) ρ σ burglar)).conns 1) := by
  constructor
  · intro s m h
    simp only [burglar, joins, List.mem_cons, List.not_mem_nil, or_false, reduceCtorEq, Act.send.injEq, false_or] at h
    rcases h with ⟨rfl, rfl⟩ | ⟨rfl, rfl⟩ | ⟨rfl, rfl⟩ <;> first | rfl | trivial
  · rintro ⟨ρ, σ, -, -, h⟩
    have e : alone (· ≠ 3) ρ σ burglar = [joins 1, joins 2, .send 2 (.register ⟨.int 1, "a", []⟩), .route 2, .deliver 2,
        .send 1 (.call { requestId := .int 1, procedure := "a" }), .route 1] := rfl
    rw [e] at h
    have h1 : (((run WAMPSession.plainCodec burglar).conns 1).map fun k => k.down.length) = some 1 := by decide +kernel
    have h2 : (((run WAMPSession.plainCodec [joins 1, joins 2, .send 2 (.register ⟨.int 1, "a", []⟩), .route 2, .deliver 2,
        .send 1 (.call { requestId := .int 1, procedure := "a" }), .route 1]).conns 1).map fun k => k.down.length) = some 0 := by decide +kernel
    obtain ⟨k, hk, h1⟩ := Option.map_eq_some_iff.1 h1
    obtain ⟨k', hk', h2⟩ := Option.map_eq_some_iff.1 h2
    rw [hk, hk'] at h
    have := congrArg List.length h.2.2
    rw [List.length_map, h1, h2] at this
    cases this

end Wamp.Spec.Neighbours
