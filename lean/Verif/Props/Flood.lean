import Verif.Spec.Flood
import Verif.Props.Broker
import Verif.Proofs.NetBase
import Verif.Proofs.ByteNet

/-! # C138: nobody is flooded -/

namespace Wamp.Spec.Flood
open Wamp.Spec.Net Wamp.Spec.Ses

/-! ## One call -/

theorem inbox_one (t : Int) (m : Message) (s : Int) : (inbox [(t, m)] s).length = if t = s then 1 else 0 := by
  simp only [inbox]
  by_cases h : t = s <;> simp [h]

theorem inbox_events (l : List Int) (m : Message) (s : Int) (hl : l.Nodup) : (inbox (l.map (·, m)) s).length ≤ 1 := by
  induction l with
  | nil => simp [inbox]
  | cons t l ih =>
    rw [List.nodup_cons] at hl
    have e : List.map (fun x => (x, m)) (t :: l) = [(t, m)] ++ l.map (·, m) := rfl
    rw [e, inbox_append, List.length_append, inbox_one]
    have := ih hl.2
    split
    · rename_i h
      subst h
      have : inbox (l.map (·, m)) t = [] := by
        simp only [inbox, List.map_eq_nil_iff, List.filter_eq_nil_iff, List.mem_map]
        rintro x ⟨y, hy, rfl⟩
        simp only [decide_eq_true_eq]
        rintro rfl
        exact hl.1 hy
      rw [this]; simp
    · omega

/-- Whatever has happened, a call of the broker's API makes it send each session at most one message, and one more to the session
whose message it was. -/
theorem C138_broker (ops : List Broker.Op) (op : Broker.Op) (s : Int) :
    (inbox (brokerOut (Broker.outcome ops op)) s).length ≤ (if (brokerFrom op).isSome then 1 else 0) + (if brokerFrom op = some s then 1 else 0) := by
  have hw := Broker.wf_after ops
  simp only [Broker.outcome, Broker.step]
  cases op with
  | addSession d =>
    dsimp only
    generalize ((Broker.after ops).addSession d).2 = r
    cases r <;> simp [brokerOut, inbox, Except.map]
  | removeSession t =>
    dsimp only
    generalize ((Broker.after ops).removeSession t).2 = r
    cases r <;> simp [brokerOut, inbox, Except.map]
  | hasSubscription t => simp [brokerOut, inbox]
  | receiveMessage t m =>
    simp only [brokerFrom]
    cases ((Broker.after ops).receiveMessage t m).2 with
    | error e => simp [brokerOut, inbox, Except.map]
    | ok r =>
      simp only [Except.map, brokerOut, inbox_one, Option.isSome_some, if_true]
      split <;> omega
  | receivePublish t m =>
    simp only [brokerFrom, Broker.receivePublish]
    split
    · simp only [Except.map, brokerOut, inbox_append, List.length_append, Option.isSome_some, if_true]
      have hack : ∀ p : Publication, (∀ r, p.ack = some r → r.recipient = t) →
          (inbox (ackOf p) s).length ≤ if some t = some s then 1 else 0 := by
        intro p h
        unfold ackOf
        split
        · rename_i r hr
          rw [inbox_one, h r hr]
          by_cases e : t = s <;> simp [e]
        · simp [inbox]
      have hev : ∀ p : Publication, p.recipients.Nodup → (inbox (eventsOf p) s).length ≤ 1 := by
        intro p h
        unfold eventsOf
        split
        · exact inbox_events _ _ _ h
        · simp [inbox]
      refine Nat.add_le_add (hev _ ?_) (hack _ ?_)
      · cases ht : (Broker.after ops).subscriptionsByTopic.get m.topic with
        | none => split <;> simp
        | some r =>
          have h3 : (((Broker.after ops).heap r).subscribers.keys).Nodup := (hw.top _ _ ht).2.2.1
          split <;> simpa using h3
      · cases ht : (Broker.after ops).subscriptionsByTopic.get m.topic <;> split <;> intro r hr <;> simp at hr <;> rw [← hr]
    · simp [brokerOut, inbox, Except.map]

/-- A call of the dealer's API makes it send one message at most. -/
theorem C138_dealer (ops : List Dealer.Op) (op : Dealer.Op) : (dealerOut (Dealer.outcome ops op)).length ≤ 1 := by
  unfold dealerOut
  split <;> simp

/-! ## The network -/

variable {W : Type} (cs : Int → Codec W)

theorem inbox_le (out : List (Int × Message)) (s : Int) : (inbox out s).length ≤ out.length := by
  simp only [inbox, List.length_map]; exact List.length_filter_le _ _

def dealerFrom : Dealer.Op → Option Int
  | .receiveMessage s _ => some s
  | _ => none

def isFrom (p : Int → Bool) : Option Int → Bool
  | some s => p s
  | none => false

/-- How many messages of the clients described the router has handled -/
def handled (n : BNet W) (p : Int → Bool) : Nat :=
  n.broker.countP (fun op => isFrom p (brokerFrom op)) + n.dealer.countP (fun op => isFrom p (dealerFrom op))

def upLen (n : BNet W) (s : Int) : Nat := ((n.conns s).map (·.up.length)).getD 0

def total (n : BNet W) (L : List Int) : Nat := (L.map (upLen n)).sum

theorem total_congr {n n' : BNet W} {L : List Int} (h : ∀ s ∈ L, upLen n s = upLen n' s) : total n L = total n' L := by
  unfold total; rw [List.map_congr_left h]

theorem total_le {n n' : BNet W} {L : List Int} (h : ∀ s ∈ L, upLen n s ≤ upLen n' s) : total n L ≤ total n' L := by
  induction L with
  | nil => simp [total]
  | cons t L ih =>
    have h1 := h t List.mem_cons_self
    have h2 := ih fun s hs => h s (List.mem_cons_of_mem _ hs)
    simp only [total, List.map_cons, List.sum_cons] at h2 ⊢
    omega

/-- One client has up to so many more. -/
theorem total_at {n n' : BNet W} {L : List Int} (hL : L.Nodup) (t : Int) (i j : Nat) (ht : upLen n t + i ≤ upLen n' t + j)
    (h : ∀ s, s ≠ t → upLen n s = upLen n' s) (hm : t ∈ L) : total n L + i ≤ total n' L + j := by
  induction L with
  | nil => cases hm
  | cons u L ih =>
    rw [List.nodup_cons] at hL
    simp only [total, List.map_cons, List.sum_cons]
    by_cases e : u = t
    · subst e
      have : total n L = total n' L := total_congr fun s hs => h s (by rintro rfl; exact hL.1 hs)
      simp only [total] at this
      omega
    · have h1 := h u e
      have h2 := ih hL.2 ((List.mem_cons.1 hm).resolve_left (Ne.symm e))
      simp only [total] at h2
      omega

structure FInv (n : BNet W) (sched : List Act) : Prop where
  up : ∀ p L, L.Nodup → (∀ s ∈ L, p s = true) → total n L + handled n p ≤ sendsBy p sched
  got : ∀ s k, n.conns s = some k → k.got ≤ handled n (fun _ => true) + handled n (fun t => decide (t = s))

theorem upLen_set (n : BNet W) (s : Int) (k : Option (BConn W)) (t : Int) :
    upLen (n.setConn s k) t = if t = s then (k.map (·.up.length)).getD 0 else upLen n t := by
  simp only [upLen, BNet.setConn]
  split <;> rfl

theorem sendsBy_snoc (p : Int → Bool) (sched : List Act) (a : Act) :
    sendsBy p (sched ++ [a]) = sendsBy p sched + sendsBy p [a] := by
  simp only [sendsBy, List.countP_append]

theorem handled_set (n : BNet W) (s : Int) (k : Option (BConn W)) (p : Int → Bool) : handled (n.setConn s k) p = handled n p := rfl

theorem upLen_push (n : BNet W) (out : List (Int × Message)) (t : Int) : upLen (n.push cs out) t = upLen n t := by
  simp only [upLen, BNet.push]
  cases n.conns t <;> rfl

theorem handled_push (n : BNet W) (out : List (Int × Message)) (p : Int → Bool) : handled (n.push cs out) p = handled n p := rfl

theorem got_push {n : BNet W} {out : List (Int × Message)} {s : Int} {k : BConn W} (h : (n.push cs out).conns s = some k) :
    ∃ k', n.conns s = some k' ∧ k.got ≤ k'.got + (inbox out s).length := by
  simp only [BNet.push, Option.map_eq_some_iff] at h
  obtain ⟨k', h1, rfl⟩ := h
  refine ⟨k', h1, ?_⟩
  have := List.length_filterMap_le (fun m => ((cs s).serialize m).toOption) (inbox out s)
  simp only [BConn.got, List.length_append]
  omega

theorem handled_broker (n : BNet W) (s : Int) (m : Message) (op : Broker.Op) (h : brokerCall s m = some op) (p : Int → Bool) :
    handled { n with broker := n.broker ++ [op] } p = handled n p + (if p s then 1 else 0) := by
  have : brokerFrom op = some s := by
    cases m <;> simp only [brokerCall, Option.some.injEq, reduceCtorEq] at h <;> subst h <;> rfl
  simp only [handled, List.countP_append, List.countP_singleton, this, isFrom]
  omega

theorem handled_dealer (n : BNet W) (s : Int) (m : Message) (op : Dealer.Op) (h : dealerCall s m = some op) (p : Int → Bool) :
    handled { n with dealer := n.dealer ++ [op] } p = handled n p + (if p s then 1 else 0) := by
  have : dealerFrom op = some s := by
    cases m <;> simp only [dealerCall, Option.some.injEq, reduceCtorEq] at h <;> subst h <;> rfl
  simp only [handled, List.countP_append, List.countP_singleton, this, isFrom]
  omega

theorem finv_run (sched : List Act) : FInv (brun cs sched) sched := by
  induction sched using snoc_induction with
  | nil =>
    refine ⟨fun p L _ _ => ?_, fun s k h => by cases h⟩
    have : total (brun cs []) L = 0 := by
      induction L with
      | nil => rfl
      | cons t L ih => simp only [total, List.map_cons, List.sum_cons] at ih ⊢; rw [ih (by grind) (by grind)]; rfl
    rw [this]; exact Nat.le_refl 0
  | snoc sched a hi =>
    rw [brun_snoc]
    generalize brun cs sched = n at hi ⊢
    have same : ∀ {n' : BNet W}, sendsBy (fun _ => false) [a] = 0 → (∀ t, upLen n' t ≤ upLen n t) → (∀ p, handled n' p = handled n p) →
        (∀ s k, n'.conns s = some k → k.got ≤ handled n (fun _ => true) + handled n (fun t => decide (t = s))) → FInv n' (sched ++ [a]) := by
      intro n' _ h1 h2 h3
      refine ⟨fun p L hL hp => ?_, fun s k hk => ?_⟩
      · have := hi.up p L hL hp
        have := total_le (L := L) fun s _ => h1 s
        rw [sendsBy_snoc, h2]; omega
      · rw [h2, h2]; exact h3 s k hk
    have h0 : sendsBy (fun _ => false) [a] = 0 := by cases a <;> rfl
    cases a with
    | join d =>
      simp only [BNet.step]
      have hh : ∀ p, handled ({ n with broker := n.broker ++ [.addSession d], dealer := n.dealer ++ [.addSession d] } : BNet W) p = handled n p := by
        intro p
        simp only [handled, List.countP_append, List.countP_singleton, brokerFrom, dealerFrom, isFrom]
        simp
      split
      · refine same h0 (fun t => ?_) hh (fun s k hk => ?_)
        · rw [upLen_set]
          split
          · exact Nat.zero_le _
          · exact Nat.le_refl _
        · simp only [BNet.setConn] at hk
          split at hk
          · cases hk; exact Nat.zero_le _
          · exact hi.got s k hk
      · exact same h0 (fun t => Nat.le_refl _) hh hi.got
    | leave s =>
      have hh : ∀ p, handled ({ n with broker := n.broker ++ [.removeSession s], dealer := n.dealer ++ [.removeSession s] } : BNet W) p = handled n p := by
        intro p
        simp only [handled, List.countP_append, List.countP_singleton, brokerFrom, dealerFrom, isFrom]
        simp
      simp only [BNet.step]
      refine same h0 (fun t => ?_) hh (fun s' k hk => ?_)
      · rw [upLen_set]
        split
        · exact Nat.zero_le _
        · exact Nat.le_refl _
      · simp only [BNet.setConn] at hk
        split at hk
        · cases hk
        · exact hi.got s' k hk
    | send s m =>
      simp only [BNet.step]
      cases hk : n.conns s with
      | none => exact same h0 (fun t => Nat.le_refl _) (fun _ => rfl) hi.got
      | some k =>
        dsimp only
        refine ⟨fun p L hL hp => ?_, fun s' k' hk' => ?_⟩
        · have h1 := hi.up p L hL hp
          rw [handled_set, sendsBy_snoc]
          by_cases hm : s ∈ L
          · have h2 : sendsBy p [.send s m] = 1 := by simp [sendsBy, hp s hm]
            refine Nat.le_trans (Nat.add_le_add_right (total_at (n' := n) hL s 0 1 ?_ ?_ hm) _) ?_
            · rw [upLen_set, if_pos rfl]
              simp only [upLen, hk, Option.map_some, Option.getD_some]
              split
              · rw [List.length_append]; exact Nat.le_refl _
              · omega
            · intro t ht; rw [upLen_set, if_neg ht]
            · omega
          · rw [total_congr (n' := n) fun t ht => by rw [upLen_set, if_neg (by rintro rfl; exact hm ht)]]
            omega
        · rw [handled_set, handled_set]
          simp only [BNet.setConn] at hk'
          split at hk'
          · rename_i e
            subst e
            cases hk'
            have := hi.got s' k hk
            simp only [BConn.got, List.countP_append, List.countP_singleton, isReceive] at this ⊢
            simpa using this
          · exact hi.got s' k' hk'
    | deliver s =>
      simp only [BNet.step]
      cases hk : n.conns s with
      | none => exact same h0 (fun t => Nat.le_refl _) (fun _ => rfl) hi.got
      | some k =>
        dsimp only
        split
        · exact same h0 (fun t => Nat.le_refl _) (fun _ => rfl) hi.got
        · rename_i w ws hd
          refine same h0 (fun t => ?_) (fun _ => rfl) (fun s' k' hk' => ?_)
          · rw [upLen_set]
            split
            · rename_i e; subst e; simp [upLen, hk]
            · exact Nat.le_refl _
          · simp only [BNet.setConn] at hk'
            split at hk'
            · rename_i e
              subst e
              cases hk'
              have := hi.got s' k hk
              simp only [BConn.got, List.countP_append, List.countP_singleton, isReceive, hd, List.length_cons] at this ⊢
              simp only [if_true]; omega
            · exact hi.got s' k' hk'
    | route s =>
      simp only [BNet.step]
      cases hk : n.conns s with
      | none => exact same h0 (fun t => Nat.le_refl _) (fun _ => rfl) hi.got
      | some k =>
        dsimp only
        split
        · exact same h0 (fun t => Nat.le_refl _) (fun _ => rfl) hi.got
        · rename_i w ws hu
          have hup : ∀ t, upLen (n.setConn s (some { k with up := ws })) t = if t = s then ws.length else upLen n t := by
            intro t; rw [upLen_set]; rfl
          have hus : upLen n s = ws.length + 1 := by simp [upLen, hk, hu]
          have hgot : ∀ s' k', (n.setConn s (some { k with up := ws })).conns s' = some k' →
              k'.got ≤ handled n (fun _ => true) + handled n (fun t => decide (t = s')) := by
            intro s' k' hk'
            simp only [BNet.setConn] at hk'
            split at hk'
            · rename_i e
              subst e
              cases hk'
              exact hi.got s' k hk
            · exact hi.got s' k' hk'
          have hless : ∀ t, upLen (n.setConn s (some { k with up := ws })) t ≤ upLen n t := by
            intro t; rw [hup]; split
            · rename_i e; rw [e, hus]; omega
            · exact Nat.le_refl _
          split
          · exact same h0 hless (fun _ => rfl) hgot
          · rename_i m hm
            -- the message is taken, and counted as handled
            have key : ∀ (n' : BNet W), (∀ t, upLen n' t = upLen (n.setConn s (some { k with up := ws })) t) →
                (∀ p, handled n' p = handled n p + if p s then 1 else 0) →
                (∀ s' k', n'.conns s' = some k' → ∃ k'', (n.setConn s (some { k with up := ws })).conns s' = some k'' ∧
                  k'.got ≤ k''.got + (1 + if s = s' then 1 else 0)) → FInv n' (sched ++ [.route s]) := by
              intro n' h1 h2 h3
              refine ⟨fun p L hL hp => ?_, fun s' k' hk' => ?_⟩
              · rw [sendsBy_snoc, h2]
                have h4 : total n' L = total (n.setConn s (some { k with up := ws })) L := total_congr fun t _ => h1 t
                rw [h4]
                by_cases hs : p s = true
                · rw [if_pos hs]
                  by_cases hm : s ∈ L
                  · have h5 := hi.up p L hL hp
                    have h6 := total_at (n := n.setConn s (some { k with up := ws })) (n' := n) hL s 1 0 (by
                      rw [hup, if_pos rfl, hus]; exact Nat.le_refl _) (by intro t ht; rw [hup, if_neg ht]) hm
                    omega
                  · have h5 := hi.up p (s :: L) (List.nodup_cons.2 ⟨hm, hL⟩) (by
                      intro t ht
                      rcases List.mem_cons.1 ht with rfl | ht
                      · exact hs
                      · exact hp t ht)
                    have h6 : total n (s :: L) = upLen n s + total n L := rfl
                    have h7 := total_le (L := L) fun t _ => hless t
                    omega
                · rw [if_neg hs]
                  have h5 := hi.up p L hL hp
                  have h7 := total_le (L := L) fun t _ => hless t
                  omega
              · obtain ⟨k'', h4, h5⟩ := h3 s' k' hk'
                have h6 := hgot s' k'' h4
                rw [h2, h2]
                simp only [if_true, decide_eq_true_eq]
                omega
            simp only [BNet.handle]
            split
            · rename_i op hop
              refine key _ (fun t => ?_) (fun p => ?_) (fun s' k' hk' => ?_)
              · rw [upLen_push]; rfl
              · rw [handled_push, handled_broker _ s m op hop]; rfl
              · obtain ⟨k'', h1, h2⟩ := got_push cs hk'
                refine ⟨k'', h1, ?_⟩
                have h3 := C138_broker n.broker op s'
                have h4 : brokerFrom op = some s := by
                  cases m <;> simp only [brokerCall, Option.some.injEq, reduceCtorEq] at hop <;> subst hop <;> rfl
                simp only [h4, Option.isSome_some, if_true, Option.some.injEq] at h3
                have h5 : (n.setConn s (some { k with up := ws })).broker = n.broker := rfl
                rw [h5] at h2
                omega
            · rename_i op hop' hop
              refine key _ (fun t => ?_) (fun p => ?_) (fun s' k' hk' => ?_)
              · rw [upLen_push]; rfl
              · rw [handled_push, handled_dealer _ s m op hop]; rfl
              · obtain ⟨k'', h1, h2⟩ := got_push cs hk'
                refine ⟨k'', h1, ?_⟩
                have h3 := C138_dealer n.dealer op
                have h4 := inbox_le (dealerOut (Dealer.outcome n.dealer op)) s'
                have h5 : (n.setConn s (some { k with up := ws })).dealer = n.dealer := rfl
                rw [h5] at h2
                omega
            · exact same h0 hless (fun _ => rfl) hgot

/-- Whatever the clients send, and whatever serializers they use: a client has been sent at most one message for every message any
client has been asked to send, and one more for every message it has been asked to send itself. -/
theorem C138_no_flood (sched : List Act) (s : Int) (k : BConn W) (h : (brun cs sched).conns s = some k) :
    k.got ≤ sendsBy (fun _ => true) sched + sendsBy (fun t => decide (t = s)) sched := by
  have hi := finv_run cs sched
  have h1 := hi.up (fun _ => true) [] List.nodup_nil (by simp)
  have h2 := hi.up (fun t => decide (t = s)) [] List.nodup_nil (by simp)
  have h3 := hi.got s k h
  omega

/-! ## The bounds are met -/

/-- A client subscribes to a topic and publishes to it, asking for an acknowledgement: it gets a SUBSCRIBED, an EVENT and a
PUBLISHED.  Another client subscribes as well, and gets an EVENT for a message it did not send. -/
def loud : List Act :=
  [.join ⟨.int 1, "r", none, none⟩, .join ⟨.int 2, "r", none, none⟩, .send 1 (.subscribe ⟨.int 1, "t", []⟩), .route 1, .deliver 1,
   .send 2 (.subscribe ⟨.int 1, "t", []⟩), .route 2,
   .send 1 (.publish ⟨.int 2, "t", none, none, [(.str "acknowledge", .bool true)]⟩), .route 1]

/-- The publisher gets two messages for one of its own, the other client one. -/
example : (((brun (fun _ => objects) loud).conns 1).map (·.got) = some 3) ∧ (((brun (fun _ => objects) loud).conns 2).map (·.got) = some 2) ∧
    (((brun (fun _ => objects) loud.dropLast).conns 1).map (·.got) = some 1) ∧
    (((brun (fun _ => objects) loud.dropLast).conns 2).map (·.got) = some 1) := by decide +kernel

example : sendsBy (fun _ => true) loud = 3 ∧ sendsBy (fun t => decide (t = 1)) loud = 2 := by decide

/-- Without its own messages counted twice the bound would be false: a client that has only ever talked to itself. -/
theorem C138_own_count_twice : ∃ sched k, (brun (fun _ => objects) sched).conns 1 = some k ∧ sendsBy (fun _ => true) sched < k.got := by
  refine ⟨[.join ⟨.int 1, "r", none, none⟩, .send 1 (.subscribe ⟨.int 1, "t", []⟩), .route 1,
    .send 1 (.publish ⟨.int 2, "t", none, none, [(.str "acknowledge", .bool true)]⟩), .route 1], ?_⟩
  have h : ∀ o : Option (BConn Value), o.map (·.got) = some 3 → ∃ k, o = some k ∧ 2 < k.got := by
    intro o ho
    obtain ⟨k, h1, h2⟩ := Option.map_eq_some_iff.1 ho
    exact ⟨k, h1, by omega⟩
  exact h _ (by decide +kernel)

end Wamp.Spec.Flood
