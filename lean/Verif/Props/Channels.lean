import Verif.Spec.Channels
import Verif.Props.StackRest

/-!
# C129: between a member and the router nothing is lost, repeated or reordered
-/

namespace Wamp.Spec.Net
open Wamp.Spec.Ses Stack

variable {W : Type}

theorem since_snoc {Op α : Type} (anew : List Op → Op → Bool) (add : List Op → Op → List α) (ops : List Op) (op : Op) :
    since anew add (ops ++ [op]) = if anew ops op then [] else since anew add ops ++ add ops op := by
  have : ∀ ops : List Op, (ops.foldl (fun (x : List Op × List α) op => (x.1 ++ [op], if anew x.1 op then [] else x.2 ++ add x.1 op)) ([], [])).1 = ops := by
    intro ops
    induction ops using snoc_induction with
    | nil => rfl
    | snoc ops op ih => rw [List.foldl_append, List.foldl_cons, List.foldl_nil, ih]
  simp only [since]
  rw [List.foldl_append, List.foldl_cons, List.foldl_nil, this]

/-! ## From the router to the member -/

/-- The messages a client's session has been given -/
def given (calls : List (WAMPSession.Op W)) : List Message :=
  calls.filterMap fun
    | .receiveMessage m => some m
    | _ => none

theorem filter_all {α : Type} {p : α → Bool} {l : List α} (h : ∀ x ∈ l, p x = true) : l.filter p = l := List.filter_eq_self.2 h
theorem filter_no {α : Type} {p : α → Bool} {l : List α} (h : ∀ x ∈ l, p x = false) : l.filter p = [] := by
  rw [List.filter_eq_nil_iff]; intro x hx; rw [h x hx]; simp

/-- What has been given to a client and what is on its way to it: one for one what broker and dealer have returned for it. -/
structure DownInv (n : Net W) (s : Int) (k : Conn W) : Prop where
  pub : (given k.calls ++ k.down).filter isPub = brokerSaid s n.broker
  rpc : (given k.calls ++ k.down).filter isRpc = dealerSaid s n.dealer
  all : ∀ m ∈ given k.calls ++ k.down, isPub m = true ∨ isRpc m = true

theorem said_message_broker (s : Int) (ops : List Broker.Op) (op : Broker.Op) (h : ∀ d, op ≠ .addSession d) :
    brokerSaid s (ops ++ [op]) = brokerSaid s ops ++ inbox (brokerOut (Broker.outcome ops op)) s := by
  rw [brokerSaid, since_snoc]
  cases op <;> first | rfl | exact absurd rfl (h _)

theorem said_message_dealer (s : Int) (ops : List Dealer.Op) (op : Dealer.Op) (h : ∀ d, op ≠ .addSession d) :
    dealerSaid s (ops ++ [op]) = dealerSaid s ops ++ inbox (dealerOut (Dealer.outcome ops op)) s := by
  rw [dealerSaid, since_snoc]
  cases op <;> first | rfl | exact absurd rfl (h _)

theorem down_run (c : Codec W) (sched : List Act) (hl : sched.length ≤ 2 ^ 53) (s : Int) (k : Conn W)
    (hk : (run c sched).conns s = some k) : DownInv (run c sched) s k := by
  induction sched using snoc_induction generalizing k with
  | nil => cases hk
  | snoc sched a ih =>
    rw [List.length_append] at hl
    have hl' : sched.length + 1 ≤ 2 ^ 53 := hl
    have hs := stepCase c (base_run c sched (by omega)) (by omega) a
    rw [run_snoc] at hk ⊢
    generalize (run c sched).step c a = n' at hs hk ⊢
    have ih := ih (by omega)
    generalize run c sched = n at hs ih
    have same : ∀ k0, n.conns s = some k0 → given k.calls ++ k.down = given k0.calls ++ k0.down →
        n'.broker = n.broker → n'.dealer = n.dealer → DownInv n' s k := by
      intro k0 h1 h2 h3 h4
      obtain ⟨i1, i2, i3⟩ := ih k0 h1
      exact ⟨by rw [h2, h3]; exact i1, by rw [h2, h4]; exact i2, by rw [h2]; exact i3⟩
    have still : ∀ opb opd, n'.broker = n.broker ++ [opb] → n'.dealer = n.dealer ++ [opd] → n.conns s = some k →
        brokerAdds s n.broker opb = false → dealerAdds s n.dealer opd = false →
        brokerOut (Broker.outcome n.broker opb) = [] → dealerOut (Dealer.outcome n.dealer opd) = [] → DownInv n' s k := by
      intro opb opd h1 h2 h3 h4 h5 h6 h7
      obtain ⟨i1, i2, i3⟩ := ih k h3
      refine ⟨?_, ?_, i3⟩
      · rw [i1, h1, brokerSaid, since_snoc, h4, h6]; simp [inbox]
      · rw [i2, h2, dealerSaid, since_snoc, h5, h7]; simp [inbox]
    cases hs with
    | idle => exact same k hk rfl rfl rfl
    | joinFail d eb ed h1 h2 h3 =>
      exact still _ _ rfl rfl hk (by simp [brokerAdds, h2, returned]) (by simp [dealerAdds, h3, returned]) (by rw [h2]; rfl) (by rw [h3]; rfl)
    | leaveFail s' eb ed h1 h2 h3 =>
      exact still _ _ rfl rfl hk rfl rfl (by rw [h2]; rfl) (by rw [h3]; rfl)
    | join d h1 h2 h3 =>
      simp only at hk; split at hk
      · rename_i e; cases hk
        refine ⟨?_, ?_, by intro m hm; cases hm⟩
        · rw [brokerSaid, since_snoc]; simp [brokerAdds, h2, returned, e, given]
        · rw [dealerSaid, since_snoc]; simp [dealerAdds, h3, returned, e, given]
      · rename_i e
        have e' : ¬ d.sessionId.val = s := fun h => e h.symm
        exact still _ _ rfl rfl hk (by simp [brokerAdds, e']) (by simp [dealerAdds, e']) (by rw [h2]; rfl) (by rw [h3]; rfl)
    | leave s' k' h1 h2 h3 =>
      simp only at hk; split at hk
      · cases hk
      · exact still _ _ rfl rfl hk rfl rfl (by rw [h2]; rfl) (by rw [h3]; rfl)
    | send s' m k0 h1 =>
      simp only at hk; split at hk
      · rename_i e; subst e; cases hk
        exact same k0 h1 (by simp [given]) rfl rfl
      · exact same k hk rfl rfl rfl
    | deliver s' m k0 rest h1 h2 =>
      simp only at hk; split at hk
      · rename_i e; subst e; cases hk
        exact same k0 h1 (by simp [given, h2]) rfl rfl
      · exact same k hk rfl rfl rfl
    | routeX s' m k0 rest h1 =>
      simp only at hk; split at hk
      · rename_i e; subst e; cases hk
        exact same k0 h1 rfl rfl rfl
      · exact same k hk rfl rfl rfl
    | routeB s' m k0 rest op h1 h2 h3 =>
      have hin : ∀ m ∈ inbox (brokerOut (Broker.outcome n.broker op)) s, isPub m = true :=
        fun m hm => C67_who_sends_what.1 _ _ _ (mem_inbox.1 hm)
      have hno : ∀ m ∈ inbox (brokerOut (Broker.outcome n.broker op)) s, isRpc m = false := by
        intro m hm
        cases hx : isRpc m with
        | false => rfl
        | true => have := hin m hm; rw [C67_who_sends_what.2.2 m hx] at this; cases this
      have key : ∀ k1, n.conns s = some k1 → k.calls = k1.calls → k.down = k1.down ++ inbox (brokerOut (Broker.outcome n.broker op)) s →
          DownInv ⟨n.broker ++ [op], n.dealer, n.conns⟩ s k := by
        intro k1 g1 g2 g3
        obtain ⟨i1, i2, i3⟩ := ih k1 g1
        refine ⟨?_, ?_, ?_⟩
        · rw [g2, g3, ← List.append_assoc, List.filter_append, i1, filter_all hin, said_message_broker s _ _ (brokerCall_op h3).1]
        · rw [g2, g3, ← List.append_assoc, List.filter_append, i2, filter_no hno, List.append_nil]
        · rw [g2, g3, ← List.append_assoc]
          intro m hm
          rcases List.mem_append.1 hm with hm | hm
          · exact i3 m hm
          · exact .inl (hin m hm)
      simp only [Option.map_eq_some_iff] at hk
      obtain ⟨k1, hk, rfl⟩ := hk
      split at hk
      · rename_i e; subst e; cases hk
        obtain ⟨a, b, c⟩ := key k0 h1 rfl rfl
        exact ⟨a, b, c⟩
      · obtain ⟨a, b, c⟩ := key k1 hk rfl rfl
        exact ⟨a, b, c⟩
    | routeD s' m k0 rest op h1 h2 h3 =>
      have hin : ∀ m ∈ inbox (dealerOut (Dealer.outcome n.dealer op)) s, isRpc m = true :=
        fun m hm => C67_who_sends_what.2.1 _ _ _ (mem_inbox.1 hm)
      have hno : ∀ m ∈ inbox (dealerOut (Dealer.outcome n.dealer op)) s, isPub m = false :=
        fun m hm => C67_who_sends_what.2.2 m (hin m hm)
      have key : ∀ k1, n.conns s = some k1 → k.calls = k1.calls → k.down = k1.down ++ inbox (dealerOut (Dealer.outcome n.dealer op)) s →
          DownInv ⟨n.broker, n.dealer ++ [op], n.conns⟩ s k := by
        intro k1 g1 g2 g3
        obtain ⟨i1, i2, i3⟩ := ih k1 g1
        refine ⟨?_, ?_, ?_⟩
        · rw [g2, g3, ← List.append_assoc, List.filter_append, i1, filter_no hno, List.append_nil]
        · rw [g2, g3, ← List.append_assoc, List.filter_append, i2, filter_all hin, said_message_dealer s _ _ (dealerCall_op h3).1]
        · rw [g2, g3, ← List.append_assoc]
          intro m hm
          rcases List.mem_append.1 hm with hm | hm
          · exact i3 m hm
          · exact .inr (hin m hm)
      simp only [Option.map_eq_some_iff] at hk
      obtain ⟨k1, hk, rfl⟩ := hk
      split at hk
      · rename_i e; subst e; cases hk
        obtain ⟨a, b, c⟩ := key k0 h1 rfl rfl
        exact ⟨a, b, c⟩
      · obtain ⟨a, b, c⟩ := key k1 hk rfl rfl
        exact ⟨a, b, c⟩

/-- Every message a client has received was accepted by its session. -/
theorem all_accepted (c : Codec W) (sched : List Act) (hl : sched.length ≤ 2 ^ 53) (hf : FreshRequests c pubSub sched)
    (hg : GoodClients c sched) (q : Int) (k : Conn W)
    (hk : (run c sched).conns q = some k) (pre post : List (WAMPSession.Op W)) (m : Message)
    (hc : k.calls = pre ++ .receiveMessage m :: post) :
    WAMPSession.outcome c pre (.receiveMessage m) = .ok (.msg m) := by
  induction sched using snoc_induction generalizing k pre post with
  | nil => cases hk
  | snoc sched a ih =>
    rw [List.length_append] at hl
    have hl' : sched.length + 1 ≤ 2 ^ 53 := hl
    have hf' := (fresh_snoc c hf).1
    have hg' := good_before hg
    have hs := stepCase c (base_run c sched (by omega)) (by omega) a
    rw [run_snoc] at hk
    generalize (run c sched).step c a = n' at hs hk
    have old : ∀ k0, (run c sched).conns q = some k0 → k.calls = k0.calls →
        WAMPSession.outcome c pre (.receiveMessage m) = .ok (.msg m) :=
      fun k0 h1 h2 => ih (by omega) hf' hg' k0 h1 pre post (h2 ▸ hc)
    have push : ∀ {s : Int} {k0 : Conn W} {rest : List Message} {out : List (Int × Message)}, (run c sched).conns s = some k0 →
        ((if q = s then some { k0 with up := rest } else (run c sched).conns q).map
          fun k => (⟨k.calls, k.up, k.down ++ inbox out q⟩ : Conn W)) = some k →
        WAMPSession.outcome c pre (.receiveMessage m) = .ok (.msg m) := by
      intro s k0 rest out h1 h2
      simp only [Option.map_eq_some_iff] at h2
      obtain ⟨k1, h2, rfl⟩ := h2
      split at h2
      · rename_i e; subst e; cases h2; exact old k0 h1 rfl
      · exact old k1 h2 rfl
    cases hs with
    | idle => exact old k hk rfl
    | joinFail => exact old k hk rfl
    | leaveFail => exact old k hk rfl
    | join d =>
      simp only at hk; split at hk
      · cases hk; simp at hc
      · exact old k hk rfl
    | leave s =>
      simp only at hk; split at hk
      · cases hk
      · exact old k hk rfl
    | send s m' k0 h1 =>
      simp only at hk; split at hk
      · rename_i e; subst e; cases hk
        rcases split_last hc with ⟨-, h⟩ | ⟨post', h⟩
        · cases h
        · exact ih (by omega) hf' hg' k0 h1 pre post' h
      · exact old k hk rfl
    | deliver s m' k0 rest h1 h2 =>
      simp only at hk; split at hk
      · rename_i e; subst e; cases hk
        rcases split_last hc with ⟨rfl, h⟩ | ⟨post', h⟩
        · cases h
          rcases (on_its_way c (fun _ _ => True) _ (fun _ _ _ => trivial) q k0 h1).2 m (by rw [h2]; exact List.mem_cons_self) with h | h
          · exact C67_client_never_rejects c sched (by omega) hf' q k0 h1 _ rest h2 h
          · exact C68_client_never_rejects_partial c sched (by omega) hg' q k0 h1 _ rest h2 h
        · exact ih (by omega) hf' hg' k0 h1 pre post' h
      · exact old k hk rfl
    | routeX s m' k0 rest h1 =>
      simp only at hk; split at hk
      · rename_i e; subst e; cases hk; exact old k0 h1 rfl
      · exact old k hk rfl
    | routeB s m' k0 rest op h1 => exact push h1 hk
    | routeD s m' k0 rest op h1 => exact push h1 hk

/-- The message an application sees -/
def seenMessage : Seen → Option Message
  | .got m => some m
  | _ => none

theorem messagesSeen_map (c : Codec W) (calls : List (WAMPSession.Op W)) :
    messagesSeen c calls = ((WAMPSession.trace c calls).map appSees).filterMap seenMessage := by
  rw [messagesSeen, List.filterMap_map]
  congr 1
  funext ⟨op, res⟩
  cases res with
  | error e => rfl
  | ok o => cases o <;> rfl

/-- A session that takes every message it is given hands over those it is given. -/
theorem messagesSeen_given (c : Codec W) (calls : List (WAMPSession.Op W))
    (h1 : ∀ op ∈ calls, (∃ m, op = .sendMessage m) ∨ ∃ m, op = .receiveMessage m)
    (h2 : ∀ pre m post, calls = pre ++ .receiveMessage m :: post → WAMPSession.outcome c pre (.receiveMessage m) = .ok (.msg m)) :
    messagesSeen c calls = given calls := by
  induction calls using snoc_induction with
  | nil => rfl
  | snoc calls op ih =>
    have ih := ih (fun op h => h1 op (List.mem_append_left _ h)) (fun pre e post h => h2 pre e (post ++ [op]) (by rw [h]; simp))
    simp only [messagesSeen, given] at ih ⊢
    rw [WAMPSession.trace_snoc, List.filterMap_append, List.filterMap_append, ih]
    congr 1
    rcases h1 op (by simp) with ⟨m, rfl⟩ | ⟨m, rfl⟩
    · cases ho : WAMPSession.outcome c calls (.sendMessage m) with
      | error e => simp
      | ok o =>
        cases o with
        | data w => simp
        | msg m' =>
          simp only [WAMPSession.outcome, WAMPSession.step] at ho
          cases hx : ((WAMPSession.after c calls).sendMessage c m).2 <;> rw [hx] at ho <;> cases ho
    · rw [h2 calls m [] rfl]; rfl

/-! ## From the member to the router -/

/-- What the receiver makes of a message -/
def through (c : Codec W) (m : Message) : Option Message :=
  match c.serialize m with
  | .ok w => (c.deserialize w).toOption
  | .error _ => none

/-- What a client's session has given data for: first what the router has handled, then what is on its way. -/
def UpInv (cs : Int → Codec W) (b : BNet W) (s : Int) (k : BConn W) : Prop :=
  ∃ done rest, asksTaken (cs s) k.calls = done ++ rest ∧ rest.map (cs s).serialize = k.up.map .ok ∧
    brokerHandled s b.broker = done.filterMap (fun m => (through (cs s) m).bind (brokerCall s)) ∧
    dealerHandled s b.dealer = done.filterMap (fun m => (through (cs s) m).bind (dealerCall s))

theorem asks_send (c : Codec W) (calls : List (WAMPSession.Op W)) (m : Message) :
    asksTaken c (calls ++ [.sendMessage m]) =
      asksTaken c calls ++ match WAMPSession.outcome c calls (.sendMessage m) with
        | .ok (.data _) => [m]
        | _ => [] := by
  simp only [asksTaken]
  rw [WAMPSession.trace_snoc, List.filterMap_append]
  congr 1
  cases ho : WAMPSession.outcome c calls (.sendMessage m) with
  | error e => simp
  | ok o => cases o <;> simp

theorem asks_receive (c : Codec W) (calls : List (WAMPSession.Op W)) (w : W) :
    asksTaken c (calls ++ [.receive w]) = asksTaken c calls := by
  simp only [asksTaken]
  rw [WAMPSession.trace_snoc, List.filterMap_append]
  simp

theorem send_data (c : Codec W) (calls : List (WAMPSession.Op W)) (m : Message) (w : W)
    (h : WAMPSession.outcome c calls (.sendMessage m) = .ok (.data w)) : c.serialize m = .ok w := by
  have := WAMPSession.C76_send c calls m
  by_cases hm : WAMPSession.MaySend c calls m
  · rw [this.1 hm] at h
    cases hs : c.serialize m with
    | error e => rw [hs] at h; cases h
    | ok w' => rw [hs] at h; cases h; rfl
  · obtain ⟨⟨t, ht⟩, -⟩ := this.2 hm
    rw [ht] at h; cases h

theorem handled_broker (s : Int) (ops : List Broker.Op) (s' : Int) (m : Message) (op : Broker.Op) (h : brokerCall s' m = some op) :
    brokerHandled s (ops ++ [op]) = if s' = s then brokerHandled s ops ++ [op] else brokerHandled s ops := by
  rw [brokerHandled, since_snoc]
  cases m <;> simp only [brokerCall, reduceCtorEq, Option.some.injEq] at h <;> subst h <;> by_cases e : s' = s <;> simp [brokerAdds, e]

theorem handled_dealer (s : Int) (ops : List Dealer.Op) (s' : Int) (m : Message) (op : Dealer.Op) (h : dealerCall s' m = some op) :
    dealerHandled s (ops ++ [op]) = if s' = s then dealerHandled s ops ++ [op] else dealerHandled s ops := by
  rw [dealerHandled, since_snoc]
  cases m <;> simp only [dealerCall, reduceCtorEq, Option.some.injEq] at h <;> subst h <;> by_cases e : s' = s <;> simp [dealerAdds, e]

theorem not_both {s : Int} {m : Message} {op : Broker.Op} (h : brokerCall s m = some op) : dealerCall s m = none := by
  cases m <;> first | rfl | cases h

theorem up_run (cs : Int → Codec W) (sched : List Act)
    (hb : ∀ pre a, pre ++ [a] <+: sched → ∀ s k, (brun cs pre).conns s = some k → s ∈ (Pub.view (Broker.trace (brun cs pre).broker)).known)
    (hd : ∀ pre a, pre ++ [a] <+: sched → ∀ s k, (brun cs pre).conns s = some k → s ∈ (Rpc.view (Dealer.trace (brun cs pre).dealer)).known ∧
      (brun cs pre).dealer.length < 2 ^ 53)
    (s : Int) (k : BConn W) (hk : (brun cs sched).conns s = some k) : UpInv cs (brun cs sched) s k := by
  induction sched using snoc_induction generalizing k with
  | nil => cases hk
  | snoc sched a ih =>
    replace ih := ih (fun pre a hp => hb pre a (hp.trans (List.prefix_append _ _))) (fun pre a hp => hd pre a (hp.trans (List.prefix_append _ _)))
    replace hb := hb sched a (List.prefix_refl _)
    replace hd := hd sched a (List.prefix_refl _)
    rw [brun_snoc] at hk ⊢
    generalize brun cs sched = b at ih hb hd hk ⊢
    -- the router's calls on behalf of a session
    have handle : ∀ (b : BNet W) (s' : Int) (m : Message) (k : BConn W), (b.handle cs s' m).conns s = some k →
        ∃ k1, b.conns s = some k1 ∧ k.calls = k1.calls ∧ k.up = k1.up ∧
          brokerHandled s (b.handle cs s' m).broker = brokerHandled s b.broker ++ (if s' = s then (brokerCall s m).toList else []) ∧
          dealerHandled s (b.handle cs s' m).dealer = dealerHandled s b.dealer ++ (if s' = s then (dealerCall s m).toList else []) := by
      intro b s' m k hk
      unfold BNet.handle at hk ⊢
      cases h1 : brokerCall s' m with
      | some op =>
        rw [h1] at hk
        simp only [BNet.push, Option.map_eq_some_iff] at hk ⊢
        obtain ⟨k1, h2, rfl⟩ := hk
        refine ⟨k1, h2, rfl, rfl, ?_, ?_⟩
        · rw [handled_broker s _ s' m op h1]
          split
          · rename_i e; subst e; rw [h1]; rfl
          · simp
        · split
          · rename_i e; subst e; rw [not_both h1]; simp
          · simp
      | none =>
        cases h2 : dealerCall s' m with
        | some op =>
          rw [h1, h2] at hk
          simp only [BNet.push, Option.map_eq_some_iff] at hk ⊢
          obtain ⟨k1, h3, rfl⟩ := hk
          refine ⟨k1, h3, rfl, rfl, ?_, ?_⟩
          · split
            · rename_i e; subst e; rw [h1]; simp
            · simp
          · rw [handled_dealer s _ s' m op h2]
            split
            · rename_i e; subst e; rw [h2]; rfl
            · simp
        | none =>
          rw [h1, h2] at hk
          refine ⟨k, hk, rfl, rfl, ?_, ?_⟩
          · by_cases e : s' = s
            · subst e; simp [h1]
            · simp [e]
          · by_cases e : s' = s
            · subst e; simp [h2]
            · simp [e]
    have same : ∀ (b' : BNet W) k0, b.conns s = some k0 → k = k0 → brokerHandled s b'.broker = brokerHandled s b.broker →
        dealerHandled s b'.dealer = dealerHandled s b.dealer → UpInv cs b' s k := by
      rintro b' k0 h1 rfl h2 h3
      obtain ⟨done, rest, i1, i2, i3, i4⟩ := ih k h1
      exact ⟨done, rest, i1, i2, by rw [h2]; exact i3, by rw [h3]; exact i4⟩
    cases a with
    | join d =>
      simp only [BNet.step] at hk ⊢
      by_cases hs : d.sessionId.val = s
      · subst hs
        cases ho : b.conns d.sessionId.val with
        | some k0 =>
          obtain ⟨e1, h1⟩ := (badd_outcome b.broker d).2 (hb _ _ ho)
          obtain ⟨e2, h2⟩ := (dadd_outcome b.dealer (hd _ _ ho).2 d).2 (hd _ _ ho).1
          simp only [h1, h2, returned, Bool.false_eq_true, false_and, if_false] at hk ⊢
          refine same _ k hk rfl ?_ ?_
          · rw [brokerHandled, since_snoc]; simp [brokerAdds, h1, returned]
          · rw [dealerHandled, since_snoc]; simp [dealerAdds, h2, returned]
        | none =>
          split at hk
          · rename_i hret
            rw [if_pos hret]
            simp only [BNet.setConn, if_true, Option.some.injEq] at hk ⊢
            subst hk
            refine ⟨[], [], rfl, rfl, ?_, ?_⟩
            · rw [brokerHandled, since_snoc]; simp [brokerAdds, hret.1]
            · rw [dealerHandled, since_snoc]; simp [dealerAdds, hret.2]
          · rw [ho] at hk; cases hk
      · have h1 : brokerHandled s (b.broker ++ [.addSession d]) = brokerHandled s b.broker := by
          rw [brokerHandled, since_snoc]; simp [brokerAdds, hs]
        have h2 : dealerHandled s (b.dealer ++ [.addSession d]) = dealerHandled s b.dealer := by
          rw [dealerHandled, since_snoc]; simp [dealerAdds, hs]
        have hs' : ¬ s = d.sessionId.val := fun h => hs h.symm
        split at hk
        · rename_i hret
          rw [if_pos hret]
          simp only [BNet.setConn, if_neg hs'] at hk ⊢
          exact same _ k hk rfl h1 h2
        · rename_i hret
          rw [if_neg hret]
          exact same _ k hk rfl h1 h2
    | leave s' =>
      simp only [BNet.step, BNet.setConn] at hk ⊢
      split at hk
      · cases hk
      · refine same _ k hk rfl ?_ ?_
        · rw [brokerHandled, since_snoc]; simp [brokerAdds]
        · rw [dealerHandled, since_snoc]; simp [dealerAdds]
    | send s' m =>
      simp only [BNet.step] at hk ⊢
      cases ho : b.conns s' with
      | none => simp only [ho] at hk ⊢; exact same _ k hk rfl rfl rfl
      | some k0 =>
        simp only [ho, BNet.setConn] at hk ⊢
        split at hk
        · rename_i e; subst e; cases hk
          obtain ⟨done, rest, i1, i2, i3, i4⟩ := ih k0 ho
          cases hx : WAMPSession.outcome (cs s) k0.calls (.sendMessage m) with
          | error e =>
            refine ⟨done, rest, ?_, ?_, i3, i4⟩
            · rw [asks_send, hx, i1]; simp
            · exact i2
          | ok o =>
            cases o with
            | msg m' =>
              refine ⟨done, rest, ?_, ?_, i3, i4⟩
              · rw [asks_send, hx, i1]; simp
              · exact i2
            | data w =>
              refine ⟨done, rest ++ [m], ?_, ?_, i3, i4⟩
              · rw [asks_send, hx, i1]; simp
              · simp only [List.map_append, List.map_cons, List.map_nil, i2, send_data _ _ _ _ hx]
        · exact same _ k hk rfl rfl rfl
    | deliver s' =>
      simp only [BNet.step] at hk ⊢
      cases ho : b.conns s' with
      | none => simp only [ho] at hk ⊢; exact same _ k hk rfl rfl rfl
      | some k0 =>
        simp only [ho] at hk ⊢
        cases hw : k0.down with
        | nil => simp only [hw] at hk ⊢; exact same _ k hk rfl rfl rfl
        | cons w ws =>
          simp only [hw, BNet.setConn] at hk ⊢
          split at hk
          · rename_i e; subst e; cases hk
            obtain ⟨done, rest, i1, i2, i3, i4⟩ := ih k0 ho
            exact ⟨done, rest, by rw [asks_receive]; exact i1, i2, i3, i4⟩
          · exact same _ k hk rfl rfl rfl
    | route s' =>
      simp only [BNet.step] at hk ⊢
      cases ho : b.conns s' with
      | none => simp only [ho] at hk ⊢; exact same _ k hk rfl rfl rfl
      | some k0 =>
        simp only [ho] at hk ⊢
        cases hw : k0.up with
        | nil => simp only [hw] at hk ⊢; exact same _ k hk rfl rfl rfl
        | cons w ws =>
          simp only [hw] at hk ⊢
          -- the message that is taken
          have took : s' = s → ∃ done m rest, asksTaken (cs s) k0.calls = (done ++ [m]) ++ rest ∧ (cs s).serialize m = .ok w ∧
              rest.map (cs s).serialize = ws.map .ok ∧
              brokerHandled s b.broker = done.filterMap (fun m => (through (cs s) m).bind (brokerCall s)) ∧
              dealerHandled s b.dealer = done.filterMap (fun m => (through (cs s) m).bind (dealerCall s)) := by
            rintro rfl
            obtain ⟨done, rest, i1, i2, i3, i4⟩ := ih k0 ho
            rw [hw] at i2
            cases rest with
            | nil => cases i2
            | cons m rest =>
              simp only [List.map_cons, List.cons.injEq] at i2
              exact ⟨done, m, rest, by rw [i1]; simp, i2.1, i2.2, i3, i4⟩
          cases hm : (cs s').deserialize w with
          | error e =>
            simp only [hm, BNet.setConn] at hk ⊢
            split at hk
            · rename_i e; subst e; cases hk
              obtain ⟨done, m, rest, i1, i2, i3, i4, i5⟩ := took rfl
              have ht : through (cs s) m = none := by simp only [through, i2, hm]; rfl
              refine ⟨done ++ [m], rest, i1, i3, ?_, ?_⟩
              · rw [List.filterMap_append, ← i4]; simp [ht]
              · rw [List.filterMap_append, ← i5]; simp [ht]
            · exact same _ k hk rfl rfl rfl
          | ok m' =>
            simp only [hm] at hk ⊢
            obtain ⟨k1, g1, g2, g3, g4, g5⟩ := handle _ s' m' k hk
            simp only [BNet.setConn] at g1
            rw [UpInv, g4, g5, g2, g3]
            split at g1
            · rename_i e; subst e; cases g1
              obtain ⟨done, m, rest, i1, i2, i3, i4, i5⟩ := took rfl
              have ht : through (cs s) m = some m' := by simp only [through, i2, hm]; rfl
              refine ⟨done ++ [m], rest, i1, i3, ?_, ?_⟩
              · rw [List.filterMap_append, ← i4, if_pos rfl]
                congr 1
                cases hc : brokerCall s m' <;> simp [ht, hc]
              · rw [List.filterMap_append, ← i5, if_pos rfl]
                congr 1
                cases hc : dealerCall s m' <;> simp [ht, hc]
            · rename_i e
              have e' : ¬ s' = s := fun h => e h.symm
              rw [if_neg e', if_neg e', List.append_nil, List.append_nil]
              exact ih k1 g1

/-- What sessions gave data for, applications asked to send. -/
theorem asks_from (cs : Int → Codec W) (sched : List Act) (s : Int) (k : BConn W) (hk : (brun cs sched).conns s = some k) :
    ∀ m ∈ asksTaken (cs s) k.calls, .send s m ∈ sched := by
  induction sched using snoc_induction generalizing k with
  | nil => cases hk
  | snoc sched a ih =>
    rw [brun_snoc] at hk
    generalize brun cs sched = b at ih hk
    have old : ∀ k0, b.conns s = some k0 → k.calls = k0.calls → ∀ m ∈ asksTaken (cs s) k.calls, .send s m ∈ sched ++ [a] := by
      intro k0 h1 h2 m hm
      rw [h2] at hm
      exact List.mem_append_left _ (ih k0 h1 m hm)
    have push : ∀ (b : BNet W) out, (b.push cs out).conns s = some k → ∃ k1, b.conns s = some k1 ∧ k.calls = k1.calls := by
      intro b out h
      simp only [BNet.push, Option.map_eq_some_iff] at h
      obtain ⟨k1, h1, rfl⟩ := h
      exact ⟨k1, h1, rfl⟩
    cases a with
    | join d =>
      simp only [BNet.step] at hk
      split at hk
      · simp only [BNet.setConn] at hk
        split at hk
        · cases hk; intro m hm; cases hm
        · exact old k hk rfl
      · exact old k hk rfl
    | leave s' =>
      simp only [BNet.step, BNet.setConn] at hk
      split at hk
      · cases hk
      · exact old k hk rfl
    | send s' m' =>
      simp only [BNet.step] at hk
      cases ho : b.conns s' with
      | none => simp only [ho] at hk; exact old k hk rfl
      | some k0 =>
        simp only [ho, BNet.setConn] at hk
        split at hk
        · rename_i e; subst e; cases hk
          intro m hm
          rw [asks_send] at hm
          rcases List.mem_append.1 hm with hm | hm
          · exact List.mem_append_left _ (ih k0 ho m hm)
          · split at hm
            · rw [List.mem_singleton.1 hm]; exact List.mem_append_right _ List.mem_cons_self
            · cases hm
        · exact old k hk rfl
    | deliver s' =>
      simp only [BNet.step] at hk
      cases ho : b.conns s' with
      | none => simp only [ho] at hk; exact old k hk rfl
      | some k0 =>
        simp only [ho] at hk
        cases hw : k0.down with
        | nil => simp only [hw] at hk; exact old k hk rfl
        | cons w ws =>
          simp only [hw, BNet.setConn] at hk
          split at hk
          · rename_i e; subst e; cases hk
            intro m hm
            rw [asks_receive] at hm
            exact List.mem_append_left _ (ih k0 ho m hm)
          · exact old k hk rfl
    | route s' =>
      simp only [BNet.step] at hk
      cases ho : b.conns s' with
      | none => simp only [ho] at hk; exact old k hk rfl
      | some k0 =>
        simp only [ho] at hk
        cases hw : k0.up with
        | nil => simp only [hw] at hk; exact old k hk rfl
        | cons w ws =>
          have set : ∀ k1, (b.setConn s' (some { k0 with up := ws })).conns s = some k1 → k.calls = k1.calls →
              ∀ m ∈ asksTaken (cs s) k.calls, .send s m ∈ sched ++ [.route s'] := by
            intro k1 h1 h2
            simp only [BNet.setConn] at h1
            split at h1
            · rename_i e; subst e; cases h1; exact old k0 ho h2
            · exact old k1 h1 h2
          simp only [hw] at hk
          split at hk
          · exact set k hk rfl
          · unfold BNet.handle at hk
            split at hk
            · obtain ⟨k1, h1, h2⟩ := push _ _ hk; exact set k1 h1 h2
            · obtain ⟨k1, h1, h2⟩ := push _ _ hk; exact set k1 h1 h2
            · exact set k hk rfl

end Wamp.Spec.Net

namespace Wamp.Spec.Stack
open RawSocket Net Hs

variable {q : Nat → Bool} {r : Setup}

/-- A member of the stack and its partners in the networks of sessions, on bytes and on messages -/
theorem member_triple {fmt : Int → Format} (hr : r.hasAuthenticator = true) {sched : List GAct} (hs : Strangers r q sched)
    (ht : Tame fmt r (members q sched)) (hl : sched.length ≤ 2 ^ 53) {c : Nat} {l : Link} {calls : List (WAMPSession.Op Bytes)}
    (hqc : q c = false) (hlink : (grun r sched).links c = some l) (hcl : l.client = .session calls) :
    ∃ s kb k, l.router = .attached l.config.format s ∧ l.config.format.wire = codecs fmt s ∧ kb.calls = calls ∧
      (brun (codecs fmt) (sessions r (members q sched))).conns s = some kb ∧
      (run objects ((sessions r (members q sched)).map arriving)).conns s = some k ∧ Corresponds (codecs fmt s) kb k ∧
      l.upHas ++ l.up = stream kb.up ∧ l.downHas ++ l.down = stream kb.down ∧ Short kb.up ∧ Short kb.down ∧
      (grun r sched).broker = (brun (codecs fmt) (sessions r (members q sched))).broker ∧
      (grun r sched).dealer = (brun (codecs fmt) (sessions r (members q sched))).dealer ∧
      (sessions r (members q sched)).length ≤ 2 ^ 53 := by
  have hlink' : (srun r (members q sched)).links c = some l := by
    rw [← only_members hr hs]
    simp only [Stack.only, hqc, Bool.false_eq_true, if_false]
    exact hlink
  have hlen := Nat.le_trans (sessions_length r (members q sched)) (Nat.le_trans (members_length sched) hl)
  obtain ⟨s, kb, k, h1, h2, h3, h4, h5, h6, h7, h8, h9, -⟩ := triple ht hlen hlink' hcl
  have hwire : ∀ s, Net.Restores (codecs fmt s) (Fits commonLimits) := fun s => wire_common (fmt s)
  have href := C81_bytes_refine_messages common_dataSet hwire _ (sends_data (r := r) ht.sends) hlen
  have hstack := C120_stack fmt r _ ht.formats ht.short
  refine ⟨s, kb, k, h1, h2, h4, h3, h9, href.conn s kb k h3 h9, h5, h6, h7, h8, ?_, ?_, hlen⟩
  · rw [← hstack.broker, ← only_members hr hs]; rfl
  · rw [← hstack.dealer, ← only_members hr hs]; rfl

/-- What a member's application asked to send and its session took: first what the router has handled, call for call and in order, as
receivers see it; then what is on its way, as bytes.  Once nothing is on its way, the router has handled all of it. -/
theorem C129_up (fmt : Int → Format) (r : Setup) (hr : r.hasAuthenticator = true) (q : Nat → Bool) (sched : List GAct)
    (hs : Strangers r q sched) (ht : Tame fmt r (members q sched)) (hl : sched.length ≤ 2 ^ 53) (c : Nat) (l : Link)
    (calls : List (WAMPSession.Op Bytes)) (hqc : q c = false) (hlink : (grun r sched).links c = some l) (hcl : l.client = .session calls) :
    ∃ s done rest ws, l.router = .attached l.config.format s ∧ asksTaken l.config.format.wire calls = done ++ rest ∧
      brokerHandled s (grun r sched).broker = done.filterMap (fun m => brokerCall s (received m)) ∧
      dealerHandled s (grun r sched).dealer = done.filterMap (fun m => dealerCall s (received m)) ∧
      l.upHas ++ l.up = stream ws ∧ rest.map l.config.format.wire.serialize = ws.map .ok ∧
      (l.upHas = [] → l.up = [] → rest = []) := by
  obtain ⟨s, kb, k, h1, h2, rfl, h3, h4, hcor, h5, h6, h7, h8, h9, h10, hlen⟩ := member_triple hr hs ht hl hqc hlink hcl
  have hwire : ∀ s, Net.Restores (codecs fmt s) (Fits commonLimits) := fun s => wire_common (fmt s)
  have hsd := sends_data (r := r) ht.sends
  have known : ∀ pre, pre <+: sessions r (members q sched) → ∀ s k, (brun (codecs fmt) pre).conns s = some k →
      s ∈ (Pub.view (Broker.trace (brun (codecs fmt) pre).broker)).known ∧
      s ∈ (Rpc.view (Dealer.trace (brun (codecs fmt) pre).dealer)).known ∧ (brun (codecs fmt) pre).dealer.length ≤ pre.length := by
    intro pre hp s k hk
    have hpl : pre.length ≤ 2 ^ 53 := Nat.le_trans hp.length_le hlen
    have href := C81_bytes_refine_messages common_dataSet hwire pre (fun s m h => hsd s m (hp.subset h)) hpl
    have hb := base_run objects (pre.map arriving) (by rw [List.length_map]; exact hpl)
    have hsome : ((run objects (pre.map arriving)).conns s).isSome := by
      cases hx : (run objects (pre.map arriving)).conns s with
      | none => rw [(href.gone s).2 hx] at hk; cases hk
      | some _ => rfl
    rw [href.broker, href.dealer]
    refine ⟨(hb.bk s).2 hsome, (hb.dk s).2 hsome, ?_⟩
    simpa using hb.dl
  obtain ⟨done, rest, i1, i2, i3, i4⟩ := up_run (codecs fmt) _ (fun pre a hp s k hk => (known pre ((List.prefix_append _ _).trans hp) s k hk).1)
    (fun pre a hp s k hk => ⟨(known pre ((List.prefix_append _ _).trans hp) s k hk).2.1, by
      have g1 := (known pre ((List.prefix_append _ _).trans hp) s k hk).2.2
      have g2 := hp.length_le
      rw [List.length_append, List.length_singleton] at g2
      omega⟩) s kb h3
  have hthr : ∀ m ∈ done, through (codecs fmt s) m = some (received m) := by
    intro m hm
    have hsent := asks_from (codecs fmt) _ s kb h3 m (by rw [i1]; exact List.mem_append_left _ hm)
    obtain ⟨w, g1, g2⟩ := sent_carried (hwire s) (hsd s m hsent)
    simp only [through, g1, g2]
    rfl
  have hfm : ∀ {α : Type} (f : Message → Option α), done.filterMap (fun m => (through (codecs fmt s) m).bind f) = done.filterMap (fun m => f (received m)) := by
    intro α f
    refine List.filterMap_congr fun m hm => ?_
    rw [hthr m hm]; rfl
  refine ⟨s, done, rest, kb.up, h1, by rw [h2]; exact i1, by rw [h9, i3, hfm], by rw [h10, i4, hfm], h5, by rw [h2]; exact i2, ?_⟩
  intro e1 e2
  have : kb.up = [] := stream_nil h7 (by rw [← h5, e1, e2]; rfl)
  rw [this] at i2
  exact List.map_eq_nil_iff.1 i2

/-- What broker and dealer have returned for a member since it came in: first what its session has handed to the application, message for
message and in order; then what is on its way, as bytes.  Nothing else is handed over.  Once nothing is on its way, the application has
seen all of it. -/
theorem C129_down (fmt : Int → Format) (r : Setup) (hr : r.hasAuthenticator = true) (q : Nat → Bool) (sched : List GAct)
    (hs : Strangers r q sched) (ht : Tame fmt r (members q sched)) (hl : sched.length ≤ 2 ^ 53)
    (hf : FreshRequestsB (codecs fmt) pubSub (sessions r (members q sched))) (hg : GoodClientsB (codecs fmt) (sessions r (members q sched)))
    (c : Nat) (l : Link) (calls : List (WAMPSession.Op Bytes)) (hqc : q c = false) (hlink : (grun r sched).links c = some l)
    (hcl : l.client = .session calls) :
    ∃ s rest ws, l.router = .attached l.config.format s ∧
      (messagesSeen l.config.format.wire calls ++ rest).filter isPub = brokerSaid s (grun r sched).broker ∧
      (messagesSeen l.config.format.wire calls ++ rest).filter isRpc = dealerSaid s (grun r sched).dealer ∧
      (∀ m ∈ messagesSeen l.config.format.wire calls ++ rest, isPub m = true ∨ isRpc m = true) ∧
      l.downHas ++ l.down = stream ws ∧ ws.map l.config.format.wire.deserialize = rest.map .ok ∧
      (l.downHas = [] → l.down = [] → rest = []) := by
  obtain ⟨s, kb, k, h1, h2, rfl, h3, h4, hcor, h5, h6, h7, h8, h9, h10, hlen⟩ := member_triple hr hs ht hl hqc hlink hcl
  have hwire : ∀ s, Net.Restores (codecs fmt s) (Fits commonLimits) := fun s => wire_common (fmt s)
  have hsd := sends_data (r := r) ht.sends
  have href := C81_bytes_refine_messages common_dataSet hwire _ hsd hlen
  have hlen' : ((sessions r (members q sched)).map arriving).length ≤ 2 ^ 53 := by rw [List.length_map]; exact hlen
  have hseen : messagesSeen l.config.format.wire kb.calls = given k.calls := by
    rw [h2, messagesSeen_map, hcor.seen, ← messagesSeen_map]
    refine messagesSeen_given objects k.calls ?_ ?_
    · intro op hop
      rcases calls_from objects _ s k h4 op hop with h | ⟨m, h, -⟩
      · exact .inl h
      · exact .inr ⟨m, h⟩
    · intro pre m post he
      exact all_accepted objects _ hlen' (fresh_of_bytes common_dataSet hwire _ hsd hlen _ hf)
        (good_of_bytes common_dataSet hwire _ hsd hlen hg) s k h4 pre post m he
  obtain ⟨d1, d2, d3⟩ := down_run objects _ hlen' s k h4
  refine ⟨s, k.down, kb.down, h1, by rw [hseen, h9, href.broker]; exact d1, by rw [hseen, h10, href.dealer]; exact d2,
    by rw [hseen]; exact d3, h6, by rw [h2]; exact hcor.down, ?_⟩
  intro e1 e2
  have hnil : kb.down = [] := stream_nil h8 (by rw [← h6, e1, e2]; rfl)
  have := hcor.down
  rw [hnil] at this
  exact List.map_eq_nil_iff.1 this.symm

/-- At rest, member and router have told each other everything: the router has handled exactly what the member's session took, and the
application has seen exactly what broker and dealer returned for it. -/
theorem C129_at_rest (fmt : Int → Format) (r : Setup) (hr : r.hasAuthenticator = true) (q : Nat → Bool) (sched : List GAct)
    (hs : Strangers r q sched) (ht : Tame fmt r (members q sched)) (hl : sched.length ≤ 2 ^ 53)
    (hf : FreshRequestsB (codecs fmt) pubSub (sessions r (members q sched))) (hg : GoodClientsB (codecs fmt) (sessions r (members q sched)))
    (hrest : ((grun r sched).only q).AtRest) (c : Nat) (l : Link) (calls : List (WAMPSession.Op Bytes)) (hqc : q c = false)
    (hlink : (grun r sched).links c = some l) (hcl : l.client = .session calls) :
    ∃ s, l.router = .attached l.config.format s ∧
      brokerHandled s (grun r sched).broker = (asksTaken l.config.format.wire calls).filterMap (fun m => brokerCall s (received m)) ∧
      dealerHandled s (grun r sched).dealer = (asksTaken l.config.format.wire calls).filterMap (fun m => dealerCall s (received m)) ∧
      (messagesSeen l.config.format.wire calls).filter isPub = brokerSaid s (grun r sched).broker ∧
      (messagesSeen l.config.format.wire calls).filter isRpc = dealerSaid s (grun r sched).dealer := by
  obtain ⟨s, done, rest, ws, h1, h2, h3, h4, -, -, h5⟩ := C129_up fmt r hr q sched hs ht hl c l calls hqc hlink hcl
  obtain ⟨s', rest', ws', g1, g2, g3, -, -, -, g4⟩ := C129_down fmt r hr q sched hs ht hl hf hg c l calls hqc hlink hcl
  rw [h1] at g1
  cases g1
  obtain ⟨r1, r2, r3, r4, -⟩ := hrest c l (by simp only [Stack.only, hqc, Bool.false_eq_true, if_false]; exact hlink)
  cases h5 r2 r1
  cases g4 r4 r3
  rw [List.append_nil] at h2 g2 g3
  exact ⟨s, h1, by rw [h2]; exact h3, by rw [h2]; exact h4, g2, g3⟩

/-! ## The hypotheses can be met -/

theorem infested_rest : ((grun demoSetup infested).only (· == 2)).AtRest := by
  rw [only_members rfl infested_strangers, infested_members, ← asked_dealt]
  exact busy_rest

/-- The two members with a stranger about, at rest: the second has published and called twice, the first was told of all but the call
of a procedure that is not there. -/
example : ∀ c ∈ [0, 1], ∃ l calls s, (grun demoSetup infested).links c = some l ∧ l.client = .session calls ∧
    brokerHandled s (grun demoSetup infested).broker = (asksTaken l.config.format.wire calls).filterMap (fun m => brokerCall s (received m)) ∧
    (messagesSeen l.config.format.wire calls).filter isRpc = dealerSaid s (grun demoSetup infested).dealer := by
  intro c hc
  have hne : (handedTo (grun demoSetup infested) c).map code ≠ [] := by
    simp only [List.mem_cons, List.not_mem_nil, or_false] at hc
    rcases hc with rfl | rfl
    · rw [infested_handed.1]; decide
    · rw [infested_handed.2]; decide
  obtain ⟨i, hi⟩ := List.exists_mem_of_ne_nil _ hne
  obtain ⟨l, calls, m, h1, h2, -, -⟩ := infested_sees c i hi
  have hq : (c == 2) = false := by
    simp only [List.mem_cons, List.not_mem_nil, or_false] at hc
    rcases hc with rfl | rfl <;> rfl
  obtain ⟨s, -, h3, -, -, h4⟩ := C129_at_rest demoFmt demoSetup rfl (· == 2) infested infested_strangers
    (by rw [infested_members, ← asked_dealt]; exact busy_tame) (by decide) busy_good.1 busy_good.2 infested_rest c l calls hq h1 h2
  exact ⟨l, calls, s, h1, h2, h3, h4⟩

example : (brokerHandled 12 (grun demoSetup infested).broker).length = 1 ∧ (dealerHandled 12 (grun demoSetup infested).dealer).length = 2 ∧
    (dealerSaid 12 (grun demoSetup infested).dealer).map code = [8, 50] ∧ (brokerSaid 11 (grun demoSetup infested).broker).map code = [33, 36] ∧
    (dealerSaid 11 (grun demoSetup infested).dealer).map code = [65, 68] := by
  decide +kernel

end Wamp.Spec.Stack
