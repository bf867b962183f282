import Verif.Spec.StackLost
import Verif.Props.Channels
import Verif.Props.NetworkUnanswered

/-!
# C130: who still waits when everything has come to rest
-/

namespace Wamp.Spec.Net
open Wamp.Spec.Ses Stack

variable {W : Type}

theorem handle_grows (n : Net W) (s : Int) (m : Message) :
    (∃ z, (n.handle s m).broker = n.broker ++ z) ∧ ∃ z, (n.handle s m).dealer = n.dealer ++ z := by
  unfold Net.handle
  split
  · exact ⟨⟨_, rfl⟩, [], by simp [Net.push]⟩
  · exact ⟨⟨[], by simp [Net.push]⟩, _, rfl⟩
  · exact ⟨⟨[], by simp⟩, [], by simp⟩

theorem step_grows (c : Codec W) (n : Net W) (a : Act) :
    (∃ z, (n.step c a).broker = n.broker ++ z) ∧ ∃ z, (n.step c a).dealer = n.dealer ++ z := by
  have same : (∃ z, n.broker = n.broker ++ z) ∧ ∃ z, n.dealer = n.dealer ++ z := ⟨⟨[], by simp⟩, [], by simp⟩
  cases a with
  | join d => simp only [Net.step]; split <;> exact ⟨⟨_, rfl⟩, _, rfl⟩
  | leave s => exact ⟨⟨_, rfl⟩, _, rfl⟩
  | send s m => simp only [Net.step]; split <;> exact same
  | deliver s =>
    simp only [Net.step]; split
    · exact same
    · split <;> exact same
  | route s =>
    simp only [Net.step]; split
    · exact same
    · split
      · exact same
      · exact handle_grows (n.setConn s _) s _

theorem run_grows (c : Codec W) (x y : List Act) :
    (∃ z, (run c (x ++ y)).broker = (run c x).broker ++ z) ∧ ∃ z, (run c (x ++ y)).dealer = (run c x).dealer ++ z := by
  induction y using snoc_induction with
  | nil => exact ⟨⟨[], by simp⟩, [], by simp⟩
  | snoc y a ih =>
    obtain ⟨⟨z1, h1⟩, z2, h2⟩ := ih
    obtain ⟨⟨z3, h3⟩, z4, h4⟩ := step_grows c (run c (x ++ y)) a
    rw [← List.append_assoc, run_snoc]
    exact ⟨⟨z1 ++ z3, by rw [h3, h1, List.append_assoc]⟩, z2 ++ z4, by rw [h4, h2, List.append_assoc]⟩

/-- A call passed on to a client that left, read off the dealer's calls -/
theorem passed_of_story (c : Codec W) (sched : List Act) (hl : sched.length ≤ 2 ^ 53) (s t : Int) (m : Call)
    (h : Story sched s m [Leaves t, RoutesTo c s m t]) : PassedToLeaver s m.requestId.val (run c sched).dealer ∧ .leave t ∈ sched := by
  obtain ⟨pre, post, rfl, -, q0, a0, r0, rfl, h1, q2, a2, r2, rfl, ⟨⟨h2, k, rest, hk, hu⟩, i, hi⟩, -⟩ := h
  cases h1
  subst h2
  refine ⟨?_, by simp⟩
  -- the schedule up to the routing
  have e1 : pre ++ .send s (.call m) :: (q2 ++ .route s :: r2 ++ .leave t :: r0) =
      (((pre ++ [.send s (.call m)] ++ q2) ++ [.route s] ++ r2) ++ [.leave t]) ++ r0 := by simp
  rw [e1] at hl ⊢
  have hlen : (pre ++ [Act.send s (.call m)] ++ q2).length < 2 ^ 53 := by simp at hl ⊢; omega
  generalize pre ++ [Act.send s (.call m)] ++ q2 = p at hl hk hi hlen ⊢
  have hb := base_run c p (by omega)
  have d1 : (run c (p ++ [.route s])).dealer = (run c p).dealer ++ [.receiveMessage s (.call m)] := by
    rw [run_snoc, step_route c hk hu]; rfl
  obtain ⟨z1, d2⟩ := (run_grows c (p ++ [.route s]) r2).2
  have d3 : (run c (p ++ [.route s] ++ r2 ++ [.leave t])).dealer = (run c (p ++ [.route s] ++ r2)).dealer ++ [.removeSession t] := by
    rw [run_snoc]; rfl
  obtain ⟨z2, d4⟩ := (run_grows c (p ++ [.route s] ++ r2 ++ [.leave t]) r0).2
  obtain ⟨⟨inv, ho, -⟩, -⟩ := Dealer.C31_call_routed (run c p).dealer
    (Dealer.C30_ids_not_exhausted _ (Nat.lt_of_le_of_lt hb.dl hlen)) s m ⟨t, m.procedure, i⟩ hi rfl
  exact ⟨(run c p).dealer, m, inv, t, z1, z2, by rw [d4, d3, d2, d1]; simp, rfl, ho⟩

end Wamp.Spec.Net

namespace Wamp.Spec.Stack
open RawSocket Net Hs Ses

variable {q : Nat → Bool} {r : Setup}

theorem acts_leave {n : Stack} {a : SAct} {s : Int} (h : .leave s ∈ acts r n a) :
    ∃ c l f, a = .drop c ∧ n.links c = some l ∧ l.router = .attached f s := by
  unfold acts at h
  repeat' split at h
  all_goals simp only [List.mem_singleton, List.not_mem_nil, reduceCtorEq] at h
  cases h
  exact ⟨_, _, _, rfl, by assumption, by assumption⟩

theorem acts_send_link {n : Stack} {a : SAct} {s : Int} {m : Message} (h : .send s m ∈ acts r n a) :
    ∃ c l f, a = .send c m ∧ n.links c = some l ∧ l.router = .attached f s := by
  unfold acts at h
  repeat' split at h
  all_goals simp only [List.mem_singleton, List.not_mem_nil, reduceCtorEq] at h
  cases h
  exact ⟨_, _, _, rfl, by assumption, by assumption⟩

/-- What the network of sessions sees of more actions -/
theorem sessions_more (sched more : List SAct) :
    ∃ x, sessions r (sched ++ more) = sessions r sched ++ x ∧
      ∀ b ∈ x, ∃ pre a post, more = pre ++ a :: post ∧ b ∈ acts r (srun r (sched ++ pre)) a := by
  induction more using snoc_induction with
  | nil => exact ⟨[], by simp, by simp⟩
  | snoc more a ih =>
    obtain ⟨x, h1, h2⟩ := ih
    refine ⟨x ++ acts r (srun r (sched ++ more)) a, by rw [← List.append_assoc, sessions_snoc, h1, List.append_assoc], ?_⟩
    intro b hb
    rcases List.mem_append.1 hb with hb | hb
    · obtain ⟨pre, a', post, rfl, h3⟩ := h2 b hb
      exact ⟨pre, a', post ++ [a], by simp, h3⟩
    · exact ⟨more, a, [], rfl, hb⟩

/-- A client that is in stays in until its connection ends. -/
theorem stays_step {n : Stack} {c : Nat} {l : Link} {f : Format} {s : Int} (hl : n.links c = some l) (hcl : ∃ calls, l.client = .session calls)
    (hr : l.router = .attached f s) {a : SAct} (ha : a ≠ .drop c) :
    ∃ l', (n.step r a).links c = some l' ∧ (∃ calls, l'.client = .session calls) ∧ l'.router = .attached f s := by
  have other : ∀ c' x, c ≠ c' → ∃ l', (n.set c' x).links c = some l' ∧ (∃ calls, l'.client = .session calls) ∧ l'.router = .attached f s :=
    fun c' x h => ⟨l, by rw [set_links, if_neg h]; exact hl, hcl, hr⟩
  have mine : ∀ l', (∃ calls, l'.client = .session calls) → l'.router = .attached f s →
      ∃ l'', (n.set c (some l')).links c = some l'' ∧ (∃ calls, l''.client = .session calls) ∧ l''.router = .attached f s :=
    fun l' h1 h2 => ⟨l', by rw [set_links, if_pos rfl], h1, h2⟩
  have push : ∀ (n : Stack) out, (∃ l', n.links c = some l' ∧ (∃ calls, l'.client = .session calls) ∧ l'.router = .attached f s) →
      ∃ l', (n.push out).links c = some l' ∧ (∃ calls, l'.client = .session calls) ∧ l'.router = .attached f s := by
    rintro n out ⟨l', h1, h2, h3⟩
    exact ⟨l'.push out, by rw [push_links, h1]; rfl, by rw [push_client]; exact h2, by rw [push_router]; exact h3⟩
  obtain ⟨calls, hc⟩ := hcl
  have here : ∃ l', n.links c = some l' ∧ (∃ calls, l'.client = .session calls) ∧ l'.router = .attached f s := ⟨l, hl, ⟨calls, hc⟩, hr⟩
  cases a with
  | connect c' cfg sid =>
    simp only [Stack.step]
    split
    · rename_i h1 _
      refine other c' _ ?_
      rintro rfl
      rw [hl] at h1; cases h1
    · exact here
  | carryUp c' k =>
    simp only [Stack.step]
    split
    · exact here
    · rename_i l' h1
      by_cases e : c = c'
      · subst e; rw [hl] at h1; cases h1; exact mine _ ⟨calls, hc⟩ hr
      · exact other c' _ e
  | carryDown c' k =>
    simp only [Stack.step]
    split
    · exact here
    · rename_i l' h1
      by_cases e : c = c'
      · subst e; rw [hl] at h1; cases h1; exact mine _ ⟨calls, hc⟩ hr
      · exact other c' _ e
  | hear c' =>
    simp only [Stack.step]
    split
    · exact here
    · rename_i l' h1
      by_cases e : c = c'
      · subst e; rw [hl] at h1; cases h1
        refine mine _ ?_ ?_
        · simp only [Link.hear, hc]
          split
          · exact ⟨_, hc⟩
          · exact ⟨_, rfl⟩
        · simp only [Link.hear, hc]
          split <;> exact hr
      · exact other c' _ e
  | send c' m =>
    simp only [Stack.step]
    split
    · exact here
    · rename_i l' h1
      by_cases e : c = c'
      · subst e; rw [hl] at h1; cases h1
        exact mine _ (by simp only [Link.send, hc]; exact ⟨_, rfl⟩) (by simp only [Link.send, hc]; exact hr)
      · exact other c' _ e
  | drop c' =>
    have e : c ≠ c' := by rintro rfl; exact ha rfl
    simp only [Stack.step]
    split
    · exact here
    · split
      · exact ⟨l, by rw [set_links, if_neg e]; exact hl, ⟨calls, hc⟩, hr⟩
      · exact other c' _ e
  | serve c' env =>
    simp only [Stack.step]
    split
    · exact here
    · rename_i l' h1
      by_cases e : c = c'
      · subst e; rw [hl] at h1; cases h1
        simp only [Stack.serve, hr]
        split
        · exact here
        · rename_i x rest _
          have m1 := mine { l with router := .attached f s, upHas := rest } ⟨calls, hc⟩ rfl
          split
          · exact m1
          · unfold Stack.handle
            split
            · exact push _ _ m1
            · exact push _ _ m1
            · exact m1
      · unfold Stack.serve
        split
        · exact other c' _ e
        · split
          · exact here
          · split
            · exact other c' _ e
            · exact other c' _ e
            · split <;> exact ⟨l, by rw [set_links, if_neg e]; exact hl, ⟨calls, hc⟩, hr⟩
        · split
          · exact here
          · rename_i x rest _
            have m1 := fun l' => other c' l' e
            split
            · exact m1 _
            · unfold Stack.handle
              split
              · exact push _ _ (m1 _)
              · exact push _ _ (m1 _)
              · exact m1 _
        · exact here

theorem stays {sched more : List SAct} {c : Nat} {l : Link} {f : Format} {s : Int} (hl : (srun r sched).links c = some l)
    (hcl : ∃ calls, l.client = .session calls) (hr : l.router = .attached f s) (hd : .drop c ∉ more) :
    ∃ l', (srun r (sched ++ more)).links c = some l' ∧ (∃ calls, l'.client = .session calls) ∧ l'.router = .attached f s := by
  induction more using snoc_induction with
  | nil => rw [List.append_nil]; exact ⟨l, hl, hcl, hr⟩
  | snoc more a ih =>
    obtain ⟨l', h1, h2, h3⟩ := ih (fun h => hd (List.mem_append_left _ h))
    rw [← List.append_assoc, srun_snoc]
    exact stays_step h1 h2 h3 (fun e => hd (by simp [e]))

/-- Tame, before the end -/
theorem Tame.before {fmt : Int → Format} {x y : List SAct} (h : Tame fmt r (x ++ y)) : Tame fmt r x := by
  induction y using snoc_induction with
  | nil => rw [List.append_nil] at h; exact h
  | snoc y a ih =>
    rw [← List.append_assoc] at h
    exact ih h.init

/-- What happens to a client that stays, and to no other, happens on its connection. -/
theorem more_own {fmt : Int → Format} {sched more : List SAct} (ht : Tame fmt r (sched ++ more)) {c : Nat} {l : Link} {f : Format} {s : Int}
    (hl : (srun r sched).links c = some l) (hcl : ∃ calls, l.client = .session calls) (hr : l.router = .attached f s) (hd : .drop c ∉ more) :
    ∃ x, sessions r (sched ++ more) = sessions r sched ++ x ∧ .leave s ∉ x ∧ ∀ m, .send s m ∈ x → .send c m ∈ more := by
  obtain ⟨x, h1, h2⟩ := sessions_more (r := r) sched more
  have own : ∀ pre a post c' l' f', more = pre ++ a :: post → (srun r (sched ++ pre)).links c' = some l' → l'.router = .attached f' s → c' = c := by
    intro pre a post c' l' f' e g1 g2
    have ht' : Tame fmt r (sched ++ pre) := by rw [e, ← List.append_assoc] at ht; exact ht.before
    obtain ⟨l'', g3, -, g4⟩ := stays (more := pre) hl hcl hr (fun h => hd (by rw [e]; exact List.mem_append_left _ h))
    exact (C120_stack fmt r _ ht'.formats ht'.short).one c' c l' l'' f' f s g1 g2 g3 g4
  refine ⟨x, h1, ?_, ?_⟩
  · intro h
    obtain ⟨pre, a, post, e, h3⟩ := h2 _ h
    obtain ⟨c', l', f', rfl, g1, g2⟩ := acts_leave h3
    cases own pre _ post c' l' f' e g1 g2
    exact hd (by rw [e]; simp)
  · intro m h
    obtain ⟨pre, a, post, e, h3⟩ := h2 _ h
    obtain ⟨c', l', f', rfl, g1, g2⟩ := acts_send_link h3
    cases own pre _ post c' l' f' e g1 g2
    rw [e]; simp

/-- When everything has come to rest, a member still waits for the answer to a CALL only if the dealer passed the call on to a member
whose connection has ended since. -/
theorem C130_calls (fmt : Int → Format) (r : Setup) (hr : r.hasAuthenticator = true) (q : Nat → Bool) (sched : List GAct)
    (hs : Strangers r q sched) (ht : Tame fmt r (members q sched)) (hl : sched.length < 2 ^ 53)
    (hg : GoodClientsB (codecs fmt) (sessions r (members q sched))) (hin : ((grun r sched).only q).AllIn) (hrest : ((grun r sched).only q).AtRest)
    (c : Nat) (l : Link) (calls : List (WAMPSession.Op Bytes)) (hqc : q c = false)
    (hlink : (grun r sched).links c = some l) (hcl : l.client = .session calls) (i : Int)
    (hw : Outstanding l.config.format.wire calls .call i) :
    ∃ s, l.router = .attached l.config.format s ∧ PassedToLeaver s i (grun r sched).dealer ∧ ∃ c', q c' = false ∧ .act (.drop c') ∈ sched := by
  have hlen : (sessions r (members q sched)).length < 2 ^ 53 :=
    Nat.lt_of_le_of_lt (sessions_length r (members q sched)) (Nat.lt_of_le_of_lt (members_length sched) hl)
  have hsd := sends_data (r := r) ht.sends
  have hwire : ∀ s, Net.Restores (codecs fmt s) (Fits commonLimits) := fun s => wire_common (fmt s)
  have hlink' : (srun r (members q sched)).links c = some l := by
    rw [← only_members hr hs]
    simp only [Stack.only, hqc, Bool.false_eq_true, if_false]
    exact hlink
  have hdeal : (grun r sched).dealer = (srun r (members q sched)).dealer := by rw [← only_members hr hs]; rfl
  rw [only_members hr hs] at hin hrest
  obtain ⟨s, kb, k, h1, -, -, -, -, -, -, -, h9, -, -, h12⟩ := triple ht (Nat.le_of_lt hlen) hlink' hcl
  have hq := rest_quiet ht (Nat.le_of_lt hlen) hin hrest
  have hout : Outstanding objects k.calls .call i := by
    rw [← WAMPSession.has_after] at hw ⊢
    rw [← h12]; exact hw
  obtain ⟨m, rfl, ⟨⟨e, he⟩, -⟩ | ⟨t, hst⟩ | ⟨t, inv, a, -, -, ⟨e, he⟩, -⟩⟩ := C115_quiet objects _ (by rw [List.length_map]; exact hlen)
    (good_of_bytes common_dataSet hwire _ hsd (Nat.le_of_lt hlen) hg) hq s k h9 i hout
  · cases he
  · obtain ⟨p1, p2⟩ := passed_of_story objects _ (by rw [List.length_map]; omega) s t m hst
    refine ⟨s, h1, ?_, ?_⟩
    · rw [hdeal, (C120_stack fmt r _ ht.formats ht.short).dealer,
        (C81_bytes_refine_messages common_dataSet hwire _ hsd (Nat.le_of_lt hlen)).dealer]
      exact p1
    · obtain ⟨a, ha, e⟩ := List.mem_map.1 p2
      cases a <;> cases e
      obtain ⟨c', hc'⟩ := sessions_leave ha
      obtain ⟨g1, g2⟩ := mem_members hc'
      exact ⟨c', g2, g1⟩
  · cases he

/-- When nothing is on its way on its connection any more, a member still waits for the answer to another request only if this was an
UNSUBSCRIBE of a subscription, or an UNREGISTER of a registration, it did not hold when the router handled the request. -/
theorem C130_requests (fmt : Int → Format) (r : Setup) (hr : r.hasAuthenticator = true) (q : Nat → Bool) (sched : List GAct)
    (hs : Strangers r q sched) (ht : Tame fmt r (members q sched)) (hl : sched.length ≤ 2 ^ 53)
    (c : Nat) (l : Link) (calls : List (WAMPSession.Op Bytes)) (hqc : q c = false)
    (hlink : (grun r sched).links c = some l) (hcl : l.client = .session calls)
    (hup : l.upHas = [] ∧ l.up = []) (hdown : l.downHas = [] ∧ l.down = []) (kd : Ses.Kind) (hkd : kd ≠ .call) (i : Int)
    (hw : Outstanding l.config.format.wire calls kd i) :
    ∃ s, l.router = .attached l.config.format s ∧
      (kd = .unsubscribe ∧ UnsubscribedNothing s i (grun r sched).broker ∨ kd = .unregister ∧ UnregisteredNothing s i (grun r sched).dealer) := by
  obtain ⟨s, kb, k, h1, h2, rfl, h3, h4, hcor, h5, h6, h7, h8, h9, h10, hlen⟩ := member_triple hr hs ht hl hqc hlink hcl
  have hsd := sends_data (r := r) ht.sends
  have hwire : ∀ s, Net.Restores (codecs fmt s) (Fits commonLimits) := fun s => wire_common (fmt s)
  obtain ⟨k', hk', hrel⟩ := (partner common_dataSet hwire _ hsd hlen s).1 kb h3
  rw [h4] at hk'; cases hk'
  have href := C81_bytes_refine_messages common_dataSet hwire _ hsd hlen
  have hlen' : ((sessions r (members q sched)).map arriving).length ≤ 2 ^ 53 := by rw [List.length_map]; exact hlen
  have hout : Outstanding objects k.calls kd i := by
    rw [← WAMPSession.has_after] at hw ⊢
    rw [← hrel.after, ← h2]; exact hw
  have n1 : kb.up = [] := stream_nil h7 (by rw [← h5, hup.1, hup.2]; rfl)
  have n2 : kb.down = [] := stream_nil h8 (by rw [← h6, hdown.1, hdown.2]; rfl)
  have n3 := hcor.up
  have n4 := hcor.down
  rw [n1] at n3
  rw [n2] at n4
  have n5 : k.up = [] := List.map_eq_nil_iff.1 n3.symm
  have n6 : k.down = [] := List.map_eq_nil_iff.1 n4.symm
  refine ⟨s, h1, ?_⟩
  rw [h9, h10, href.broker, href.dealer]
  rcases C119_underway_or_lost objects _ hlen' s k h4 kd hkd i hout with (⟨m, hm, -⟩ | ⟨m, hm, -⟩) | ⟨pre, a, post, k0, e, -, g1, g2⟩
  · rw [n5] at hm; cases hm
  · rw [n6] at hm; cases hm
  · rw [e]
    have e2 : pre ++ a :: post = pre ++ [a] ++ post := by simp
    rw [e2]
    obtain ⟨⟨z1, d1⟩, z2, d2⟩ := run_grows objects (pre ++ [a]) post
    rcases g2 with ⟨m, -, -, hne⟩ | ⟨u, rest, rfl, hu, rfl, rfl, hh⟩ | ⟨u, rest, rfl, hu, rfl, rfl, hh⟩
    · exact absurd rfl (hne _)
    · refine .inl ⟨rfl, _, u, z1, ?_, rfl, hh⟩
      rw [d1, run_snoc, step_route objects g1 hu]
      simp [Net.handle, brokerCall, Net.push, Net.setConn]
    · refine .inr ⟨rfl, _, u, z2, ?_, rfl, hh⟩
      rw [d2, run_snoc, step_route objects g1 hu]
      simp [Net.handle, brokerCall, dealerCall, Net.push, Net.setConn]

theorem Strangers.before {x y : List GAct} (h : Strangers r q (x ++ y)) : Strangers r q x :=
  ⟨fun c b hb => h.own c b (List.mem_append_left _ hb),
    fun pre c env post m sid ins w h1 h2 => h.out pre c env (post ++ y) m sid ins w h1 (by rw [h2, List.append_assoc, List.cons_append])⟩

theorem members_drop {more : List GAct} {c : Nat} (h : .act (.drop c) ∉ more) : .drop c ∉ members q more :=
  fun h' => h (mem_members h').1

theorem leave_map {x : List Act} {s : Int} (h : .leave s ∉ x) : .leave s ∉ x.map arriving := by
  intro h'
  obtain ⟨a, ha, e⟩ := List.mem_map.1 h'
  cases a <;> cases e
  exact h ha

/-- And it waits for ever: whatever members and strangers do from then on, no answer comes, for as long as its connection lasts. -/
theorem C130_calls_for_ever (fmt : Int → Format) (r : Setup) (hr : r.hasAuthenticator = true) (q : Nat → Bool) (sched more : List GAct)
    (hs : Strangers r q (sched ++ more)) (ht : Tame fmt r (members q (sched ++ more))) (hl : (sched ++ more).length ≤ 2 ^ 53)
    (hg : GoodClientsB (codecs fmt) (sessions r (members q (sched ++ more))))
    (hin : ((grun r sched).only q).AllIn) (hrest : ((grun r sched).only q).AtRest)
    (c : Nat) (l : Link) (calls : List (WAMPSession.Op Bytes)) (hqc : q c = false)
    (hlink : (grun r sched).links c = some l) (hcl : l.client = .session calls) (i : Int)
    (hw : Outstanding l.config.format.wire calls .call i) (hd : .act (.drop c) ∉ more) :
    ∃ l' calls', (grun r (sched ++ more)).links c = some l' ∧ l'.client = .session calls' ∧
      Outstanding l'.config.format.wire calls' .call i := by
  have hs0 : Strangers r q sched := hs.before
  have ht0 : Tame fmt r (members q sched) := by rw [members_append] at ht; exact ht.before
  have hl0 : sched.length ≤ 2 ^ 53 := by rw [List.length_append] at hl; omega
  obtain ⟨s, kb, k, h1, h2, rfl, h3, h4, hcor, -, -, -, -, -, -, hlen⟩ := member_triple hr hs0 ht0 hl0 hqc hlink hcl
  have hsd := sends_data (r := r) ht.sends
  have hsd0 := sends_data (r := r) ht0.sends
  have hwire : ∀ s, Net.Restores (codecs fmt s) (Fits commonLimits) := fun s => wire_common (fmt s)
  have hlink' : (srun r (members q sched)).links c = some l := by
    rw [← only_members hr hs0]
    simp only [Stack.only, hqc, Bool.false_eq_true, if_false]
    exact hlink
  rw [only_members hr hs0] at hin hrest
  have hq := rest_quiet ht0 hlen hin hrest
  obtain ⟨k0, hk0, hrel⟩ := (partner common_dataSet hwire _ hsd0 hlen s).1 kb h3
  rw [h4] at hk0; cases hk0
  have hout : Outstanding objects k.calls .call i := by
    rw [← WAMPSession.has_after] at hw ⊢
    rw [← hrel.after, ← h2]; exact hw
  have hd' : .drop c ∉ members q more := members_drop hd
  have ht' := ht
  rw [members_append] at ht'
  obtain ⟨x, e, hx, -⟩ := more_own ht' hlink' ⟨_, hcl⟩ h1 hd'
  obtain ⟨l', g1, ⟨calls', g2⟩, g3⟩ := stays (more := members q more) hlink' ⟨_, hcl⟩ h1 hd'
  have g1' : (grun r (sched ++ more)).links c = some l' := by
    rw [← members_append, ← only_members hr hs] at g1
    simp only [Stack.only, hqc, Bool.false_eq_true, if_false] at g1
    exact g1
  obtain ⟨s', kb', k', f1, f2, rfl, f3, f4, -, -, -, -, -, -, -, flen⟩ := member_triple hr hs ht hl hqc g1' g2
  rw [g3] at f1
  obtain rfl : s = s' := (RouterEnd.attached.inj f1).2
  obtain ⟨k1, hk1, frel⟩ := (partner common_dataSet hwire _ hsd flen s).1 kb' f3
  rw [f4] at hk1; cases hk1
  have hgo := good_of_bytes common_dataSet hwire _ hsd flen hg
  rw [members_append, e, List.map_append] at hgo f4
  rw [members_append, e] at flen
  obtain ⟨q1, q2, q3⟩ := hq s k h4
  obtain ⟨k2, w1, w2, -⟩ := C115_for_ever objects _ _ (by rw [← List.map_append, List.length_map]; exact flen) hgo s k h4 i hout
    (by rw [q1]; rintro ⟨m, hm, -⟩; cases hm) (by rw [q2]; rintro ⟨m, hm, -⟩; cases hm)
    (by
      rintro ⟨t, kt, m, inv, -, -, g, g'⟩
      obtain ⟨p1, p2, p3⟩ := hq t kt g
      rcases g' with ⟨g', -⟩ | ⟨g', -⟩ | ⟨a, g', -⟩
      · rw [p2] at g'; cases g'
      · exact p3 _ g'
      · rw [p1] at g'; cases g')
    (leave_map hx)
  rw [f4] at w1; cases w1
  refine ⟨l', _, g1', g2, ?_⟩
  rw [← WAMPSession.has_after] at w2 ⊢
  rw [f2, frel.after]; exact w2

/-- And so for the other requests: no answer comes for as long as the connection lasts and the member does not make the same kind of
request again under the same id. -/
theorem C130_requests_for_ever (fmt : Int → Format) (r : Setup) (hr : r.hasAuthenticator = true) (q : Nat → Bool) (sched more : List GAct)
    (hs : Strangers r q (sched ++ more)) (ht : Tame fmt r (members q (sched ++ more))) (hl : (sched ++ more).length ≤ 2 ^ 53)
    (c : Nat) (l : Link) (calls : List (WAMPSession.Op Bytes)) (hqc : q c = false)
    (hlink : (grun r sched).links c = some l) (hcl : l.client = .session calls)
    (hup : l.upHas = [] ∧ l.up = []) (hdown : l.downHas = [] ∧ l.down = []) (kd : Ses.Kind) (hkd : kd ≠ .call) (i : Int)
    (hw : Outstanding l.config.format.wire calls kd i) (hd : .act (.drop c) ∉ more)
    (hm : ∀ m, .act (.send c m) ∈ more → requestOf m ≠ some (kd, i)) :
    ∃ l' calls', (grun r (sched ++ more)).links c = some l' ∧ l'.client = .session calls' ∧
      Outstanding l'.config.format.wire calls' kd i := by
  have hs0 : Strangers r q sched := hs.before
  have ht0 : Tame fmt r (members q sched) := by rw [members_append] at ht; exact ht.before
  have hl0 : sched.length ≤ 2 ^ 53 := by rw [List.length_append] at hl; omega
  obtain ⟨s, kb, k, h1, h2, rfl, h3, h4, hcor, h5, h6, h7, h8, -, -, hlen⟩ := member_triple hr hs0 ht0 hl0 hqc hlink hcl
  have hsd := sends_data (r := r) ht.sends
  have hsd0 := sends_data (r := r) ht0.sends
  have hwire : ∀ s, Net.Restores (codecs fmt s) (Fits commonLimits) := fun s => wire_common (fmt s)
  have hlink' : (srun r (members q sched)).links c = some l := by
    rw [← only_members hr hs0]
    simp only [Stack.only, hqc, Bool.false_eq_true, if_false]
    exact hlink
  obtain ⟨k0, hk0, hrel⟩ := (partner common_dataSet hwire _ hsd0 hlen s).1 kb h3
  rw [h4] at hk0; cases hk0
  have hout : Outstanding objects k.calls kd i := by
    rw [← WAMPSession.has_after] at hw ⊢
    rw [← hrel.after, ← h2]; exact hw
  have n1 : kb.up = [] := stream_nil h7 (by rw [← h5, hup.1, hup.2]; rfl)
  have n2 : kb.down = [] := stream_nil h8 (by rw [← h6, hdown.1, hdown.2]; rfl)
  have n3 := hcor.up
  have n4 := hcor.down
  rw [n1] at n3
  rw [n2] at n4
  have n5 : k.up = [] := List.map_eq_nil_iff.1 n3.symm
  have n6 : k.down = [] := List.map_eq_nil_iff.1 n4.symm
  have hd' : .drop c ∉ members q more := members_drop hd
  have ht' := ht
  rw [members_append] at ht'
  obtain ⟨x, e, hx, hxs⟩ := more_own ht' hlink' ⟨_, hcl⟩ h1 hd'
  obtain ⟨l', g1, ⟨calls', g2⟩, g3⟩ := stays (more := members q more) hlink' ⟨_, hcl⟩ h1 hd'
  have g1' : (grun r (sched ++ more)).links c = some l' := by
    rw [← members_append, ← only_members hr hs] at g1
    simp only [Stack.only, hqc, Bool.false_eq_true, if_false] at g1
    exact g1
  obtain ⟨s', kb', k', f1, f2, rfl, f3, f4, -, -, -, -, -, -, -, flen⟩ := member_triple hr hs ht hl hqc g1' g2
  rw [g3] at f1
  obtain rfl : s = s' := (RouterEnd.attached.inj f1).2
  obtain ⟨k1, hk1, frel⟩ := (partner common_dataSet hwire _ hsd flen s).1 kb' f3
  rw [f4] at hk1; cases hk1
  rw [members_append, e, List.map_append] at f4
  rw [members_append, e] at flen
  obtain ⟨k2, w1, w2, -⟩ := C119_for_ever objects _ _ (by rw [← List.map_append, List.length_map]; exact flen) s k h4 kd hkd i hout
    (by
      rintro (⟨m, hm, -⟩ | ⟨m, hm, -⟩)
      · rw [n5] at hm; cases hm
      · rw [n6] at hm; cases hm)
    (leave_map hx) (by
      intro m h
      obtain ⟨a, ha, ea⟩ := List.mem_map.1 h
      cases a <;> cases ea
      rw [requestOf_received]
      exact hm _ (mem_members (hxs _ ha)).1)
  rw [f4] at w1; cases w1
  refine ⟨l', _, g1', g2, ?_⟩
  rw [← WAMPSession.has_after] at w2 ⊢
  rw [f2, frel.after]; exact w2

/-! The callee of `busy` loses its connection when it has just been handed the INVOCATION, and the caller then unsubscribes from something
it never subscribed to.  Nothing moves any more, and the caller waits for both. -/

def forsaken : List SAct :=
  busy.take 38 ++ [.drop 0, .send 1 (.unsubscribe ⟨.int 4, .int 9⟩), .carryUp 1 900, .serve 1 demoEnv, .carryDown 1 900, .hear 1]

def forsakenActs : List Act := busyActs.take 16 ++ [.leave 11, .send 12 (.unsubscribe ⟨.int 4, .int 9⟩), .route 12, .deliver 12]

/-- It goes on calling. -/
def afterwards : List SAct := [.send 1 (.call { requestId := .int 5, procedure := "p" }), .carryUp 1 900, .serve 1 demoEnv, .carryDown 1 900, .hear 1]

def afterwardsActs : List Act := [.send 12 (.call { requestId := .int 5, procedure := "p" }), .route 12, .deliver 12]

theorem forsaken_acts : sessions demoSetup forsaken = forsakenActs := by decide +kernel

theorem afterwards_acts : sessions demoSetup (forsaken ++ afterwards) = forsakenActs ++ afterwardsActs := by decide +kernel

theorem forsaken_tame : Tame demoFmt demoSetup (forsaken ++ afterwards) := by
  refine ⟨?_, ?_, ?_⟩
  · intro c cfg sid h
    simp only [forsaken, afterwards, busy, comeIn, List.cons_append, List.nil_append, List.mem_cons, SAct.connect.injEq, reduceCtorEq,
      List.take_succ_cons, List.take_zero, List.not_mem_nil, or_false] at h
    rcases h with ⟨-, rfl, rfl⟩ | ⟨-, rfl, rfl⟩ <;> decide
  · rw [afterwards_acts]
    have hall : ∀ i ∈ List.range 24, ∀ s ∈ [(11 : Int), 12], (match (brun (codecs demoFmt) ((forsakenActs ++ afterwardsActs).take i)).conns s with
        | none => true
        | some k => (k.up ++ k.down).all (·.length < 100)) = true := by decide +kernel
    intro pre hp s k hk w hw
    have hpre : pre = (forsakenActs ++ afterwardsActs).take pre.length := List.prefix_iff_eq_take.1 hp
    have hlen : pre.length < 24 := by have := hp.length_le; simp [forsakenActs, afterwardsActs, busyActs] at this; omega
    by_cases hs : s = 11 ∨ s = 12
    · have := hall pre.length (List.mem_range.2 hlen) s (by simpa using hs)
      rw [← hpre, hk] at this
      have := List.all_eq_true.1 this w hw
      simp only [decide_eq_true_eq] at this
      omega
    · have hnone : (brun (codecs demoFmt) pre).conns s = none := by
        refine brun_absent _ _ _ (fun d hd hds => hs ?_)
        have : Act.join d ∈ forsakenActs ++ afterwardsActs := hp.subset hd
        simp only [forsakenActs, afterwardsActs, busyActs, List.take_succ_cons, List.take_zero, List.cons_append, List.nil_append,
          List.mem_cons, reduceCtorEq, Act.join.injEq, List.not_mem_nil, or_false] at this
        rcases this with rfl | rfl <;> simp [PyInt.val] at hds <;> omega
      rw [hnone] at hk; cases hk
  · intro c m h
    simp only [forsaken, afterwards, busy, comeIn, List.cons_append, List.nil_append, List.mem_cons, SAct.send.injEq, reduceCtorEq,
      List.take_succ_cons, List.take_zero, List.not_mem_nil, or_false, false_or] at h
    rcases h with ⟨-, rfl⟩ | ⟨-, rfl⟩ | ⟨-, rfl⟩ | ⟨-, rfl⟩ | ⟨-, rfl⟩ | ⟨-, rfl⟩ | ⟨-, rfl⟩
    all_goals
      refine ⟨by simp [Valid, IdOk, PyInt.val], ?_⟩
      simp [Message.marshal, payloadTail, PyInt.toValue, Fits, FitsList, FitsDict, commonLimits, Subscribe.TYPE, Publish.TYPE, Register.TYPE,
        Call.TYPE, Unsubscribe.TYPE, Call.options, withSerializer]
      try decide

theorem forsaken_good : GoodClientsB (codecs demoFmt) (sessions demoSetup (forsaken ++ afterwards)) := by
  have hf := fun K h => fresh_to_bytes common_dataSet (fun s => wire_common (demoFmt s)) (sessions demoSetup (forsaken ++ afterwards))
    (sends_data forsaken_tame.sends) (by rw [afterwards_acts]; decide) K
    (fresh_of_freshB objects K ((sessions demoSetup (forsaken ++ afterwards)).map arriving) h)
  rw [afterwards_acts] at *
  refine ⟨hf _ (by decide +kernel), ?_, ?_, distinct_of_nodup (by decide)⟩
  · intro s m h
    simp only [forsakenActs, afterwardsActs, busyActs, List.take_succ_cons, List.take_zero, List.cons_append, List.nil_append,
      List.mem_cons, reduceCtorEq, Act.send.injEq, Message.call.injEq, false_or, or_false, and_false, List.not_mem_nil] at h
    rcases h with ⟨-, rfl⟩ | ⟨-, rfl⟩ | ⟨-, rfl⟩ <;> rfl
  · intro pre s m post e
    have : Act.send s (.error m) ∈ forsakenActs ++ afterwardsActs := by rw [e]; simp
    simp [forsakenActs, afterwardsActs, busyActs] at this

theorem forsaken_in : (srun demoSetup forsaken).AllIn := by
  have hall : ∀ c ∈ [0, 1], (match (srun demoSetup forsaken).links c with
      | some l => (match l.client with | .session _ => true | _ => false)
      | none => true) = true := by decide +kernel
  intro c l hl
  have := hall c (by
    have := in_links forsaken (by decide) c l hl
    simpa using this)
  rw [hl] at this
  simp only at this
  split at this
  · rename_i calls hcl; exact ⟨calls, hcl⟩
  · cases this

theorem forsaken_rest : (srun demoSetup forsaken).AtRest := by
  have hall : ∀ c ∈ [0, 1], restB (srun demoSetup forsaken) c = true := by decide +kernel
  intro c l hl
  refine rest_of_restB hl (hall c ?_)
  have := in_links forsaken (by decide) c l hl
  simpa using this

/-- The caller waits. -/
theorem forsaken_waits : ∃ l calls, (srun demoSetup forsaken).links 1 = some l ∧ l.client = .session calls ∧
    Outstanding l.config.format.wire calls .call 2 ∧ Outstanding l.config.format.wire calls .unsubscribe 4 := by
  have h : (match (srun demoSetup forsaken).links 1 with
      | some l => (match l.client with
        | .session calls => decide (2 ∈ (WAMPSession.after l.config.format.wire calls).callRequests ∧
            (WAMPSession.after l.config.format.wire calls).has .unsubscribe 4)
        | _ => false)
      | none => false) = true := by decide +kernel
  split at h
  · rename_i l hl
    split at h
    · rename_i calls hcl
      obtain ⟨h1, h2⟩ := of_decide_eq_true h
      exact ⟨l, calls, hl, hcl, (WAMPSession.has_after ..).1 h1, (WAMPSession.has_after ..).1 h2⟩
    · cases h
  · cases h

theorem members_none (sched : List SAct) : members (fun _ => false) (sched.map .act) = sched := by
  induction sched with
  | nil => rfl
  | cons a l ih =>
    have : members (fun _ => false) (.act a :: l.map .act) = a :: members (fun _ => false) (l.map .act) := rfl
    rw [List.map_cons, this, ih]

theorem strangers_none (sched : List SAct) : Strangers demoSetup (fun _ => false) (sched.map .act) :=
  ⟨fun c b h => (by obtain ⟨a, -, e⟩ := List.mem_map.1 h; cases e), fun pre c env post m sid ins w h => (by cases h)⟩

/-- The dealer passed the call on to session 11, which is gone; the broker was asked to end a subscription there was not; and both
answers fail to come while the caller makes another call. -/
example : (∃ l, (grun demoSetup (forsaken.map .act)).links 1 = some l ∧ ∃ s, l.router = .attached l.config.format s ∧
      PassedToLeaver s 2 (grun demoSetup (forsaken.map .act)).dealer ∧ UnsubscribedNothing s 4 (grun demoSetup (forsaken.map .act)).broker) ∧
    (∃ l' calls', (grun demoSetup (forsaken.map .act ++ afterwards.map .act)).links 1 = some l' ∧ l'.client = .session calls' ∧
      Outstanding l'.config.format.wire calls' .call 2) ∧
    ∃ l' calls', (grun demoSetup (forsaken.map .act ++ afterwards.map .act)).links 1 = some l' ∧ l'.client = .session calls' ∧
      Outstanding l'.config.format.wire calls' .unsubscribe 4 := by
  have hs := strangers_none (forsaken ++ afterwards)
  have ht := forsaken_tame
  have hg := forsaken_good
  rw [← members_none (forsaken ++ afterwards), List.map_append] at ht hg
  rw [List.map_append] at hs
  have hs0 := hs.before
  have ht0 := ht
  rw [members_append] at ht0
  have ht0 := ht0.before
  have hon : (grun demoSetup (forsaken.map .act)).only (fun _ => false) = srun demoSetup forsaken := by
    rw [only_members rfl hs0, members_none]
  have hin := forsaken_in
  have hrest := forsaken_rest
  obtain ⟨l, calls, hl, hcl, w1, w2⟩ := forsaken_waits
  rw [← hon] at hin hrest hl
  have hl' : (grun demoSetup (forsaken.map .act)).links 1 = some l := by
    simp only [Stack.only, Bool.false_eq_true, if_false] at hl
    exact hl
  obtain ⟨r1, r2, r3, r4, -⟩ := hrest 1 l hl
  have hg0 : GoodClientsB (codecs demoFmt) (sessions demoSetup (members (fun _ => false) (forsaken.map .act))) := by
    rw [members_none, forsaken_acts]
    have := forsaken_good
    rw [afterwards_acts] at this
    exact good_prefix this
  obtain ⟨s, e1, p1, -⟩ := C130_calls demoFmt demoSetup rfl (fun _ => false) _ hs0 ht0 (by decide) hg0 hin hrest 1 l calls rfl hl' hcl 2 w1
  obtain ⟨s', e2, p2⟩ := C130_requests demoFmt demoSetup rfl (fun _ => false) _ hs0 ht0 (by decide) 1 l calls rfl hl' hcl ⟨r2, r1⟩ ⟨r4, r3⟩
    .unsubscribe (by decide) 4 w2
  obtain rfl : s = s' := by rw [e1] at e2; exact (RouterEnd.attached.inj e2).2
  refine ⟨⟨l, hl', s, e1, p1, ?_⟩, ?_, ?_⟩
  · rcases p2 with ⟨-, p2⟩ | ⟨e, -⟩
    · exact p2
    · cases e
  · exact C130_calls_for_ever demoFmt demoSetup rfl (fun _ => false) _ _ hs ht (by decide) hg hin hrest 1 l calls rfl hl' hcl 2 w1 (by
      intro h; simp [afterwards] at h)
  · exact C130_requests_for_ever demoFmt demoSetup rfl (fun _ => false) _ _ hs ht (by decide) 1 l calls rfl hl' hcl ⟨r2, r1⟩ ⟨r4, r3⟩
      .unsubscribe (by decide) 4 w2 (by intro h; simp [afterwards] at h) (by
        intro m h; simp [afterwards] at h; subst h; simp [requestOf])

end Wamp.Spec.Stack
