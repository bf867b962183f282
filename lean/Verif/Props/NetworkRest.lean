import Verif.Spec.Rest
import Verif.Proofs.NetRest
import Verif.Props.NetworkStory
import Verif.Props.NetworkWait
import Verif.Props.NetworkStream

/-!
# C82: the network comes to rest

If nobody asks for anything new, only so many things can happen: the messages that are under way are handled, the
invocations answered, and then nothing is left to do.  Then every request has been answered.
-/

namespace Wamp.Spec.Net
open Wamp.Spec.Ses

variable {W : Type} (c : Codec W)

theorem WindsDown.prefix {sched more : List Act} {a : Act} (h : WindsDown c sched (more ++ [a])) :
    WindsDown c sched more ∧ Moves c (sched ++ more) a :=
  ⟨fun pre b post e => h pre b (post ++ [a]) (by simp [e]), h more a [] rfl⟩

theorem WindsDown.snoc {sched more : List Act} {a : Act} (h : WindsDown c sched more) (hm : Moves c (sched ++ more) a) :
    WindsDown c sched (more ++ [a]) := by
  intro pre b post e
  rcases split_last e with ⟨rfl, rfl⟩ | ⟨post', e'⟩
  · exact hm
  · exact h pre b post' e'

theorem among_moves {L : List Int} {sched : List Act} (h : Among L (run c sched)) {a : Act} (hm : Moves c sched a) :
    Among L (run c (sched ++ [a])) := by
  intro s k hk
  rw [run_snoc] at hk
  rcases step_some c hk with ⟨k0, h0⟩ | ⟨d, rfl, -⟩
  · exact h s k0 h0
  · cases hm

theorem winds_weight {A : Nat} {L : List Int} (hn : L.Nodup) (hA : 2 * L.length + 5 ≤ A) {sched : List Act}
    (ha : Among L (run c sched)) (more : List Act) (h : WindsDown c sched more) :
    Among L (run c (sched ++ more)) ∧ weight c A L (run c (sched ++ more)) + more.length ≤ weight c A L (run c sched) := by
  induction more using snoc_induction with
  | nil => rw [List.append_nil]; exact ⟨ha, Nat.le_refl _⟩
  | snoc more a ih =>
    obtain ⟨h1, h2⟩ := h.prefix
    obtain ⟨i1, i2⟩ := ih h1
    have h3 := weight_moves c hn hA _ i1 a h2
    rw [← List.append_assoc]
    refine ⟨among_moves c i1 h2, ?_⟩
    rw [List.length_append, List.length_singleton]
    omega

/-- However the rest is scheduled and whatever the clients answer, the network does only so much more. -/
theorem C82_comes_to_rest (sched more : List Act) (h : WindsDown c sched more) :
    more.length ≤ (2 * sched.length + 5) * sched.length := by
  obtain ⟨L, h1, h2, h3⟩ := exists_among c sched
  have hA : 2 * L.length + 5 ≤ 2 * sched.length + 5 := by omega
  have hw := weight_run c h1 hA sched h3
  have := (winds_weight c h1 hA (h3 sched [] (by simp)) more h).2
  omega

/-- As long as it is not quiet, something can happen. -/
theorem C82_progress (sched : List Act) : Quiet c sched ↔ ∀ a, ¬ Moves c sched a := by
  constructor
  · intro hq a hm
    cases a with
    | join d => cases hm
    | leave s => cases hm
    | route s =>
      obtain ⟨k, m, rest, h1, h2⟩ := hm
      rw [(hq s k h1).1] at h2; cases h2
    | deliver s =>
      obtain ⟨k, m, rest, h1, h2⟩ := hm
      rw [(hq s k h1).2.1] at h2; cases h2
    | send s m =>
      cases m with
      | yield_ y =>
        obtain ⟨k, h1, h2⟩ := hm
        exact (hq s k h1).2.2 _ h2
      | error e =>
        obtain ⟨-, k, h1, h2⟩ := hm
        exact (hq s k h1).2.2 _ h2
      | _ => cases hm
  · intro h s k hk
    refine ⟨?_, ?_, fun i hi => ?_⟩
    · cases hu : k.up with
      | nil => rfl
      | cons m rest => exact absurd ⟨k, m, rest, hk, hu⟩ (h (.route s))
    · cases hu : k.down with
      | nil => rfl
      | cons m rest => exact absurd ⟨k, m, rest, hk, hu⟩ (h (.deliver s))
    · exact h (.send s (.yield_ ⟨.int i, none, none, [], none, none, false⟩)) ⟨k, hk, hi⟩

/-- So the network can come to rest from wherever it is. -/
theorem C82_can_finish (sched : List Act) : ∃ more, WindsDown c sched more ∧ Quiet c (sched ++ more) := by
  obtain ⟨L, h1, h2, h3⟩ := exists_among c sched
  have ha : Among L (run c sched) := h3 sched [] (by simp)
  have key : ∀ fuel more, WindsDown c sched more → weight c (2 * L.length + 5) L (run c (sched ++ more)) ≤ fuel →
      ∃ more, WindsDown c sched more ∧ Quiet c (sched ++ more) := by
    intro fuel
    induction fuel with
    | zero =>
      intro more hw h0
      refine ⟨more, hw, (C82_progress c _).2 fun a hm => ?_⟩
      have := weight_moves c h1 (Nat.le_refl _) _ (winds_weight c h1 (Nat.le_refl _) ha more hw).1 a hm
      omega
    | succ fuel ih =>
      intro more hw h0
      by_cases hq : Quiet c (sched ++ more)
      · exact ⟨more, hw, hq⟩
      · have : ∃ a, Moves c (sched ++ more) a := Classical.byContradiction fun hne =>
          hq ((C82_progress c _).2 fun a hm => hne ⟨a, hm⟩)
        obtain ⟨a, hm⟩ := this
        refine ih (more ++ [a]) (hw.snoc c hm) ?_
        have := weight_moves c h1 (Nat.le_refl _) _ (winds_weight c h1 (Nat.le_refl _) ha more hw).1 a hm
        rw [← List.append_assoc]
        omega
  exact key _ [] (by intro pre a post e; simp at e) (Nat.le_refl _)

/-! ## Good clients stay good -/

theorem moves_send {sched : List Act} {s : Int} {m : Message} (h : Moves c sched (.send s m)) :
    (∃ y, m = .yield_ y) ∨ ∃ e, m = .error e := by
  cases m with
  | yield_ y => exact .inl ⟨y, rfl⟩
  | error e => exact .inr ⟨e, rfl⟩
  | _ => cases h

theorem fresh_moves {K : Kind → Bool} {sched : List Act} (h : FreshRequests c K sched) {a : Act} (hm : Moves c sched a) :
    FreshRequests c K (sched ++ [a]) := by
  intro pre s m post e kc hk k i hr
  rcases split_last e with ⟨rfl, rfl⟩ | ⟨post', e'⟩
  · rcases moves_send c hm with ⟨y, rfl⟩ | ⟨x, rfl⟩ <;> cases hr
  · exact h pre s m post' e' kc hk k i hr

theorem good_moves {sched : List Act} (h : GoodClients c sched) {a : Act} (hm : Moves c sched a) :
    GoodClients c (sched ++ [a]) := by
  refine ⟨fresh_moves c h.fresh hm, ?_, ?_, ?_⟩
  · intro s m hs
    rcases List.mem_append.1 hs with hs | hs
    · exact h.plain s m hs
    · rw [← List.mem_singleton.1 hs] at hm; cases hm
  · intro pre s m post e kc hk ht
    rcases split_last e with ⟨rfl, rfl⟩ | ⟨post', e'⟩
    · obtain ⟨-, k, h1, h2⟩ := hm
      rw [h1] at hk; cases hk; exact h2
    · exact h.errors pre s m post' e' kc hk ht
  · intro pre d mid d' post e
    rcases split_last e with ⟨rfl, rfl⟩ | ⟨post', e'⟩
    · cases hm
    · exact h.distinct pre d mid d' post' e'

theorem polite_moves {sched : List Act} (h : PoliteUnsubscribes c sched) (h' : PoliteUnregisters c sched) {a : Act}
    (hm : Moves c sched a) : PoliteUnsubscribes c (sched ++ [a]) ∧ PoliteUnregisters c (sched ++ [a]) := by
  constructor
  · intro pre s u post e
    rcases split_last e with ⟨rfl, rfl⟩ | ⟨post', e'⟩
    · cases hm
    · exact h pre s u post' e'
  · intro pre s u post e
    rcases split_last e with ⟨rfl, rfl⟩ | ⟨post', e'⟩
    · cases hm
    · exact h' pre s u post' e'

theorem noLeaves_winds {sched more : List Act} (h : NoLeaves sched) (hw : WindsDown c sched more) : NoLeaves (sched ++ more) := by
  intro s hs
  rcases List.mem_append.1 hs with hs | hs
  · exact h s hs
  · obtain ⟨pre, post, e⟩ := List.append_of_mem hs
    cases hw pre _ post e

theorem good_winds {sched more : List Act} (h : GoodClients c sched) (hw : WindsDown c sched more) : GoodClients c (sched ++ more) := by
  induction more using snoc_induction with
  | nil => rwa [List.append_nil]
  | snoc more a ih =>
    rw [← List.append_assoc]
    exact good_moves c (ih (hw.prefix c).1) (hw.prefix c).2

theorem rest_length {sched more : List Act} (hl : sched.length ≤ 2 ^ 25) (hw : WindsDown c sched more) :
    (sched ++ more).length < 2 ^ 53 := by
  have h1 := C82_comes_to_rest c sched more hw
  have h2 : (2 * sched.length + 5) * sched.length ≤ (2 * 2 ^ 25 + 5) * 2 ^ 25 := Nat.mul_le_mul (by omega) hl
  rw [List.length_append]
  omega

/-- When well-behaved clients stop asking, stay connected and answer what they are asked, every CALL gets its answer: the
network does at most `(2 n + 5) n` more steps, and when none is possible any more nobody is waiting for a CALL. -/
theorem C82_calls_finish (sched : List Act) (hl : sched.length ≤ 2 ^ 25) (hg : GoodClients c sched) (hn : NoLeaves sched)
    (more : List Act) (hw : WindsDown c sched more) (hs : Serializes c (sched ++ more))
    (hend : ∀ a, ¬ Moves c (sched ++ more) a) (s : Int) (k : Conn W) (hk : (run c (sched ++ more)).conns s = some k) (r : Int) :
    ¬ Outstanding c k.calls .call r :=
  C72_quiet_partial c _ (rest_length c hl hw) (good_winds c hg hw) (noLeaves_winds c hn hw) hs
    ((C82_progress c _).2 hend) s k hk r

/-- If clients left, or something could not be serialized: when no step is possible any more, the CALLs still waited for are
those that were lost (`Lost`), and no other. -/
theorem C82_calls_finish_or_lost (sched : List Act) (hl : sched.length ≤ 2 ^ 25) (hg : GoodClients c sched)
    (more : List Act) (hw : WindsDown c sched more) (hend : ∀ a, ¬ Moves c (sched ++ more) a) (s : Int) (k : Conn W)
    (hk : (run c (sched ++ more)).conns s = some k) (r : Int) (hr : Outstanding c k.calls .call r) :
    Lost c (sched ++ more) s r :=
  C115_quiet c _ (rest_length c hl hw) (good_winds c hg hw) ((C82_progress c _).2 hend) s k hk r hr

/-- The same for all other requests, also when clients leave. -/
theorem C82_requests_finish (sched : List Act) (hl : sched.length ≤ 2 ^ 25) (hg : GoodClients c sched)
    (hf : FreshRequests c pubSub sched) (hp : PoliteUnsubscribes c sched) (hp' : PoliteUnregisters c sched)
    (more : List Act) (hw : WindsDown c sched more) (hs : Serializes c (sched ++ more))
    (hend : ∀ a, ¬ Moves c (sched ++ more) a) (s : Int) (k : Conn W) (hk : (run c (sched ++ more)).conns s = some k)
    (kd : Kind) (hkd : kd ≠ .call) (r : Int) : ¬ Outstanding c k.calls kd r := by
  have hq := (C82_progress c _).2 hend s k hk
  have keep : ∀ more, WindsDown c sched more → FreshRequests c pubSub (sched ++ more) ∧
      PoliteUnsubscribes c (sched ++ more) ∧ PoliteUnregisters c (sched ++ more) := by
    intro more hw
    induction more using snoc_induction with
    | nil => rw [List.append_nil]; exact ⟨hf, hp, hp'⟩
    | snoc more a ih =>
      obtain ⟨i1, i2, i3⟩ := ih (hw.prefix c).1
      rw [← List.append_assoc]
      exact ⟨fresh_moves c i1 (hw.prefix c).2, polite_moves c i2 i3 (hw.prefix c).2⟩
  obtain ⟨k1, k2, k3⟩ := keep more hw
  exact C75_nothing_waits_partial c _ (Nat.le_of_lt (rest_length c hl hw)) hs k1 k2 (good_winds c hg hw) k3 s k hk hq.1 hq.2.1
    kd hkd r

/-! ## The example -/

/-- Decides `Moves` on a concrete network. -/
def movesB (n : Net W) : Act → Bool
  | .route s => match n.conns s with | some k => !k.up.isEmpty | none => false
  | .deliver s => match n.conns s with | some k => !k.down.isEmpty | none => false
  | .send s (.yield_ y) =>
    match n.conns s with | some k => decide (y.requestId.val ∈ (WAMPSession.after c k.calls).invocationRequests) | none => false
  | .send s (.error e) => decide (e.messageType.val = 68) &&
    match n.conns s with | some k => decide (e.requestId.val ∈ (WAMPSession.after c k.calls).invocationRequests) | none => false
  | _ => false
/-- Decides `WindsDown` on a concrete network. -/
def windsB : Net W → List Act → Bool
  | _, [] => true
  | n, a :: l => movesB c n a && windsB (n.step c a) l

theorem moves_of_movesB {sched : List Act} {a : Act} (h : movesB c (run c sched) a = true) : Moves c sched a := by
  cases a with
  | join d => cases h
  | leave s => cases h
  | route s =>
    simp only [movesB] at h
    split at h
    · rename_i k hk
      cases hu : k.up with
      | nil => rw [hu] at h; cases h
      | cons m rest => exact ⟨k, m, rest, hk, hu⟩
    · cases h
  | deliver s =>
    simp only [movesB] at h
    split at h
    · rename_i k hk
      cases hu : k.down with
      | nil => rw [hu] at h; cases h
      | cons m rest => exact ⟨k, m, rest, hk, hu⟩
    · cases h
  | send s m =>
    cases m with
    | yield_ y =>
      simp only [movesB] at h
      split at h
      · rename_i k hk
        exact ⟨k, hk, (WAMPSession.inv_after c _ _).1 (of_decide_eq_true h)⟩
      · cases h
    | error e =>
      simp only [movesB, Bool.and_eq_true, decide_eq_true_eq] at h
      obtain ⟨h0, h⟩ := h
      split at h
      · rename_i k hk
        exact ⟨h0, k, hk, (WAMPSession.inv_after c _ _).1 (of_decide_eq_true h)⟩
      · cases h
    | _ => cases h

theorem winds_of_windsB (more : List Act) : ∀ sched, windsB c (run c sched) more = true → WindsDown c sched more := by
  induction more with
  | nil => intro sched _ pre a post e; simp at e
  | cons b more ih =>
    intro sched h pre a post e
    simp only [windsB, Bool.and_eq_true] at h
    cases pre with
    | nil =>
      rw [List.nil_append, List.cons.injEq] at e
      rw [List.append_nil, ← e.1]
      exact moves_of_movesB c h.1
    | cons x pre =>
      rw [List.cons_append, List.cons.injEq] at e
      rw [← e.1]
      have := ih (sched ++ [b]) (by rw [run_snoc]; exact h.2) pre a post e.2
      rwa [List.append_assoc] at this

/-- The ids that joined. -/
def joined : List Act → List Int := List.filterMap fun | .join d => some d.sessionId.val | _ => none

theorem among_joined (sched : List Act) : Among (joined sched) (run c sched) := by
  induction sched using snoc_induction with
  | nil => intro s k h; cases h
  | snoc sched a ih =>
    intro s k h
    rw [run_snoc] at h
    simp only [joined, List.filterMap_append, List.mem_append]
    rcases step_some c h with ⟨k0, h0⟩ | ⟨d, rfl, rfl⟩
    · exact .inl (ih s k0 h0)
    · exact .inr (by simp)

/-- What is left to do in the middle of the schedule: client 2 receives the two invocations, answers one with a YIELD and the
other with an ERROR. -/
def demoRest : List Act := [.route 1, .deliver 2, .send 2 (yieldOf 2), .deliver 2, .send 2 (errorOf 3), .route 2, .route 2,
  .deliver 1, .deliver 1]

/-- The example: in the middle of the schedule client 1 is waiting for two CALLs; the rest is a way to wind down, at whose
end nothing can happen any more. -/
example : GoodClients WAMPSession.plainCodec (demoRpc.take 8) ∧ NoLeaves (demoRpc.take 8) ∧
    (∃ k, (run WAMPSession.plainCodec (demoRpc.take 8)).conns 1 = some k ∧
      Outstanding WAMPSession.plainCodec k.calls .call 1 ∧ Outstanding WAMPSession.plainCodec k.calls .call 2) ∧
    WindsDown WAMPSession.plainCodec (demoRpc.take 8) demoRest ∧
    ∀ a, ¬ Moves WAMPSession.plainCodec (demoRpc.take 8 ++ demoRest) a := by
  refine ⟨⟨fresh_of_freshB _ _ _ (by decide), ?_, errors_of_errorsB _ _ (by decide), distinct_of_nodup (by decide)⟩, ?_,
    ⟨_, rfl, (WAMPSession.has_after _ _ _ _).1 (by decide), (WAMPSession.has_after _ _ _ _).1 (by decide)⟩,
    winds_of_windsB _ _ _ (by decide), (C82_progress _ _).1 ?_⟩
  · intro s m hm; exact demoRpc_good.plain s m (List.mem_of_mem_take hm)
  · intro s h; simp [demoRpc, joins, callP] at h
  · intro s k hk
    have := among_joined _ _ s k hk
    have hj : joined (demoRpc.take 8 ++ demoRest) = [1, 2] := by decide
    rw [hj] at this
    rcases List.mem_cons.1 this with rfl | this
    · cases hk; exact ⟨rfl, rfl, fun i h => by cases (WAMPSession.inv_after _ _ _).2 h⟩
    · cases List.mem_singleton.1 this
      cases hk; exact ⟨rfl, rfl, fun i h => by cases (WAMPSession.inv_after _ _ _).2 h⟩

end Wamp.Spec.Net
