import Verif.Props.Dealer

/-!
# C99 — a call sent in parts

A caller sends the arguments of one call in several CALLs with one request id, all but the last marked `progress`.  Vocabulary
as in `Props/Dealer.lean`.
-/

namespace Wamp.Dealer
open Spec.Rpc

/-- The parts of a call: every CALL in the list is marked `progress`, uses the call's request id and names procedure `p`. -/
def Parts (x : Pending) (p : String) (ms : List Call) : Prop :=
  ∀ m ∈ ms, PyDict.flag m.options "progress" = true ∧ m.requestId.val = x.request.val ∧ m.procedure = p

/-- The calls of the API a router makes for them. -/
def sends (x : Pending) (ms : List Call) : List Op := ms.map fun m => .receiveMessage x.caller (.call m)

theorem parts_change_nothing (ops : List Op) (hd : (view (trace ops)).drawn < 2 ^ 53) (x : Pending)
    (hx : x ∈ (view (trace ops)).pending) (hn : NoReuse x.caller (trace ops))
    (g : Reg) (hg : g ∈ (view (trace ops)).held) (ms : List Call) : Parts x g.procedure ms →
    after (ops ++ sends x ms) = after ops ∧ view (trace (ops ++ sends x ms)) = view (trace ops) ∧
      NoReuse x.caller (trace (ops ++ sends x ms)) := by
  induction ms using snoc_induction with
  | nil => intro _; simpa [sends] using hn
  | snoc ms m ih =>
    intro hp
    obtain ⟨h1, h2, h3⟩ := ih fun m' hm' => hp m' (by simp [hm'])
    obtain ⟨p1, p2, p3⟩ := hp m (by simp)
    have e : ops ++ sends x (ms ++ [m]) = (ops ++ sends x ms) ++ [.receiveMessage x.caller (.call m)] := by simp [sends]
    obtain ⟨⟨inv, c1, c2, -⟩, c4, -⟩ := C40_continuation_partial (ops ++ sends x ms) (by rw [h2]; exact hd) x (by rw [h2]; exact hx) h3 m
      p1 p2 g (by rw [h2]; exact hg) p3.symm
    rw [e]
    refine ⟨c4.trans h1, ?_, ?_⟩
    · rw [trace_snoc, view_snoc, h2]
      rw [outcome] at c1; rw [c1]
      have hi : x ∈ (view (trace ops)).issued := (rel_after ops hd).2.sub x hx
      have ha : (view (trace ops)).issued.any (fun y => y.inv = inv.requestId.val) = true := by
        rw [List.any_eq_true]; exact ⟨x, hi, by simp [c2, PyInt.val]⟩
      simp only [View.next, ha, if_true]
    · rw [trace_snoc]
      refine noReuse_snoc_mk h3 ?_
      rw [outcome] at c1; rw [c1]
      rintro ⟨-, hf, -⟩
      rw [p1] at hf; cases hf

/-- While a call is in progress (whose caller does not start another under the same id), each of any number of further parts
marked `progress` reaches the holder of the procedure as an INVOCATION with the call's invocation id and the arguments of the
part.  (Missing: the last part, which is not marked, see `C99_last_part_false`.) -/
theorem C99_parts_partial (ops : List Op) (hd : (view (trace ops)).drawn < 2 ^ 53) (x : Pending)
    (hx : x ∈ (view (trace ops)).pending) (hn : NoReuse x.caller (trace ops))
    (g : Reg) (hg : g ∈ (view (trace ops)).held) (ms : List Call) (hp : Parts x g.procedure ms)
    (before : List Call) (m : Call) (rest : List Call) (hm : ms = before ++ m :: rest) :
    ∃ inv, outcome (ops ++ sends x before) (.receiveMessage x.caller (.call m)) = .ok (.reply ⟨.invocation inv, g.session⟩) ∧
      inv.requestId = .int x.inv ∧ inv.args = m.args ∧ inv.kwargs = m.kwargs := by
  subst hm
  obtain ⟨h1, h2, h3⟩ := parts_change_nothing ops hd x hx hn g hg before fun m' hm' => hp m' (by simp [hm'])
  obtain ⟨p1, p2, p3⟩ := hp m (by simp)
  obtain ⟨⟨inv, c1, c2, -, c3, c4⟩, -⟩ := C40_continuation_partial (ops ++ sends x before) (by rw [h2]; exact hd) x
    (by rw [h2]; exact hx) h3 m p1 p2 g (by rw [h2]; exact hg) p3.symm
  exact ⟨inv, c1, c2, c3, c4⟩

/-- After any number of such parts one final YIELD of the callee is the answer: it becomes the RESULT of the call, and then no
call of this caller with this request id is pending. -/
theorem C99_answer_partial (ops : List Op) (hd : (view (trace ops)).drawn < 2 ^ 53) (x : Pending)
    (hx : x ∈ (view (trace ops)).pending) (hn : NoReuse x.caller (trace ops))
    (g : Reg) (hg : g ∈ (view (trace ops)).held) (ms : List Call) (hp : Parts x g.procedure ms)
    (y : Yield) (hy : y.requestId.val = x.inv) (hf : PyDict.flag y.options "progress" = false) :
    (∃ r, outcome (ops ++ sends x ms) (.receiveMessage x.callee (.yield_ y)) = .ok (.reply ⟨.result r, x.caller⟩) ∧
      r.requestId = x.request ∧ r.args = y.args ∧ r.kwargs = y.kwargs ∧ PyDict.flag r.details "progress" = false) ∧
    ∀ z ∈ (view (trace (ops ++ sends x ms ++ [.receiveMessage x.callee (.yield_ y)]))).pending,
      ¬ (z.caller = x.caller ∧ z.request.val = x.request.val) := by
  obtain ⟨h1, h2, h3⟩ := parts_change_nothing ops hd x hx hn g hg ms hp
  have hd' : (view (trace (ops ++ sends x ms))).drawn < 2 ^ 53 := by rw [h2]; exact hd
  have hx' : x ∈ (view (trace (ops ++ sends x ms))).pending := by rw [h2]; exact hx
  obtain ⟨r, r1, r2, r3, r4⟩ := C32_result_routing_partial _ hd' x hx' h3 y hy
  obtain ⟨x', -, -, r', e', h5, -⟩ := C39_progressive_results _ hd' _ _ _ r1
  have hr : PyDict.flag r.details "progress" = false := by
    injection e' with e'; injection e' with e1 e2; injection e1 with e1; subst e1
    cases hb : PyDict.flag r.details "progress" with
    | false => rfl
    | true => rw [h5] at hb; rw [hf] at hb; exact absurd hb.1 (by simp)
  refine ⟨⟨r, r1, r2, r3, r4, hr⟩, fun z hz he => ?_⟩
  rw [trace_snoc, view_snoc] at hz
  rw [outcome] at r1; rw [r1] at hz
  simp only [View.next, hr, Bool.false_eq_true, if_false, List.mem_filter, decide_eq_true_eq, ne_eq] at hz
  have f1 := full_after x.caller _ hd' h3 x hx' rfl
  have f2 := full_after x.caller _ hd' h3 z hz.1 he.1
  rw [he.1, he.2, f1] at f2
  injection f2 with f2
  simp [hy, f2] at hz

/-- C99 is false, in every history: the last part of a call in progress, which is not marked `progress`, is made a new
invocation, with an id of its own. -/
theorem C99_last_part_false (ops : List Op) (hd : (view (trace ops)).drawn < 2 ^ 53) (x : Pending)
    (hx : x ∈ (view (trace ops)).pending) (m : Call) (hm : PyDict.flag m.options "progress" = false) (inv : Invocation) (c : Int)
    (h : outcome ops (.receiveMessage x.caller (.call m)) = .ok (.reply ⟨.invocation inv, c⟩)) : inv.requestId.val ≠ x.inv :=
  fun e => (C38_fresh_invocation_id ops hd x.caller m hm inv c h).2 x hx e.symm

/-- And what follows from it, in every history: a callee that answers first the invocation it knew and then the one the last part
was made loses the second answer — the dealer raises `KeyError` —, although both were addressed to it. -/
theorem C99_second_answer_lost (ops : List Op) (hd : (view (trace ops)).drawn < 2 ^ 53) (x : Pending)
    (hx : x ∈ (view (trace ops)).pending) (m : Call) (hm : PyDict.flag m.options "progress" = false)
    (hi : m.requestId.val = x.request.val) (inv : Invocation) (c : Int)
    (h : outcome ops (.receiveMessage x.caller (.call m)) = .ok (.reply ⟨.invocation inv, c⟩))
    (y y' : Yield) (hy : y.requestId.val = x.inv) (hf : PyDict.flag y.options "progress" = false)
    (hy' : y'.requestId.val = inv.requestId.val) (hf' : PyDict.flag y'.options "progress" = false) :
    (∃ r, outcome (ops ++ [.receiveMessage x.caller (.call m)]) (.receiveMessage x.callee (.yield_ y)) =
      .ok (.reply ⟨.result r, x.caller⟩)) ∧
    outcome (ops ++ [.receiveMessage x.caller (.call m), .receiveMessage x.callee (.yield_ y)]) (.receiveMessage c (.yield_ y')) =
      .error .keyError := by
  have hne := C99_last_part_false ops hd x hx m hm inv c h
  have hc := (rel_after ops hd).2
  obtain ⟨p, hp, hxe⟩ := hc.sup x hx
  obtain ⟨r, h1, h2, ⟨rfl, h3⟩ | ⟨h3, -⟩⟩ := call_cases hd h
  · have hcn := call_new (after ops) x.caller m r c h1 h2 h3
    have hid : (after ops).idgen.next.2 = ((view (trace ops)).drawn : Int) + 1 := by rw [hc.gen, idgen_next, draw_small hd]
    replace hne : ((view (trace ops)).drawn : Int) + 1 ≠ x.inv := hne
    replace hy' : y'.requestId.val = ((view (trace ops)).drawn : Int) + 1 := hy'
    have e1 : p.callerId = x.caller := by rw [hxe]; rfl
    have e2 : p.requestId = x.request := by rw [hxe]; rfl
    have e3 : p.calleeId = x.callee := by rw [hxe]; rfl
    have s1 := yield_final ((after ops).step (.receiveMessage x.caller (.call m))).1 x.callee y p
      (by rw [hcn]; simp only [Dict.get_set, hid, hy]; rw [if_neg hne]; exact hp) e3.symm (by rw [hf]; rfl)
      (((view (trace ops)).drawn : Int) + 1) (by rw [hcn]; simp only [Dict.get_set, hid, e1, e2, hi, if_true])
    have s2 := yield_keyError (((after ops).step (.receiveMessage x.caller (.call m))).1.step (.receiveMessage x.callee (.yield_ y))).1
      c y' (newEntry m x.caller c)
      (by rw [s1, hcn]; simp only [Dict.get_del, Dict.get_set, hid, hy, hy']; rw [if_neg (by first | exact hne | exact hne.symm)]; simp) rfl (by rw [hf']; rfl)
      (by rw [s1, hcn]; simp only [Dict.get_del, newEntry, e1, e2, hi, if_true])
    refine ⟨⟨_, by rw [outcome, after_snoc, s1, ← e1]⟩, ?_⟩
    have : ops ++ [.receiveMessage x.caller (.call m), .receiveMessage x.callee (.yield_ y)] =
        (ops ++ [.receiveMessage x.caller (.call m)]) ++ [.receiveMessage x.callee (.yield_ y)] := by simp
    rw [this, outcome, after_snoc, after_snoc, s2]
  · rw [hm] at h3; cases h3

/-! ## The hypotheses can be met -/

/-- Two further parts of the call of `progressive`. -/
example : Parts ⟨3, 1, .int 1, 2, false⟩ "p"
    [⟨.int 1, "p", some [.int 7], none, [(.str "progress", .bool true)], none, none, false⟩,
     ⟨.int 1, "p", some [.int 8], none, [(.str "progress", .bool true)], none, none, false⟩] := by
  intro m hm
  simp only [List.mem_cons, List.not_mem_nil, or_false] at hm
  rcases hm with rfl | rfl <;> exact ⟨rfl, rfl, rfl⟩

/-- The last part: invocation 4, while invocation 3 stays pending. -/
example : ∃ inv, outcome progressive (.receiveMessage 1 (.call ⟨.int 1, "p", some [.int 9], none, [], none, none, false⟩)) =
    .ok (.reply ⟨.invocation inv, 2⟩) ∧ inv.requestId = .int 4 := ⟨_, rfl, rfl⟩

end Wamp.Dealer
