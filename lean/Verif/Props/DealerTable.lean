import Verif.Spec.DealerTable
import Verif.Props.Dealer

/-! # The dealer is a table: C80 -/

namespace Wamp.Dealer
open Spec.Rpc

/-- What is left of an outcome when texts of exceptions are ignored; `none` for exceptions the table does not know. -/
def graded : Except Exc Out → Option (Except Failure Out)
  | .ok o => some (.ok o)
  | .error (.valueError _) => some (.error .valueError)
  | .error .keyError => some (.error .keyError)
  | .error _ => none

/-- The table after a sequence of calls. -/
def tableAfter (ops : List Op) : Table := ops.foldl (fun t op => (t.step op).1) {}

/-- The table describes the dealer and its history. -/
structure Sim (b : Dealer) (v : View) (t : Table) : Prop where
  known : t.known = v.known
  held : t.held = v.held
  pending : t.pending = v.pending
  next : t.next = v.drawn + 1
  marks : ∀ c q, (t.mark c q).map (·.inv) = b.callToInvocationId.get (c, q)

theorem find_pending {b : Dealer} {v : View} (hc : CallRel b v) (i : Int) :
    v.pending.find? (·.inv = i) = (b.pendingCalls.get i).map (entry i) := by
  cases hp : b.pendingCalls.get i with
  | none =>
    rw [Option.map_none, List.find?_eq_none]
    intro x hx h
    have h' : x.inv = i := by simpa using h
    obtain ⟨p, k1, -⟩ := hc.sup x hx
    rw [h', hp] at k1; cases k1
  | some p =>
    have hm := hc.pend i p hp
    cases hf : v.pending.find? (·.inv = i) with
    | none =>
      rw [List.find?_eq_none] at hf
      exact absurd (by simp [entry]) (hf _ hm)
    | some x =>
      have hx := List.mem_of_find?_eq_some hf
      have hi : x.inv = i := by simpa using List.find?_some hf
      rw [hc.inj x (hc.sub x hx) (entry i p) (hc.sub _ hm) hi]; rfl

theorem find_held {b : Dealer} {v : View} (hr : RegRel b v) (hw : b.Wf) (p : String) :
    (b.registrationsByProcedure.get p = none ∧ v.held.find? (·.procedure = p) = none ∧ v.held.any (·.procedure = p) = false) ∨
    ∃ r x, b.registrationsByProcedure.get p = some r ∧ v.held.find? (·.procedure = p) = some x ∧
      v.held.any (·.procedure = p) = true ∧ (b.heap r).registrants = one x.session ∧ (b.heap r).id = x.id := by
  cases hp : b.registrationsByProcedure.get p with
  | none =>
    refine .inl ⟨rfl, ?_⟩
    have : ∀ x ∈ v.held, x.procedure ≠ p := by
      rintro ⟨s, p', i⟩ hx rfl
      obtain ⟨r, e1, -⟩ := (hr.held _ _ _).1 hx
      rw [hp] at e1; cases e1
    rw [List.find?_eq_none, List.any_eq_false]
    exact ⟨fun x hx => by simpa using this x hx, fun x hx => by simpa using this x hx⟩
  | some r =>
    refine .inr ⟨r, ?_⟩
    obtain ⟨-, ⟨c, hc⟩, -⟩ := hw.proc _ _ hp
    have hm : (⟨c, p, (b.heap r).id⟩ : Reg) ∈ v.held := (hr.held _ _ _).2 ⟨r, hp, hc, rfl⟩
    have ha : v.held.any (·.procedure = p) = true := List.any_eq_true.2 ⟨_, hm, by simp⟩
    cases hf : v.held.find? (·.procedure = p) with
    | none => rw [List.find?_eq_none] at hf; exact absurd (by simp) (hf _ hm)
    | some x =>
      have hx := List.mem_of_find?_eq_some hf
      have hxp : x.procedure = p := by simpa using List.find?_some hf
      obtain ⟨s, p', i⟩ := x
      simp only at hxp; subst hxp
      obtain ⟨r', e1, e2, e3⟩ := (hr.held _ _ _).1 hx
      rw [hp] at e1; cases e1
      exact ⟨_, rfl, rfl, ha, e2, e3⟩

theorem find_unmark (l : List Mark) (c q c' q' : Int) :
    (l.filter fun x => ¬ (x.caller = c ∧ x.request = q)).find? (fun x => x.caller = c' ∧ x.request = q') =
      if (c, q) = (c', q') then none else l.find? fun x => x.caller = c' ∧ x.request = q' := by
  induction l with
  | nil => simp
  | cons x l ih =>
    rw [List.filter_cons]
    by_cases h1 : x.caller = c ∧ x.request = q
    · rw [if_neg (by simp [h1]), ih]
      obtain ⟨rfl, rfl⟩ := h1
      split
      · rfl
      · rename_i h
        rw [List.find?_cons_of_neg (by simpa using h)]
    · rw [if_pos (decide_eq_true h1)]
      by_cases h2 : x.caller = c' ∧ x.request = q'
      · rw [List.find?_cons_of_pos (by simpa using h2), List.find?_cons_of_pos (by simpa using h2)]
        obtain ⟨rfl, rfl⟩ := h2
        rw [if_neg (by rintro ⟨⟩; exact h1 ⟨rfl, rfl⟩)]
      · rw [List.find?_cons_of_neg (by simpa using h2), List.find?_cons_of_neg (by simpa using h2), ih]

theorem invocationFor_eq (m : Call) (i rid : Int) : Message.invocation (invocationFor m i rid) = invocation m i rid := by
  unfold invocation invocationFor callDetails flagged
  cases PyDict.flag m.options "receive_progress" <;> cases PyDict.flag m.options "progress" <;> rfl

theorem sim_step {b : Dealer} {v : View} {t : Table} (hw : b.Wf) (hr : RegRel b v) (hc : CallRel b v) (hd : v.drawn < 2 ^ 53)
    (hs : Sim b v t) (op : Op) :
    graded (b.step op).2 = some (t.step op).2 ∧ Sim (b.step op).1 (v.next (op, (b.step op).2)) (t.step op).1 := by
  have hn : b.idgen.next = (IdGen.after (v.drawn + 1), (v.drawn : Int) + 1) := by
    rw [hc.gen, idgen_next, draw_small hd]
  have hsame : ∀ msg, Sim b (v.next (op, .error (.valueError msg))) t := by intro msg; rw [next_error]; exact hs
  obtain ⟨known, held, pending, marks, next⟩ := t
  obtain ⟨k1, k2, k3, k4, k5⟩ := hs
  simp only at k1 k2 k3 k4
  subst k1 k2 k3 k4
  cases op with
  | addSession d =>
    have hk := hr.known d.sessionId.val
    simp only [Table.step]
    cases h : b.registrationsBySession.get d.sessionId.val with
    | none =>
      have e : b.step (.addSession d) = ({ b with
        registrationsBySession := b.registrationsBySession.set d.sessionId.val .empty
        sessions := b.sessions.set d.sessionId.val d }, .ok .unit) := by
        simp only [step, addSession, Dict.contains, h]; rfl
      rw [e, if_neg (by rw [hk, h]; simp)]
      exact ⟨rfl, rfl, rfl, rfl, rfl, k5⟩
    | some x =>
      have e : b.step (.addSession d) = (b, .error (.valueError "cannot add session twice")) := by
        simp only [step, addSession, Dict.contains, h]; rfl
      rw [e, if_pos (hk.2 ⟨_, h⟩)]
      exact ⟨rfl, hsame _⟩
  | removeSession s =>
    have hk := hr.known s
    simp only [Table.step]
    cases h : b.registrationsBySession.get s with
    | none =>
      have e : b.step (.removeSession s) = (b, .error (.valueError "cannot remove non-existing session")) := by
        simp only [step, removeSession, h]; rfl
      rw [e, if_neg (by rw [hk, h]; simp)]
      exact ⟨rfl, hsame _⟩
    | some d =>
      obtain ⟨b', e1, e2⟩ := removeSession_ok b hw s d h
      have e : b.step (.removeSession s) = (b', .ok .unit) := by simp only [step, e1]; rfl
      rw [e, if_pos (hk.2 ⟨_, h⟩)]
      refine ⟨rfl, rfl, rfl, rfl, rfl, ?_⟩
      rw [e2.2.2.1.2.1]; exact k5
  | hasRegistration p =>
    refine ⟨?_, rfl, rfl, rfl, rfl, k5⟩
    simp only [step, hasRegistration, Dict.contains, Table.step, graded]
    rcases find_held hr hw p with ⟨h1, -, h2⟩ | ⟨r, x, h1, -, h2, -⟩ <;> rw [h1, h2] <;> rfl
  | receiveMessage s m =>
    cases m with
    | register m =>
      have hk := hr.known s
      simp only [Table.step]
      cases h : b.registrationsBySession.get s with
      | none =>
        have e : b.step (.receiveMessage s (.register m)) =
            (b, .error (.valueError s!"cannot register, session {s} doesn't exist")) := by
          simp only [step, receiveMessage, receiveRegister, h]; rfl
        rw [e, if_neg (by rw [hk, h]; simp)]
        exact ⟨rfl, hsame _⟩
      | some d =>
        rw [if_pos (hk.2 ⟨_, h⟩)]
        rcases find_held hr hw m.procedure with ⟨h1, -, h2⟩ | ⟨r, x, h1, -, h2, -⟩
        · simp only [step, receiveMessage, register_new b s m d h h1, h2, hn]
          exact ⟨rfl, rfl, rfl, rfl, by simp [View.next]; rfl, k5⟩
        · simp only [step, receiveMessage, register_taken b s m d r h h1, h2]
          exact ⟨rfl, rfl, rfl, rfl, rfl, k5⟩
    | unregister m =>
      simp only [Table.step]
      have hno : (¬ ∃ x ∈ v.held, x.session = s ∧ x.id = m.registrationId.val) →
          ∃ msg, b.step (.receiveMessage s (.unregister m)) = (b, .error (.valueError msg)) := by
        intro hn
        cases h : b.registrationsBySession.get s with
        | none => exact ⟨_, by simp only [step, receiveMessage, receiveUnregister, h]; rfl⟩
        | some d =>
          cases h' : d.get m.registrationId.val with
          | none => exact ⟨_, by simp only [step, receiveMessage, receiveUnregister, h, h']; rfl⟩
          | some r =>
            obtain ⟨g1, g2, g3⟩ := (hw.ses s d h).2 _ _ h'
            exact absurd ⟨_, (hr.held s _ _).2 ⟨r, g3, g2, g1⟩, rfl, rfl⟩ hn
      by_cases hh : ∃ x ∈ v.held, x.session = s ∧ x.id = m.registrationId.val
      · rw [if_pos hh]
        obtain ⟨⟨s', p, i⟩, hx, e1, e2⟩ := hh
        simp only at e1 e2; subst e1 e2
        obtain ⟨r, j1, j2, j3⟩ := (hr.held _ _ _).1 hx
        obtain ⟨d, l1, l2⟩ := hr.dict _ _ _ j1 j2
        rw [j3] at l2
        simp only [step, receiveMessage, unregister_ok b hw s' m d r l1 l2]
        exact ⟨rfl, rfl, rfl, rfl, rfl, k5⟩
      · rw [if_neg hh]
        obtain ⟨msg, e⟩ := hno hh
        rw [e]; exact ⟨rfl, hsame _⟩
    | call m =>
      simp only [Table.step]
      rcases find_held hr hw m.procedure with ⟨h1, h2, -⟩ | ⟨r, x, h1, h2, -, h3, h4⟩
      · rw [call_none b s m h1, h2]
        exact ⟨rfl, rfl, rfl, rfl, rfl, k5⟩
      · have hm := k5 s m.requestId.val
        rw [h2]
        have hnew : ∀ x ∈ v.issued, x.inv ≠ (v.drawn : Int) + 1 := by intro x hx e; have := hc.range x hx; omega
        have key : (PyDict.flag m.options "progress" = false ∨ b.callToInvocationId.get (s, m.requestId.val) = none) →
            graded (b.step (.receiveMessage s (.call m))).2 =
              some (.ok (.reply ⟨invocation m (v.drawn + 1) x.id, x.session⟩)) ∧
            Sim (b.step (.receiveMessage s (.call m))).1
              (v.next (.receiveMessage s (.call m), (b.step (.receiveMessage s (.call m))).2))
              { known := v.known, held := v.held,
                pending := v.pending ++ [⟨v.drawn + 1, s, m.requestId, x.session, PyDict.flag m.options "receive_progress"⟩]
                marks := Table.unmark ⟨v.known, v.held, v.pending, marks, v.drawn + 1⟩ s m.requestId.val ++
                  [⟨s, m.requestId.val, v.drawn + 1⟩]
                next := v.drawn + 1 + 1 } := by
          intro hp
          rw [call_new b s m r x.session h1 h3 hp, hn, h4]
          refine ⟨by rw [← invocationFor_eq]; rfl, ?_⟩
          rw [next_call_new hnew]
          refine ⟨rfl, rfl, rfl, by simp, ?_⟩
          intro c q
          simp only [Table.mark, Table.unmark, List.find?_append, find_unmark, Dict.get_set]
          by_cases e : (s, m.requestId.val) = (c, q)
          · rw [if_pos e, if_pos e]; injection e with e1 e2; subst e1 e2
            simp
          · rw [if_neg e, if_neg e, ← k5 c q]
            have : ¬ (s = c ∧ m.requestId.val = q) := by rintro ⟨rfl, rfl⟩; exact e rfl
            rw [List.find?_cons_of_neg (by simpa using this)]
            simp [Table.mark]
        simp only
        cases hp : PyDict.flag m.options "progress" with
        | false => exact key (.inl hp)
        | true =>
          simp only [if_true]
          cases hk : Table.mark ⟨v.known, v.held, v.pending, marks, v.drawn + 1⟩ s m.requestId.val with
          | none => rw [hk] at hm; exact key (.inr hm.symm)
          | some k =>
            rw [hk] at hm
            rw [call_continue b s m r x.session k.inv h1 h3 hp hm.symm, h4]
            refine ⟨by simp only; rw [← invocationFor_eq]; rfl, ?_⟩
            obtain ⟨y, hy, e, -⟩ := hc.map _ _ hm.symm
            rw [next_call_old ⟨y, hy, e⟩]
            exact ⟨rfl, rfl, rfl, rfl, k5⟩
    | yield_ m =>
      simp only [Table.step, find_pending hc]
      cases hp : b.pendingCalls.get m.requestId.val with
      | none =>
        obtain ⟨msg, e⟩ := yield_rejected b s m (by intro p h; rw [hp] at h; cases h)
        rw [e]; exact ⟨rfl, hsame _⟩
      | some p =>
        simp only [Option.map_some]
        by_cases hs : s = p.calleeId
        · rw [if_neg (show ¬ s ≠ (entry m.requestId.val p).callee from fun h => h hs)]
          cases hf : (PyDict.flag m.options "progress" && p.receiveProgress.truthy) with
          | true =>
            rw [if_pos (show (PyDict.flag m.options "progress" && (entry m.requestId.val p).wantsProgress) = true from hf)]
            rw [Bool.and_eq_true] at hf
            rw [yield_progress b s m p hp hs hf.1 hf.2, next_yield_progress (by rw [flag_eq]; exact hf.1)]
            exact ⟨rfl, rfl, rfl, rfl, rfl, k5⟩
          | false =>
            rw [if_neg (show ¬ (PyDict.flag m.options "progress" && (entry m.requestId.val p).wantsProgress) = true by
              rw [show (entry m.requestId.val p).wantsProgress = p.receiveProgress.truthy from rfl, hf]; decide)]
            have hm := k5 p.callerId p.requestId.val
            simp only [entry]
            cases hk : Table.mark ⟨v.known, v.held, v.pending, marks, v.drawn + 1⟩ p.callerId p.requestId.val with
            | none =>
              rw [hk] at hm
              rw [yield_keyError b s m p hp hs hf hm.symm]
              exact ⟨rfl, rfl, rfl, rfl, rfl, k5⟩
            | some k =>
              rw [hk] at hm
              rw [yield_final b s m p hp hs hf k.inv hm.symm, next_yield_final]
              refine ⟨rfl, rfl, rfl, rfl, rfl, ?_⟩
              intro c q
              simp only [Table.mark, Table.unmark, find_unmark, Dict.get_del]
              by_cases e : (p.callerId, p.requestId.val) = (c, q)
              · rw [if_pos e, if_pos e]; rfl
              · rw [if_neg e, if_neg e, ← k5 c q]; rfl
        · rw [if_pos (show s ≠ (entry m.requestId.val p).callee from hs)]
          obtain ⟨msg, e⟩ := yield_rejected b s m (by intro q hq; rw [hp] at hq; cases hq; exact hs)
          rw [e]; exact ⟨rfl, hsame _⟩
    | error m =>
      simp only [Table.step, find_pending hc]
      by_cases ht : m.messageType.val = 68
      · rw [if_pos ht]
        cases hp : b.pendingCalls.get m.requestId.val with
        | none => obtain ⟨msg, e⟩ := error_rejected b s m (.inr hp); rw [e]; exact ⟨rfl, hsame _⟩
        | some p =>
          rw [error_accepted b s m p ht hp]
          exact ⟨rfl, rfl, rfl, rfl, rfl, k5⟩
      · rw [if_neg ht]
        obtain ⟨msg, e⟩ := error_rejected b s m (.inl ht); rw [e]; exact ⟨rfl, hsame _⟩
    | _ => exact ⟨rfl, hsame _⟩

theorem answers_append (ops : List Op) (op : Op) : ∀ t : Table, t.answers (ops ++ [op]) =
    t.answers ops ++ [((ops.foldl (fun t op => (t.step op).1) t).step op).2] := by
  induction ops with
  | nil => intro t; rfl
  | cons a ops ih => intro t; simp only [List.cons_append, Table.answers, ih, List.foldl_cons]

theorem sim_after (ops : List Op) : ops.length ≤ 2 ^ 53 → Sim (after ops) (view (trace ops)) (tableAfter ops) := by
  induction ops using snoc_induction with
  | nil => intro _; exact ⟨rfl, rfl, rfl, rfl, fun _ _ => rfl⟩
  | snoc ops op ih =>
    intro hl
    have h1 : ops.length + 1 ≤ 2 ^ 53 := by rw [List.length_append] at hl; exact hl
    have hd := C30_ids_not_exhausted ops (by omega)
    have hr := rel_after ops hd
    have : tableAfter (ops ++ [op]) = ((tableAfter ops).step op).1 := by simp [tableAfter, List.foldl_append]
    rw [this, trace_snoc, view_snoc, after_snoc]
    exact (sim_step (wf_after ops) hr.1 hr.2 hd (ih (by omega)) op).2

/-- The dealer answers every sequence of calls as the table does, as long as its ids last, up to the texts of
exceptions. -/
theorem C80_dealer_is_table (ops : List Op) (hl : ops.length ≤ 2 ^ 53) :
    (trace ops).map (·.1) = ops ∧ (trace ops).map (fun e => graded e.2) = (({} : Table).answers ops).map some := by
  induction ops using snoc_induction with
  | nil => exact ⟨rfl, rfl⟩
  | snoc ops op ih =>
    have h1 : ops.length + 1 ≤ 2 ^ 53 := by rw [List.length_append] at hl; exact hl
    obtain ⟨i1, i2⟩ := ih (by omega)
    rw [trace_snoc, List.map_append, List.map_append, i1, i2, answers_append, List.map_append]
    refine ⟨rfl, ?_⟩
    congr 1
    have hd := C30_ids_not_exhausted ops (by omega)
    have hr := rel_after ops hd
    have := (sim_step (wf_after ops) hr.1 hr.2 hd (sim_after ops (by omega)) op).1
    change [graded (outcome ops op)] = [some ((tableAfter ops).step op).2]
    rw [← this]; rfl

/-- The worked history of `Props/Dealer.lean`, continued by an ERROR that leaves a mark behind and by a reuse of a pending
request id that ends in `KeyError`. -/
def demoTable : List Op := demo ++
  [.receiveMessage 2 (.error ⟨.int 68, .int 5, "x", none, none, []⟩),
   .receiveMessage 3 (.call { requestId := .int 1, procedure := "q" }),
   .receiveMessage 2 (.yield_ { requestId := .int 7 }),
   .receiveMessage 2 (.yield_ { requestId := .int 6 })]

example : demoTable.length ≤ 2 ^ 53 ∧ (tableAfter demoTable).marks = [⟨1, 2, 5⟩] ∧
    (({} : Table).answers demoTable).getLast? = some (.error .keyError) ∧ (tableAfter demoTable).pending = [] := by decide

end Wamp.Dealer
