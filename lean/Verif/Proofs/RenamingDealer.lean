import Verif.Proofs.Renaming
import Verif.Proofs.DealerInv

/-! # Renaming commutes with everything the dealer does -/

namespace Wamp.Dealer
open Wamp.Spec.Naming
variable {f : Int → Int} {g : String → String}

/-- A registration object by another name. -/
def Reg.rename (f : Int → Int) (g : String → String) (o : Registration) : Registration :=
  ⟨o.id, g o.procedure, o.registrants.mapKV f f⟩

/-- A pending invocation by another name. -/
def Pen.rename (f : Int → Int) (p : PendingInvocation) : PendingInvocation :=
  { p with callerId := f p.callerId, calleeId := f p.calleeId }

/-- The key of a call by another name. -/
def callKey (f : Int → Int) (k : Int × Int) : Int × Int := (f k.1, k.2)

theorem callKey_inj (hf : OneToOne f) : OneToOne (callKey f) := by
  rintro ⟨a, b⟩ ⟨c, d⟩ h
  simp only [callKey, Prod.mk.injEq] at h
  rw [hf _ _ h.1, h.2]

/-- Two dealers that differ in names only. -/
structure Renamed (f : Int → Int) (g : String → String) (b b' : Dealer) : Prop where
  next : b'.nextRef = b.nextRef
  heap : ∀ r, r < b.nextRef → b'.heap r = Reg.rename f g (b.heap r)
  proc : b'.registrationsByProcedure = b.registrationsByProcedure.mapKV g id
  ses : b'.registrationsBySession = b.registrationsBySession.mapKV f id
  pending : b'.pendingCalls = b.pendingCalls.mapKV id (Pen.rename f)
  calls : b'.callToInvocationId = b.callToInvocationId.mapKV (callKey f) id
  sessions : b'.sessions = b.sessions.mapKV f (details f)
  idgen : b'.idgen = b.idgen
  okProc : ∀ t r, b.registrationsByProcedure.get t = some r → r < b.nextRef
  okSes : ∀ s d, b.registrationsBySession.get s = some d → ∀ i r, d.get i = some r → r < b.nextRef
  wfSes : ∀ s d, b.registrationsBySession.get s = some d → d.Wf

theorem renamed_init : Renamed f g init init := by
  refine ⟨rfl, ?_, rfl, rfl, rfl, rfl, rfl, rfl, ?_, ?_, ?_⟩ <;> simp [init]

variable {b b' : Dealer}

theorem Renamed.getProc (h : Renamed f g b b') (hg : OneToOne g) (t : String) :
    b'.registrationsByProcedure.get (g t) = b.registrationsByProcedure.get t := by
  rw [h.proc, Dict.get_mapKV hg]; simp
theorem Renamed.getSes (h : Renamed f g b b') (hf : OneToOne f) (s : Int) :
    b'.registrationsBySession.get (f s) = b.registrationsBySession.get s := by
  rw [h.ses, Dict.get_mapKV hf]; simp
theorem Renamed.getPending (h : Renamed f g b b') (i : Int) :
    b'.pendingCalls.get i = (b.pendingCalls.get i).map (Pen.rename f) := by
  rw [h.pending]; exact Dict.get_mapKV (f := id) (fun _ _ e => e) _ i
theorem Renamed.getCall (h : Renamed f g b b') (hf : OneToOne f) (s : Int) (i : Int) :
    b'.callToInvocationId.get (f s, i) = b.callToInvocationId.get (s, i) := by
  rw [h.calls, show (f s, i) = callKey f (s, i) from rfl, Dict.get_mapKV (callKey_inj hf)]; simp

theorem Renamed.write (h : Renamed f g b b') (r : Ref) (o : Registration) :
    Renamed f g (b.write r o) (b'.write r (Reg.rename f g o)) := by
  refine ⟨h.next, ?_, h.proc, h.ses, h.pending, h.calls, h.sessions, h.idgen, h.okProc, h.okSes, h.wfSes⟩
  intro r' hr'
  simp only [Dealer.write]
  split
  · rfl
  · exact h.heap r' hr'

theorem Renamed.delProc (h : Renamed f g b b') (hg : OneToOne g) (t : String) :
    Renamed f g { b with registrationsByProcedure := b.registrationsByProcedure.del t }
      { b' with registrationsByProcedure := b'.registrationsByProcedure.del (g t) } := by
  refine ⟨h.next, h.heap, ?_, h.ses, h.pending, h.calls, h.sessions, h.idgen, ?_, h.okSes, h.wfSes⟩
  · simp only [h.proc, Dict.del_mapKV hg]
  · intro t' r hr
    simp only [Dict.get_del] at hr
    split at hr
    · cases hr
    · exact h.okProc _ _ hr

theorem Renamed.setSes (h : Renamed f g b b') (hf : OneToOne f) (s : Int) (d : Dict Int Ref) (hd : d.Wf)
    (hr : ∀ i r, d.get i = some r → r < b.nextRef) :
    Renamed f g { b with registrationsBySession := b.registrationsBySession.set s d }
      { b' with registrationsBySession := b'.registrationsBySession.set (f s) d } := by
  refine ⟨h.next, h.heap, h.proc, ?_, h.pending, h.calls, h.sessions, h.idgen, h.okProc, ?_, ?_⟩
  · simp only [h.ses]; exact Dict.set_mapKV (h := id) hf _ s d
  · intro s' d' hd'
    simp only [Dict.get_set] at hd'
    split at hd'
    · cases hd'; exact hr
    · exact h.okSes _ _ hd'
  · intro s' d' hd'
    simp only [Dict.get_set] at hd'
    split at hd'
    · cases hd'; exact hd
    · exact h.wfSes _ _ hd'

theorem Renamed.delSes (h : Renamed f g b b') (hf : OneToOne f) (s : Int) :
    Renamed f g { b with registrationsBySession := b.registrationsBySession.del s }
      { b' with registrationsBySession := b'.registrationsBySession.del (f s) } := by
  refine ⟨h.next, h.heap, h.proc, ?_, h.pending, h.calls, h.sessions, h.idgen, h.okProc, ?_, ?_⟩
  · simp only [h.ses, Dict.del_mapKV hf]
  · intro s' d' hd'
    simp only [Dict.get_del] at hd'
    split at hd'
    · cases hd'
    · exact h.okSes _ _ hd'
  · intro s' d' hd'
    simp only [Dict.get_del] at hd'
    split at hd'
    · cases hd'
    · exact h.wfSes _ _ hd'

/-- Only the bookkeeping of calls and the generator change. -/
theorem Renamed.withCalls (h : Renamed f g b b') {p p' : Dict Int PendingInvocation} {c c' : Dict (Int × Int) Int} {i i' : IdGen}
    (hp : p' = p.mapKV id (Pen.rename f)) (hc : c' = c.mapKV (callKey f) id) (hi : i' = i) :
    Renamed f g { b with pendingCalls := p, callToInvocationId := c, idgen := i }
      { b' with pendingCalls := p', callToInvocationId := c', idgen := i' } :=
  ⟨h.next, h.heap, h.proc, h.ses, hp, hc, h.sessions, hi, h.okProc, h.okSes, h.wfSes⟩

theorem contains_reg (hf : OneToOne f) (o : Registration) (s : Int) :
    (Reg.rename f g o).registrants.contains (f s) = o.registrants.contains s := Dict.contains_mapKV hf _ _

theorem renamed_removeLoop (hf : OneToOne f) (hg : OneToOne g) (s : Int) (l : List (Int × Ref)) :
    ∀ b b' : Dealer, Renamed f g b b' → (∀ x ∈ l, x.2 < b.nextRef) →
      Renamed f g (b.removeLoop s l).1 (b'.removeLoop (f s) l).1 ∧
      (b'.removeLoop (f s) l).2 = (b.removeLoop s l).2 := by
  induction l with
  | nil => intro b b' h _; exact ⟨h, rfl⟩
  | cons x l ih =>
    obtain ⟨i, sub⟩ := x
    intro b b' h hl
    have hs : sub < b.nextRef := hl (i, sub) (by simp)
    have ht : (b'.heap sub).procedure = g (b.heap sub).procedure := by rw [h.heap sub hs]; rfl
    simp only [removeLoop, ht, h.getProc hg]
    cases hr : b.registrationsByProcedure.get (b.heap sub).procedure with
    | none => exact ⟨h, rfl⟩
    | some r =>
      have hrn := h.okProc _ _ hr
      have ho : (if (b'.heap r).registrants.contains (f s) = true then
            { b'.heap r with registrants := (b'.heap r).registrants.del (f s) } else b'.heap r) =
          Reg.rename f g (if (b.heap r).registrants.contains s = true then
            { b.heap r with registrants := (b.heap r).registrants.del s } else b.heap r) := by
        rw [h.heap r hrn, contains_reg hf]
        split
        · simp only [Reg.rename, Dict.del_mapKV hf]
        · rfl
      simp only [ho]
      generalize (if (b.heap r).registrants.contains s = true then
            { b.heap r with registrants := (b.heap r).registrants.del s } else b.heap r) = o
      have hw := h.write r o
      have hz : (Reg.rename f g o).registrants.size = o.registrants.size := Dict.size_mapKV _
      have hc : (b'.write r (Reg.rename f g o)).registrationsByProcedure.contains (Reg.rename f g o).procedure =
          (b.write r o).registrationsByProcedure.contains o.procedure := by
        rw [hw.proc]; exact Dict.contains_mapKV hg _ _
      rw [hz, hc]
      split
      · exact ⟨hw, rfl⟩
      · split
        · exact ih _ _ (hw.delProc hg o.procedure) (fun x hx => hl x (List.mem_cons_of_mem _ hx))
        · exact ih _ _ hw (fun x hx => hl x (List.mem_cons_of_mem _ hx))

theorem renamed_removeSession (hf : OneToOne f) (hg : OneToOne g) (h : Renamed f g b b') (s : Int) :
    Renamed f g (b.removeSession s).1 (b'.removeSession (f s)).1 ∧ (b'.removeSession (f s)).2 = (b.removeSession s).2 := by
  simp only [removeSession, h.getSes hf]
  cases hd : b.registrationsBySession.get s with
  | none => exact ⟨h, rfl⟩
  | some d =>
    have hw := h.wfSes s d hd
    obtain ⟨h1, h2⟩ := renamed_removeLoop hf hg s d.items _ _ (h.delSes hf s)
      (fun x hx => h.okSes s d hd x.1 x.2 (hw.mem_items.1 hx))
    simp only
    generalize ({ b with registrationsBySession := b.registrationsBySession.del s } : Dealer).removeLoop s d.items = q at h1 h2
    generalize ({ b' with registrationsBySession := b'.registrationsBySession.del (f s) } : Dealer).removeLoop (f s) d.items = q' at h1 h2
    obtain ⟨b1, r1⟩ := q
    obtain ⟨b2, r2⟩ := q'
    simp only at h1 h2
    subst h2
    cases r2 with
    | error e => exact ⟨h1, rfl⟩
    | ok u =>
      simp only [h1.sessions, Dict.contains_mapKV hf]
      split
      · refine ⟨⟨h1.next, h1.heap, h1.proc, h1.ses, h1.pending, h1.calls, ?_, h1.idgen, h1.okProc, h1.okSes, h1.wfSes⟩, rfl⟩
        simp only [Dict.del_mapKV hf]
      · exact ⟨h1, rfl⟩

theorem renamed_addSession (hf : OneToOne f) (h : Renamed f g b b') (d : SessionDetails) :
    Renamed f g (b.addSession d).1 (b'.addSession (details f d)).1 ∧ (b'.addSession (details f d)).2 = (b.addSession d).2 := by
  have hk : (details f d).sessionId.val = f d.sessionId.val := rfl
  have hc : b'.registrationsBySession.contains (f d.sessionId.val) = b.registrationsBySession.contains d.sessionId.val := by
    rw [h.ses, Dict.contains_mapKV hf]
  simp only [addSession, hk, hc]
  split
  · exact ⟨h, rfl⟩
  · have h1 := h.setSes hf d.sessionId.val .empty Dict.wf_empty (by simp)
    refine ⟨⟨h1.next, h1.heap, h1.proc, h1.ses, h1.pending, h1.calls, ?_, h1.idgen, h1.okProc, h1.okSes, h1.wfSes⟩, rfl⟩
    simp only [h.sessions, Dict.set_mapKV hf]

theorem first_rename {o : Registration} {s : Int} (h : o.registrants = one s) :
    firstRegistrant (Reg.rename f g o) = f (firstRegistrant o) := by
  cases o; simp only at h; subst h; rfl

theorem renamed_call (hf : OneToOne f) (hg : OneToOne g) (hb : b.Wf) (h : Renamed f g b b') (s : Int) (m : Call) :
    Renamed f g (b.receiveCall s m).1 (b'.receiveCall (f s) { m with procedure := g m.procedure }).1 ∧
    Alike (sent f) (b.receiveCall s m).2 (b'.receiveCall (f s) { m with procedure := g m.procedure }).2 := by
  have hopt : ({ m with procedure := g m.procedure } : Call).options = m.options := rfl
  simp only [receiveCall, h.getProc hg, hopt]
  cases hp : b.registrationsByProcedure.get m.procedure with
  | none => exact ⟨h, rfl⟩
  | some r =>
    obtain ⟨-, ⟨c, hc⟩, hr⟩ := hb.proc _ _ hp
    have hfr : firstRegistrant (b'.heap r) = f (firstRegistrant (b.heap r)) := by rw [h.heap r hr, first_rename hc]
    have hid : (b'.heap r).id = (b.heap r).id := by rw [h.heap r hr]; rfl
    simp only [hfr, hid, h.getCall hf, h.idgen]
    generalize (PyDict.get? m.options OPTION_PROGRESS).getD (.bool false) = pg
    generalize (PyDict.get? m.options OPTION_RECEIVE_PROGRESS).getD (.bool false) = rp
    have new : Renamed f g
        (({ b with idgen := b.idgen.next.1 } : Dealer).addCall m.requestId b.idgen.next.2 s (firstRegistrant (b.heap r)) pg rp)
        (({ b' with idgen := b.idgen.next.1 } : Dealer).addCall m.requestId b.idgen.next.2 (f s) (f (firstRegistrant (b.heap r))) pg rp) := by
      refine ⟨h.next, h.heap, h.proc, h.ses, ?_, ?_, h.sessions, rfl, h.okProc, h.okSes, h.wfSes⟩
      · simp only [addCall, h.pending]
        exact Dict.set_mapKV (f := id) (h := Pen.rename f) (fun _ _ e => e) _ b.idgen.next.2 ⟨m.requestId, s, firstRegistrant (b.heap r), pg, rp⟩
      · simp only [addCall, h.calls]
        exact Dict.set_mapKV (h := id) (callKey_inj hf) _ (s, m.requestId.val) _
    cases pg.truthy with
    | false => exact ⟨new, rfl⟩
    | true =>
      simp only [if_true]
      cases hi : b.callToInvocationId.get (s, m.requestId.val) with
      | some i => exact ⟨h, rfl⟩
      | none => exact ⟨new, rfl⟩

theorem renamed_yield (hf : OneToOne f) (h : Renamed f g b b') (s : Int) (m : Yield) :
    Renamed f g (b.receiveYield s m).1 (b'.receiveYield (f s) m).1 ∧
    Alike (sent f) (b.receiveYield s m).2 (b'.receiveYield (f s) m).2 := by
  simp only [receiveYield, h.getPending]
  cases hp : b.pendingCalls.get m.requestId.val with
  | none => exact ⟨h, .inr ⟨_, _, rfl, rfl⟩⟩
  | some p =>
    have hce : (Pen.rename f p).calleeId = f p.calleeId := rfl
    have hca : (Pen.rename f p).callerId = f p.callerId := rfl
    have hrq : (Pen.rename f p).requestId = p.requestId := rfl
    have hrp : (Pen.rename f p).receiveProgress = p.receiveProgress := rfl
    simp only [Option.map_some, hce, hca, hrq, hrp]
    by_cases hs : s = p.calleeId
    · subst hs
      simp only [ne_eq, not_true_eq_false, if_false]
      split
      · exact ⟨h, rfl⟩
      · have hc : b'.callToInvocationId.contains (f p.callerId, p.requestId.val) =
            b.callToInvocationId.contains (p.callerId, p.requestId.val) := by
          simp only [Dict.contains, h.getCall hf]
        have hdp : b'.pendingCalls.del m.requestId.val = (b.pendingCalls.del m.requestId.val).mapKV id (Pen.rename f) := by
          rw [h.pending]; exact Dict.del_mapKV (f := id) (fun _ _ e => e) _ m.requestId.val
        have hdc : b'.callToInvocationId.del (f p.callerId, p.requestId.val) =
            (b.callToInvocationId.del (p.callerId, p.requestId.val)).mapKV (callKey f) id := by
          rw [h.calls]; exact Dict.del_mapKV (callKey_inj hf) _ (p.callerId, p.requestId.val)
        simp only [hc]
        split
        · exact ⟨h.withCalls hdp hdc h.idgen, rfl⟩
        · exact ⟨h.withCalls hdp h.calls h.idgen, .inl rfl⟩
    · rw [if_pos hs, if_pos (fun e => hs (hf _ _ e))]
      exact ⟨h, .inr ⟨_, _, rfl, rfl⟩⟩

theorem renamed_register (hf : OneToOne f) (hg : OneToOne g) (h : Renamed f g b b') (s : Int) (m : Register) :
    Renamed f g (b.receiveRegister s m).1 (b'.receiveRegister (f s) { m with procedure := g m.procedure }).1 ∧
    Alike (sent f) (b.receiveRegister s m).2 (b'.receiveRegister (f s) { m with procedure := g m.procedure }).2 := by
  simp only [receiveRegister, h.getSes hf, h.getProc hg]
  cases hd : b.registrationsBySession.get s with
  | none => exact ⟨h, .inr ⟨_, _, rfl, rfl⟩⟩
  | some d =>
    simp only
    cases ht : b.registrationsByProcedure.get m.procedure with
    | some r => exact ⟨h, rfl⟩
    | none =>
      simp only [h.idgen, alloc, h.next]
      refine ⟨⟨rfl, ?_, ?_, ?_, h.pending, h.calls, h.sessions, rfl, ?_, ?_, ?_⟩, rfl⟩
      · intro r' hr'
        simp only at hr' ⊢
        split
        · simp only [Reg.rename, ← Dict.set_mapKV hf, Dict.mapKV_empty]
        · rename_i hne; exact h.heap r' (Nat.lt_of_le_of_ne (Nat.le_of_lt_succ hr') hne)
      · simp only [h.proc]; exact Dict.set_mapKV (h := id) hg _ m.procedure b.nextRef
      · simp only [h.ses]; exact Dict.set_mapKV (h := id) hf _ s _
      · intro t r' hr'
        simp only [Dict.get_set] at hr' ⊢
        split at hr'
        · cases hr'; exact Nat.lt_succ_self _
        · exact Nat.lt_succ_of_lt (h.okProc _ _ hr')
      · intro s' d' hd'
        simp only [Dict.get_set] at hd' ⊢
        intro i r' hi
        split at hd'
        · cases hd'
          simp only [Dict.get_set] at hi
          split at hi
          · cases hi; exact Nat.lt_succ_self _
          · exact Nat.lt_succ_of_lt (h.okSes s d hd _ _ hi)
        · exact Nat.lt_succ_of_lt (h.okSes _ _ hd' _ _ hi)
      · intro s' d' hd'
        simp only [Dict.get_set] at hd'
        split at hd'
        · cases hd'; exact (h.wfSes s d hd).set _ _
        · exact h.wfSes _ _ hd'

theorem renamed_unregister (hf : OneToOne f) (hg : OneToOne g) (h : Renamed f g b b') (s : Int) (m : Unregister) :
    Renamed f g (b.receiveUnregister s m).1 (b'.receiveUnregister (f s) m).1 ∧
    Alike (sent f) (b.receiveUnregister s m).2 (b'.receiveUnregister (f s) m).2 := by
  simp only [receiveUnregister, h.getSes hf]
  cases hd : b.registrationsBySession.get s with
  | none => exact ⟨h, .inr ⟨_, _, rfl, rfl⟩⟩
  | some d =>
    simp only
    cases hi : d.get m.registrationId.val with
    | none => exact ⟨h, .inr ⟨_, _, rfl, rfl⟩⟩
    | some r =>
      have hr := h.okSes s d hd _ _ hi
      have ho : (⟨(b'.heap r).id, g (b.heap r).procedure, (b'.heap r).registrants.del (f s)⟩ : Registration) =
          Reg.rename f g { b.heap r with registrants := (b.heap r).registrants.del s } := by
        rw [h.heap r hr]; simp only [Reg.rename, Dict.del_mapKV hf]
      have hc0 : (b'.heap r).registrants.contains (f s) = (b.heap r).registrants.contains s := by
        rw [h.heap r hr, contains_reg hf]
      have hz : ((b'.heap r).registrants.del (f s)).size = ((b.heap r).registrants.del s).size := by
        rw [h.heap r hr]; simp only [Reg.rename, Dict.del_mapKV hf, Dict.size_mapKV]
      have ht : (b'.heap r).procedure = g (b.heap r).procedure := by rw [h.heap r hr]; rfl
      simp only [ho, hc0, hz, ht]
      split
      · have hw := h.write r { b.heap r with registrants := (b.heap r).registrants.del s }
        generalize ({ b.heap r with registrants := (b.heap r).registrants.del s } : Registration) = o at hw ⊢
        have hdel : ∀ i r', (d.del m.registrationId.val).get i = some r' → r' < b.nextRef := by
          intro i r' hi'
          simp only [Dict.get_del] at hi'
          split at hi'
          · cases hi'
          · exact h.okSes s d hd _ _ hi'
        split
        · have hw2 := hw.setSes hf s _ ((h.wfSes s d hd).del m.registrationId.val) hdel
          have hc : (b'.write r (Reg.rename f g o)).registrationsByProcedure.contains (g (b.heap r).procedure) =
              (b.write r o).registrationsByProcedure.contains (b.heap r).procedure := by
            rw [hw.proc]; exact Dict.contains_mapKV hg _ _
          rw [hc]
          split
          · exact ⟨hw2.delProc hg _, rfl⟩
          · exact ⟨hw2, .inl rfl⟩
        · exact ⟨hw, rfl⟩
      · exact ⟨h, .inr ⟨_, _, rfl, rfl⟩⟩

theorem renamed_error (h : Renamed f g b b') (m : ErrorMsg) :
    Renamed f g (b.receiveError m).1 (b'.receiveError m).1 ∧ Alike (sent f) (b.receiveError m).2 (b'.receiveError m).2 := by
  simp only [receiveError, h.getPending]
  split
  · exact ⟨h, .inl rfl⟩
  · cases hp : b.pendingCalls.get m.requestId.val with
    | none => exact ⟨h, .inl rfl⟩
    | some p =>
      refine ⟨⟨h.next, h.heap, h.proc, h.ses, ?_, h.calls, h.sessions, h.idgen, h.okProc, h.okSes, h.wfSes⟩, rfl⟩
      simp only [h.pending]; exact Dict.del_mapKV (f := id) (fun _ _ e => e) _ m.requestId.val

theorem renamed_step (hf : OneToOne f) (hg : OneToOne g) (hb : b.Wf) (h : Renamed f g b b') (op : Op) :
    Renamed f g (b.step op).1 (b'.step (rpcOp f g op)).1 ∧ Alike (rpcOut f) (b.step op).2 (b'.step (rpcOp f g op)).2 := by
  cases op with
  | addSession d =>
    obtain ⟨h1, h2⟩ := renamed_addSession hf h d
    refine ⟨h1, ?_⟩
    simp only [step, rpcOp, h2]
    cases (b.addSession d).2 <;> simp [Alike, Except.map, rpcOut]
  | removeSession s =>
    obtain ⟨h1, h2⟩ := renamed_removeSession hf hg h s
    refine ⟨h1, ?_⟩
    simp only [step, rpcOp, h2]
    cases (b.removeSession s).2 <;> simp [Alike, Except.map, rpcOut]
  | hasRegistration t =>
    refine ⟨h, ?_⟩
    simp [step, rpcOp, hasRegistration, h.proc, Dict.contains_mapKV hg, Alike, rpcOut]
  | receiveMessage s m =>
    have key : Renamed f g (b.receiveMessage s m).1 (b'.receiveMessage (f s) (message g m)).1 ∧
        Alike (sent f) (b.receiveMessage s m).2 (b'.receiveMessage (f s) (message g m)).2 := by
      cases m <;> first
        | exact renamed_call hf hg hb h s _
        | exact renamed_yield hf h s _
        | exact renamed_register hf hg h s _
        | exact renamed_unregister hf hg h s _
        | exact renamed_error h _
        | exact ⟨h, .inl rfl⟩
    refine ⟨key.1, ?_⟩
    have h2 := key.2
    simp only [step, rpcOp]
    revert h2
    cases (b.receiveMessage s m).2 <;> cases (b'.receiveMessage (f s) (message g m)).2 <;>
      simp [Alike, Except.map, rpcOut]

theorem renamed_runFrom (hf : OneToOne f) (hg : OneToOne g) (ops : List Op) : ∀ b b' : Dealer, b.Wf → Renamed f g b b' →
    Renamed f g (b.runFrom ops).1 (b'.runFrom (ops.map (rpcOp f g))).1 := by
  induction ops with
  | nil => intro b b' _ h; exact h
  | cons op ops ih => intro b b' hb h; exact ih _ _ (wf_step b hb op) (renamed_step hf hg hb h op).1

end Wamp.Dealer
