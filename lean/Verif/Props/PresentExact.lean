import Mathlib.Data.Finset.Card
import Verif.Props.Present

/-! # Exactly which dealers cannot be told apart: C128 -/

namespace Wamp.Spec.Present
open Wamp.Spec.Tenants
open Wamp.Spec.Naming (OneToOne)
open Wamp.Spec.Rpc (Table Reg Pending Mark Failure Current)
open Wamp.Dealer (Op Out tableAfter)

/-- Three calls do not tell the tables apart. -/
def Alike (ρ : Int → Int) (t t' : Table) : Prop :=
  ∀ later : List Op, later.length ≤ 3 → t'.answers (later.map (rpcIds ρ)) = (t.answers later).map (·.map (rpcOutIds ρ))

theorem alike_of_dealers {τ : Int → Int} {ops ops' : List Op} (hl : ops.length + 3 ≤ 2 ^ 53) (hl' : ops'.length + 3 ≤ 2 ^ 53)
    (h : Dealers τ ops ops') : ∃ ρ, OneToOne ρ ∧ Alike ρ (tableAfter ops) (tableAfter ops') := by
  obtain ⟨ρ, h1, -, -, -, h5⟩ := h
  refine ⟨ρ, h1, fun later h3 => ?_⟩
  have := h5 later (by rw [List.length_append]; omega) (by rw [List.length_append]; omega)
  rw [rpc_from ops' _ (by rw [List.length_append, List.length_map]; omega)] at this
  have e := congrArg (List.map (Option.map (Except.map (rpcOutIds ρ)))) (rpc_from ops later (by rw [List.length_append]; omega))
  rw [List.map_map, List.map_map] at e
  have e2 := this.trans e
  have e3 : (Option.map (Except.map (rpcOutIds ρ)) ∘ some : Except Failure Out → Option (Except Failure Out)) =
      some ∘ Except.map (rpcOutIds ρ) := rfl
  rw [e3, ← List.map_map] at e2
  exact List.map_injective_iff.2 (Option.some_injective _) e2

theorem Alike.one {ρ : Int → Int} {t t' : Table} (h : Alike ρ t t') (op : Op) :
    (t'.step (rpcIds ρ op)).2 = (t.step op).2.map (rpcOutIds ρ) := by
  have := h [op] (by simp)
  simpa [Table.answers] using this

theorem Alike.known {ρ : Int → Int} {t t' : Table} (h : Alike ρ t t') (s : Int) : s ∈ t.known ↔ s ∈ t'.known := by
  have := h.one (.addSession { sessionId := .int s, realm := "" })
  simp only [rpcIds, Table.step] at this
  change (if s ∈ t'.known then _ else _ : Table × Except Failure Out).2 = Except.map _ (if s ∈ t.known then _ else _ : Table × Except Failure Out).2 at this
  by_cases h1 : s ∈ t.known <;> by_cases h2 : s ∈ t'.known <;> simp [h1, h2, Except.map] at this ⊢

/-- Who is called -/
def calleeOf (t : Table) (p : String) : Option Int := (t.held.find? (·.procedure = p)).map (·.session)

theorem calleeOf_iff {t : Table} (ok : RpcOk t) (s : Int) (p : String) : calleeOf t p = some s ↔ ∃ i, (⟨s, p, i⟩ : Reg) ∈ t.held := by
  constructor
  · intro h
    obtain ⟨x, h1, rfl⟩ := Option.map_eq_some_iff.1 h
    have := List.find?_some h1
    simp only [decide_eq_true_eq] at this
    exact ⟨x.id, by rw [← this]; exact List.mem_of_find?_eq_some h1⟩
  · rintro ⟨i, hi⟩
    cases e : t.held.find? (·.procedure = p) with
    | none => exact absurd (List.find?_eq_none.1 e _ hi) (by simp)
    | some x =>
      have h1 := List.find?_some e
      simp only [decide_eq_true_eq] at h1
      rw [calleeOf, e, ok.procedure x (List.mem_of_find?_eq_some e) _ hi h1]; rfl

theorem Alike.callee {ρ : Int → Int} {t t' : Table} (h : Alike ρ t t') (p : String) : calleeOf t' p = calleeOf t p := by
  have := h.one (.receiveMessage 0 (.call { requestId := .int 1, procedure := p }))
  simp only [rpcIds, ids, Table.step] at this
  have hf : PyDict.flag (Call.options { requestId := .int 1, procedure := p }) "progress" = false := rfl
  simp only [hf, Bool.false_eq_true, if_false] at this
  unfold calleeOf
  cases e : t.held.find? (·.procedure = p) <;> cases e' : t'.held.find? (·.procedure = p) <;>
    simp only [e, e', Except.map, rpcOutIds, sent, ids, Rpc.invocation, Except.ok.injEq, Out.reply.injEq, MessageWithRecipient.mk.injEq,
      reduceCtorEq, false_and] at this <;> simp
  exact this.2

theorem find_pending {t : Table} (ok : RpcOk t) {x : Pending} (hx : x ∈ t.pending) : t.pending.find? (·.inv = x.inv) = some x := by
  cases e : t.pending.find? (·.inv = x.inv) with
  | none => exact absurd (List.find?_eq_none.1 e _ hx) (by simp)
  | some y =>
    have h1 := List.find?_some e
    simp only [decide_eq_true_eq] at h1
    rw [ok.inv y (List.mem_of_find?_eq_some e) x hx h1]

/-- A progressive result -/
def part (i : Int) : Yield := { requestId := .int i, options_ := [(.str "progress", .bool true)] }

theorem Alike.call {ρ : Int → Int} {t t' : Table} (ok : RpcOk t) (h : Alike ρ t t') (x : Pending) (hx : x ∈ t.pending) :
    renCall ρ x ∈ t'.pending := by
  have he := h.one (.receiveMessage 0 (.error { messageType := .int 68, requestId := .int x.inv, uri := "" }))
  have hy := h.one (.receiveMessage x.callee (.yield_ (part x.inv)))
  have hf := find_pending ok hx
  have hv : ∀ i, (PyInt.int i).val = i := fun _ => rfl
  have hpv : ∀ i, (part i).requestId.val = i := fun _ => rfl
  have hfl : ∀ i, PyDict.flag (part i).options "progress" = true := fun _ => rfl
  simp only [rpcIds, ids, Table.step, hv, if_true, hf] at he
  cases e : t'.pending.find? (·.inv = ρ x.inv) with
  | none => rw [e] at he; simp [Except.map] at he
  | some y =>
    rw [e] at he
    have hm := List.mem_of_find?_eq_some e
    have hi := List.find?_some e
    simp only [decide_eq_true_eq] at hi
    have h1 : y.request = x.request ∧ y.caller = x.caller := by
      simpa [Except.map, rpcOutIds, sent, ids, hv] using he
    have hp : ids ρ (.yield_ (part x.inv)) = .yield_ (part (ρ x.inv)) := rfl
    simp only [rpcIds, hp, Table.step] at hy
    simp only [hpv, hf, e, hfl, Bool.true_and, ne_eq, not_true, if_false] at hy
    by_cases hc : x.callee = y.callee
    · rw [if_neg (by simpa using hc)] at hy
      have hw : y.wantsProgress = x.wantsProgress := by
        cases hw1 : x.wantsProgress <;> cases hw2 : y.wantsProgress <;> try rfl
        · simp only [hw1, hw2] at hy
          cases hm1 : t.mark x.caller x.request.val <;> simp [hm1, Except.map, rpcOutIds, sent, ids] at hy
        · simp only [hw1, hw2] at hy
          cases hm1 : t'.mark y.caller y.request.val <;> simp [hm1, Except.map, rpcOutIds, sent, ids] at hy
      have : renCall ρ x = y := by
        cases x; cases y; simp only [renCall, Pending.mk.injEq] at *; exact ⟨hi.symm, h1.2.symm, h1.1.symm, hc, hw.symm⟩
      rw [this]; exact hm
    · rw [if_pos (by simpa using hc)] at hy
      exfalso
      cases hw1 : x.wantsProgress <;> simp only [hw1] at hy
      · cases hm1 : t.mark x.caller x.request.val <;> simp [hm1, Except.map] at hy
      · simp [Except.map] at hy

/-! What the marks are -/

/-- A CALL, the first part of one or a whole one -/
def ask (r : Int) (p : String) (first : Bool) : Call :=
  { requestId := .int r, procedure := p, options_ := if first then [(.str "progress", .bool true)] else [] }

theorem step_ask {t : Table} {p : String} {x : Reg} (hx : t.held.find? (·.procedure = p) = some x) (s r : Int) (first : Bool) :
    ∃ inv, (t.step (.receiveMessage s (.call (ask r p first)))).2 = .ok (.reply ⟨.invocation inv, x.session⟩) ∧
      inv.requestId = .int (((if first then t.mark s r else none).map (·.inv)).getD t.next) := by
  have hp : (ask r p first).procedure = p := rfl
  have hr : (ask r p first).requestId.val = r := rfl
  have hf : PyDict.flag (ask r p first).options "progress" = first := by cases first <;> rfl
  simp only [Table.step, hp, hx, hr, hf]
  cases e : (if first = true then t.mark s r else none) with
  | none => exact ⟨_, rfl, rfl⟩
  | some k => exact ⟨_, rfl, rfl⟩

/-- The id of the INVOCATION, here and there -/
theorem Alike.asked {ρ : Int → Int} {t t' u u' : Table} (h : Alike ρ t t') (pre : List Op) (hpre : pre.length ≤ 2)
    (hu : pre.foldl (fun t op => (t.step op).1) t = u) (hu' : (pre.map (rpcIds ρ)).foldl (fun t op => (t.step op).1) t' = u')
    {p : String} {x x' : Reg} (hx : u.held.find? (·.procedure = p) = some x) (hx' : u'.held.find? (·.procedure = p) = some x')
    (s r : Int) (first : Bool) :
    ((if first then u'.mark s r else none).map (·.inv)).getD u'.next =
      ρ (((if first then u.mark s r else none).map (·.inv)).getD u.next) := by
  have := h (pre ++ [.receiveMessage s (.call (ask r p first))]) (by rw [List.length_append]; simp; omega)
  rw [List.map_append, AsNew.rpc_answers_append, AsNew.rpc_answers_append, hu, hu', List.map_append] at this
  have h2 := List.append_inj_right this (by simp [AsNew.rpc_answers_length])
  simp only [List.map_cons, List.map_nil, rpcIds, ids, Table.answers, List.cons.injEq, and_true] at h2
  obtain ⟨i, e1, e2⟩ := step_ask hx s r first
  obtain ⟨i', e1', e2'⟩ := step_ask hx' s r first
  rw [e1, e1'] at h2
  simp only [Except.map, rpcOutIds, sent, ids, Except.ok.injEq, Out.reply.injEq, MessageWithRecipient.mk.injEq, Message.invocation.injEq] at h2
  have h3 := congrArg Invocation.requestId h2.1
  simp only [e2, e2', PyInt.int.injEq] at h3
  exact h3

theorem mark_used {t : Table} {s r : Int} {k : Mark} (h : t.mark s r = some k) : used t k.inv :=
  .inr ⟨k, List.mem_of_find?_eq_some h, rfl⟩

theorem marks_of_asked {ρ : Int → Int} (hρ : OneToOne ρ) {t t' u u' : Table} (ok : RpcOk t) (ok' : RpcOk t') {s r : Int}
    (hm : u.mark s r = t.mark s r) (hm' : u'.mark s r = t'.mark s r) (hn : t.next ≤ u.next) (hn' : t'.next ≤ u'.next)
    (h : ∀ first : Bool, ((if first then u'.mark s r else none).map (·.inv)).getD u'.next =
      ρ (((if first then u.mark s r else none).map (·.inv)).getD u.next)) :
    (t'.mark s r).map (·.inv) = (t.mark s r).map fun k => ρ k.inv := by
  have h0 := h false
  have h1 := h true
  simp only [Bool.false_eq_true, if_false, Option.map_none, Option.getD_none] at h0
  simp only [if_true, hm, hm'] at h1
  cases e : t.mark s r with
  | none =>
    cases e' : t'.mark s r with
    | none => rfl
    | some k' =>
      rw [e, e'] at h1
      simp only [Option.map_some, Option.getD_some, Option.map_none, Option.getD_none] at h1
      have := ok'.usedRange _ (mark_used e')
      omega
  | some k =>
    cases e' : t'.mark s r with
    | none =>
      rw [e, e'] at h1
      simp only [Option.map_some, Option.getD_some, Option.map_none, Option.getD_none] at h1
      have h2 := hρ _ _ (h0.symm.trans h1)
      have := ok.usedRange _ (mark_used e)
      omega
    | some k' =>
      rw [e, e'] at h1
      simpa using h1

theorem step_register {t : Table} {z : Int} (hz : z ∉ t.known) {p : String} (hp : calleeOf t p = none) :
    ∃ u, [Op.addSession { sessionId := .int z, realm := "" }, .receiveMessage z (.register { requestId := .int 1, procedure := p })].foldl
        (fun t op => (t.step op).1) t = u ∧
      (∃ x, u.held.find? (·.procedure = p) = some x) ∧ u.marks = t.marks ∧ u.next = t.next + 1 := by
  have hn : t.held.find? (·.procedure = p) = none := by
    cases e : t.held.find? (·.procedure = p) with
    | none => rfl
    | some x => rw [calleeOf, e] at hp; cases hp
  have ha : t.held.any (·.procedure = p) = false := by
    rw [List.any_eq_false]
    intro x hx
    exact List.find?_eq_none.1 hn x hx
  refine ⟨_, rfl, ?_⟩
  simp only [List.foldl_cons, List.foldl_nil, Table.step]
  have hv : (PyInt.int z).val = z := rfl
  simp only [hv, hz, if_false]
  rw [if_pos (List.mem_append_right _ (List.mem_singleton.2 rfl))]
  simp only [ha, Bool.false_eq_true, if_false]
  refine ⟨⟨⟨z, p, t.next⟩, ?_⟩, by trivial, by trivial⟩
  rw [List.find?_append, hn]
  simp

theorem Alike.marks {ρ : Int → Int} (hρ : OneToOne ρ) {t t' : Table} (ok : RpcOk t) (ok' : RpcOk t') (h : Alike ρ t t') (s r : Int) :
    (t'.mark s r).map (·.inv) = (t.mark s r).map fun k => ρ k.inv := by
  have hc := h.callee "p"
  cases e : calleeOf t "p" with
  | some c =>
    rw [e] at hc
    obtain ⟨x, hx, -⟩ := Option.map_eq_some_iff.1 e
    obtain ⟨x', hx', -⟩ := Option.map_eq_some_iff.1 hc
    exact marks_of_asked hρ ok ok' rfl rfl (Int.le_refl _) (Int.le_refl _) fun first => h.asked [] (by simp) rfl rfl hx hx' s r first
  | none =>
    rw [e] at hc
    obtain ⟨z, hz⟩ := exists_above t.known
    have hz1 : z ∉ t.known := fun hm => by have := hz z hm; omega
    obtain ⟨u, h1, ⟨x, hx⟩, h3, h4⟩ := step_register hz1 e
    obtain ⟨u', h1', ⟨x', hx'⟩, h3', h4'⟩ := step_register (fun hm => hz1 ((h.known z).2 hm)) hc
    exact marks_of_asked hρ ok ok' (by simp only [Table.mark, h3]) (by simp only [Table.mark, h3']) (by omega) (by omega)
      fun first => h.asked _ (by simp) h1 h1' hx hx' s r first

/-- As many calls here as there -/
theorem calls_onto {ρ ρ' : Int → Int} (hρ : OneToOne ρ) (hρ' : OneToOne ρ') {t t' : Table} (ok' : RpcOk t')
    (h : ∀ x ∈ t.pending, renCall ρ x ∈ t'.pending) (h' : ∀ x ∈ t'.pending, renCall ρ' x ∈ t.pending) (x' : Pending) (hx' : x' ∈ t'.pending) :
    ∃ x ∈ t.pending, x' = renCall ρ x := by
  let A := (t.pending.map (·.inv)).toFinset
  let B := (t'.pending.map (·.inv)).toFinset
  have hA : A.image ρ ⊆ B := by
    intro i hi
    obtain ⟨j, hj, rfl⟩ := Finset.mem_image.1 hi
    obtain ⟨x, hx, rfl⟩ := List.mem_map.1 (List.mem_toFinset.1 hj)
    exact List.mem_toFinset.2 (List.mem_map.2 ⟨_, h x hx, rfl⟩)
  have hB : B.image ρ' ⊆ A := by
    intro i hi
    obtain ⟨j, hj, rfl⟩ := Finset.mem_image.1 hi
    obtain ⟨x, hx, rfl⟩ := List.mem_map.1 (List.mem_toFinset.1 hj)
    exact List.mem_toFinset.2 (List.mem_map.2 ⟨_, h' x hx, rfl⟩)
  have c1 : (A.image ρ).card = A.card := Finset.card_image_of_injective _ fun _ _ e => hρ _ _ e
  have c2 : (B.image ρ').card = B.card := Finset.card_image_of_injective _ fun _ _ e => hρ' _ _ e
  have c3 := Finset.card_le_card hB
  have he : A.image ρ = B := Finset.eq_of_subset_of_card_le hA (by omega)
  have hm : x'.inv ∈ A.image ρ := by rw [he]; exact List.mem_toFinset.2 (List.mem_map.2 ⟨x', hx', rfl⟩)
  obtain ⟨j, hj, e⟩ := Finset.mem_image.1 hm
  obtain ⟨x, hx, rfl⟩ := List.mem_map.1 (List.mem_toFinset.1 hj)
  exact ⟨x, hx, ok'.inv _ hx' _ (h x hx) e.symm⟩

theorem rpcSame_symm {τ : Int → Int} {ops ops' : List Op} (hl : ops.length ≤ 2 ^ 53) (hl' : ops'.length ≤ 2 ^ 53)
    (h : RpcSame τ (Dealer.trace ops) (Dealer.trace ops')) : ∃ τ', RpcSame τ' (Dealer.trace ops') (Dealer.trace ops) := by
  have ok := rpcOk_after ops
  have ht := Dealer.sim_after ops hl
  classical
  let live : Int → Prop := fun i => (∃ x ∈ (Rpc.view (Dealer.trace ops)).pending, x.inv = i) ∨ ∃ s r, Current (Dealer.trace ops) s r i
  have hlive : ∀ i, live i → 1 ≤ i ∧ i < (tableAfter ops).next := by
    rintro i (⟨x, hx, rfl⟩ | ⟨s, r, hc⟩)
    · rw [← ht.pending] at hx
      exact ok.usedRange _ (.inl ⟨x, hx, rfl⟩)
    · obtain ⟨k, h1, rfl⟩ := Option.map_eq_some_iff.1 ((mark_iff ops hl s r i).2 hc)
      exact ok.usedRange _ (mark_used h1)
  obtain ⟨z, hz⟩ := exists_above ((tableAfter ops').pending.map (·.inv) ++ (tableAfter ops').marks.map (·.inv))
  let f : Int → Option Int := fun j => if h : ∃ i, live i ∧ τ i = j then some h.choose else none
  have hf : ∀ i, live i → f (τ i) = some i := by
    intro i hi
    have hx : ∃ k, live k ∧ τ k = τ i := ⟨i, hi, rfl⟩
    simp only [f, dif_pos hx]
    rw [h.one _ _ hx.choose_spec.2]
  have hf' : ∀ j i, f j = some i → live i ∧ τ i = j := by
    intro j i e
    simp only [f] at e
    split at e
    · rename_i hx
      cases e
      exact hx.choose_spec
    · cases e
  have hlow : ∀ i, live i → τ i < z := by
    rintro i (⟨x, hx, rfl⟩ | ⟨s, r, hc⟩)
    · have := (h.calls _).2 ⟨x, hx, rfl⟩
      rw [← (Dealer.sim_after ops' hl').pending] at this
      exact hz _ (List.mem_append_left _ (List.mem_map.2 ⟨_, this, rfl⟩))
    · obtain ⟨k, h1, h2⟩ := Option.map_eq_some_iff.1 ((mark_iff ops' hl' s r _).2 ((h.current s r _).2 ⟨i, hc, rfl⟩))
      rw [← h2]
      exact hz _ (List.mem_append_right _ (List.mem_map.2 ⟨k, List.mem_of_find?_eq_some h1, rfl⟩))
  have hback : ∀ i, live i → joined z (tableAfter ops).next f (τ i) = i := fun i hi => joined_old (hlow i hi) (hf i hi)
  refine ⟨joined z (tableAfter ops).next f, joined_one ok.pos (fun j i e => hlive i (hf' j i e).1)
    (fun j j' i e e' => (hf' j i e).2.symm.trans (hf' j' i e').2), fun s => (h.known s).symm, fun s p => (h.callees s p).symm, ?_, ?_⟩
  · intro x
    constructor
    · intro hx
      exact ⟨_, (h.calls _).2 ⟨x, hx, rfl⟩, by simp only [hback x.inv (.inl ⟨x, hx, rfl⟩)]⟩
    · rintro ⟨x', hx', rfl⟩
      obtain ⟨y, hy, rfl⟩ := (h.calls _).1 hx'
      simp only [hback y.inv (.inl ⟨y, hy, rfl⟩)]
      exact hy
  · intro s r i
    constructor
    · intro hc
      exact ⟨τ i, (h.current s r _).2 ⟨i, hc, rfl⟩, (hback i (.inr ⟨s, r, hc⟩)).symm⟩
    · rintro ⟨i', hc', rfl⟩
      obtain ⟨j, hj, rfl⟩ := (h.current s r _).1 hc'
      rw [hback j (.inr ⟨s, r, hj⟩)]
      exact hj

/-- Exactly then: dealers that cannot be told apart, either way, by three calls have the same sessions connected, the same callees, the
same calls in progress, and the same request ids stand for invocations. -/
theorem C128_dealer_exact (ops ops' : List Op) (hl : ops.length + 3 ≤ 2 ^ 53) (hl' : ops'.length + 3 ≤ 2 ^ 53) :
    ((∃ τ, Dealers τ ops ops') ∧ ∃ τ, Dealers τ ops' ops) ↔ ∃ τ, RpcSame τ (Dealer.trace ops) (Dealer.trace ops') := by
  have hl0 : ops.length ≤ 2 ^ 53 := by omega
  have hl0' : ops'.length ≤ 2 ^ 53 := by omega
  constructor
  · rintro ⟨⟨τ, h⟩, τ', h'⟩
    obtain ⟨ρ, hρ, ha⟩ := alike_of_dealers hl hl' h
    obtain ⟨ρ', hρ', ha'⟩ := alike_of_dealers hl' hl h'
    have ht := Dealer.sim_after ops hl0
    have ht' := Dealer.sim_after ops' hl0'
    have ok := rpcOk_after ops
    have ok' := rpcOk_after ops'
    refine ⟨ρ, hρ, ?_, ?_, ?_, ?_⟩
    · rw [← ht.known, ← ht'.known]; exact ha.known
    · intro s p
      rw [← ht.held, ← ht'.held, ← calleeOf_iff ok, ← calleeOf_iff ok', ha.callee]
    · intro x'
      rw [← ht.pending, ← ht'.pending]
      constructor
      · exact calls_onto hρ hρ' ok' (ha.call ok) (ha'.call ok') x'
      · rintro ⟨x, hx, rfl⟩; exact ha.call ok x hx
    · intro s r i'
      rw [← mark_iff _ hl0', ha.marks hρ ok ok']
      constructor
      · intro e
        obtain ⟨k, h1, rfl⟩ := Option.map_eq_some_iff.1 e
        exact ⟨k.inv, (mark_iff _ hl0 s r _).1 (by rw [h1]; rfl), rfl⟩
      · rintro ⟨i, hi, rfl⟩
        obtain ⟨k, h1, rfl⟩ := Option.map_eq_some_iff.1 ((mark_iff _ hl0 s r i).2 hi)
        rw [h1]; rfl
  · rintro ⟨τ, h⟩
    obtain ⟨τ', h'⟩ := rpcSame_symm hl0 hl0' h
    exact ⟨⟨τ, C128_dealer τ ops ops' hl0 hl0' h⟩, τ', C128_dealer τ' ops' ops hl0' hl0 h'⟩

/-! ## Examples -/

example : ∃ τ, Dealers τ busy quiet := ((C128_dealer_exact quiet busy (by decide) (by decide)).2 ⟨_, quiet_busy⟩).2

/-- A call that was answered with an ERROR: everything is as before, but its request id stands for an invocation.  This can be found
out. -/
example : ¬ ((∃ τ, Dealers τ (quiet.take 3) (quiet ++ [.receiveMessage 1 (.error { messageType := .int 68, requestId := .int 2, uri := "e" })])) ∧
    ∃ τ, Dealers τ (quiet ++ [.receiveMessage 1 (.error { messageType := .int 68, requestId := .int 2, uri := "e" })]) (quiet.take 3)) := by
  rw [C128_dealer_exact _ _ (by decide) (by decide)]
  rintro ⟨τ, h⟩
  obtain ⟨i, hi, -⟩ := (h.current 2 7 2).1 ((mark_iff _ (by decide) _ _ _).1 (by decide +kernel))
  have := (mark_iff _ (by decide) _ _ _).2 hi
  have hn : (tableAfter (quiet.take 3)).mark 2 7 = none := by decide +kernel
  rw [hn] at this
  cases this

end Wamp.Spec.Present
