import Verif.Spec.AsNew
import Verif.Props.Tenants

/-! # A router everybody has left: C118 -/

namespace Wamp.Spec.AsNew
open Wamp.Spec.Tenants
open Wamp.Spec.Naming (OneToOne)

/-! ## The broker -/

section
open Wamp.Spec.Pub (Table Holding)
open Wamp.Broker (Op Out tableAfter)

theorem pub_answers_append (ops later : List Op) : ∀ t : Table,
    t.answers (ops ++ later) = t.answers ops ++ (ops.foldl (fun t op => (t.step op).1) t).answers later := by
  induction ops with
  | nil => intro t; rfl
  | cons a ops ih => intro t; simp only [List.cons_append, Table.answers, ih, List.foldl_cons]

/-- Only those connected hold subscriptions. -/
theorem pub_held_known_step (t : Table) (op : Op) (h : ∀ x ∈ t.held, x.session ∈ t.known) :
    ∀ x ∈ (t.step op).1.held, x.session ∈ (t.step op).1.known := by
  cases op with
  | addSession d =>
    simp only [Table.step]
    split
    · exact h
    · intro x hx; exact List.mem_append_left _ (h x hx)
  | removeSession s =>
    simp only [Table.step]
    split
    · intro x hx
      obtain ⟨h1, h2⟩ := List.mem_filter.1 hx
      exact List.mem_filter.2 ⟨h x h1, h2⟩
    · exact h
  | hasSubscription x => exact h
  | receivePublish s m => simp only [Table.step]; split <;> exact h
  | receiveMessage s m =>
    cases m with
    | subscribe m =>
      simp only [Table.step]
      split
      · rename_i hk
        split
        · intro x hx
          rcases List.mem_append.1 hx with hx | hx
          · exact h x hx
          · rw [List.mem_singleton.1 hx]; exact hk
        · intro x hx
          simp only at hx
          split at hx
          · exact h x hx
          · rcases List.mem_append.1 hx with hx | hx
            · exact h x hx
            · rw [List.mem_singleton.1 hx]; exact hk
      · exact h
    | unsubscribe m =>
      simp only [Table.step]
      split
      · intro x hx; exact h x (List.mem_filter.1 hx).1
      · exact h
    | _ => exact h

theorem pub_held_known (ops : List Op) : ∀ t : Table, (∀ x ∈ t.held, x.session ∈ t.known) →
    ∀ x ∈ (ops.foldl (fun t op => (t.step op).1) t).held, x.session ∈ (ops.foldl (fun t op => (t.step op).1) t).known := by
  induction ops with
  | nil => intro t h; exact h
  | cons a ops ih => intro t h; exact ih _ (pub_held_known_step t a h)

theorem pub_flags_true (later : List Op) : ∀ t : Table,
    ∀ b ∈ pubFlags (fun _ => true) (fun _ => true) t later, b = true := by
  induction later with
  | nil => intro t b hb; cases hb
  | cons op later ih =>
    intro t b hb
    rw [pubFlags] at hb
    rcases List.mem_append.1 hb with hb | hb
    · split at hb
      · rw [List.mem_singleton.1 hb]; cases op <;> rfl
      · cases hb
    · exact ih _ b hb

theorem pubMine_all (op : Op) : pubMine (fun _ => true) (fun _ => true) op = true := by cases op <;> rfl

theorem pubApart_all (op : Op) : pubApart (fun _ => true) (fun _ => true) op := by
  cases op with
  | receiveMessage s m => cases m <;> first | rfl | trivial
  | receivePublish s m => rfl
  | _ => trivial

/-- Once everybody has left, the broker is as good as new. -/
theorem C118_broker (ops : List Op) (h : (Pub.view (Broker.trace ops)).known = []) : AsNew.Broker ops := by
  intro later hl
  have hlo : ops.length ≤ 2 ^ 53 := by rw [List.length_append] at hl; omega
  have hll : later.length ≤ 2 ^ 53 := by rw [List.length_append] at hl; omega
  have ht := Broker.tableAfter_eq ops hlo
  have hk : (tableAfter ops).known = [] := by rw [ht]; exact h
  have hh : (tableAfter ops).held = [] := by
    have := pub_held_known ops {} (by intro x hx; cases hx)
    cases hx : (tableAfter ops).held with
    | nil => rfl
    | cons x l =>
      have := this x (by change x ∈ (tableAfter ops).held; rw [hx]; simp)
      change x.session ∈ (tableAfter ops).known at this
      rw [hk] at this; cases this
  have hn : (tableAfter ops).next = ((Pub.view (Broker.trace ops)).drawn : Int) + 1 := by rw [ht]
  generalize (Pub.view (Broker.trace ops)).drawn = n at hn
  let fl := List.replicate n false ++ pubFlags (fun _ => true) (fun _ => true) (tableAfter ops) later
  have hs : PubSim (fun _ => true) (fun _ => true) fl (tableAfter ops) {} n := by
    refine ⟨?_, ?_, ?_, hn, ?_⟩
    · rw [hk]; rfl
    · rw [hh]; rfl
    · rw [hh]; intro x hx; cases hx
    · have : rank fl n = 0 := by simp [rank, fl]
      rw [this]; rfl
  have hr := pubSim_run later _ _ n hs (fun op _ => pubApart_all op) (by simp [fl])
  refine ⟨rho fl, rho_one fl, ?_⟩
  have hall : later.filter (pubMine (fun _ => true) (fun _ => true)) = later := by
    rw [List.filter_eq_self]; intro op _; exact pubMine_all op
  have hz : ((later.zip ((tableAfter ops).answers later)).filter fun e => pubMine (fun _ => true) (fun _ => true) e.1) =
      later.zip ((tableAfter ops).answers later) := by
    rw [List.filter_eq_self]; intro e _; exact pubMine_all e.1
  rw [hall, hz] at hr
  have hlen : ∀ (l : List Op) (t : Table), (t.answers l).length = l.length := by
    intro l; induction l with
    | nil => intro t; rfl
    | cons a l ih => intro t; simp [Table.answers, ih]
  have hz2 : (later.zip ((tableAfter ops).answers later)).map (fun e => e.2.map (pubOutIds (rho fl))) =
      ((tableAfter ops).answers later).map (fun o => o.map (pubOutIds (rho fl))) := by
    have : (later.zip ((tableAfter ops).answers later)).map Prod.snd = (tableAfter ops).answers later :=
      List.map_snd_zip (by rw [hlen]; exact Nat.le_refl _)
    conv => rhs; rw [← this]
    rw [List.map_map]; rfl
  rw [(Broker.C79_broker_is_table (later.map (pubIds (rho fl))) (by rw [List.length_map]; exact hll)).2.1, hr, hz2]
  have h79 := (Broker.C79_broker_is_table (ops ++ later) hl).2.1
  rw [pub_answers_append] at h79
  have h2 := congrArg (List.drop ops.length) h79
  rw [List.drop_left' (hlen _ _), ← List.map_drop] at h2
  change _ = (tableAfter ops).answers later at h2
  rw [← h2, List.map_map]; rfl

end

/-! ## The dealer -/

section
open Wamp.Spec.Rpc (Table Reg Pending Mark Failure)
open Wamp.Dealer (Op Out tableAfter graded)

theorem ended_eq (e : Except Exc Out) : ended e = graded e := by
  cases e with
  | ok o => rfl
  | error x => cases x <;> rfl

theorem rpc_answers_append (ops later : List Op) : ∀ t : Table,
    t.answers (ops ++ later) = t.answers ops ++ (ops.foldl (fun t op => (t.step op).1) t).answers later := by
  induction ops with
  | nil => intro t; rfl
  | cons a ops ih => intro t; simp only [List.cons_append, Table.answers, ih, List.foldl_cons]

theorem rpc_answers_length (l : List Op) : ∀ t : Table, (t.answers l).length = l.length := by
  induction l with
  | nil => intro t; rfl
  | cons a l ih => intro t; simp [Table.answers, ih]

/-- Only those connected hold registrations. -/
theorem rpc_held_known_step (t : Table) (op : Op) (h : ∀ x ∈ t.held, x.session ∈ t.known) :
    ∀ x ∈ (t.step op).1.held, x.session ∈ (t.step op).1.known := by
  cases op with
  | addSession d =>
    simp only [Table.step]
    split
    · exact h
    · intro x hx; exact List.mem_append_left _ (h x hx)
  | removeSession s =>
    simp only [Table.step]
    split
    · intro x hx
      obtain ⟨h1, h2⟩ := List.mem_filter.1 hx
      exact List.mem_filter.2 ⟨h x h1, h2⟩
    · exact h
  | hasRegistration x => exact h
  | receiveMessage s m =>
    cases m with
    | register m =>
      simp only [Table.step]
      split
      · rename_i hk
        split
        · exact h
        · intro x hx
          rcases List.mem_append.1 hx with hx | hx
          · exact h x hx
          · rw [List.mem_singleton.1 hx]; exact hk
      · exact h
    | unregister m =>
      simp only [Table.step]
      split
      · intro x hx; exact h x (List.mem_filter.1 hx).1
      · exact h
    | call m => 
      simp only [Table.step]
      split
      · exact h
      · split <;> exact h
    | yield_ m =>
      simp only [Table.step]
      split
      · exact h
      · split
        · exact h
        · split
          · exact h
          · split <;> exact h
    | error m => simp only [Table.step]; split <;> exact h
    | _ => exact h

theorem rpc_held_known (ops : List Op) : ∀ x ∈ (tableAfter ops).held, x.session ∈ (tableAfter ops).known := by
  have : ∀ (ops : List Op) (t : Table), (∀ x ∈ t.held, x.session ∈ t.known) →
      ∀ x ∈ (ops.foldl (fun t op => (t.step op).1) t).held, x.session ∈ (ops.foldl (fun t op => (t.step op).1) t).known := by
    intro ops
    induction ops with
    | nil => intro t h; exact h
    | cons a ops ih => intro t h; exact ih _ (rpc_held_known_step t a h)
  exact this ops {} (by intro x hx; cases hx)

theorem rpcMine_all (op : Op) : rpcMine (fun _ => true) (fun _ => true) op = true := by cases op <;> rfl

theorem rpcApart_all (op : Op) : rpcApart (fun _ => true) (fun _ => true) op := by
  cases op with
  | receiveMessage s m => cases m <;> first | rfl | trivial
  | _ => trivial

theorem fair_all (ops : List Op) : ∀ t : Table, Fair (fun _ => true) t ops := by
  induction ops with
  | nil => intro t; trivial
  | cons op ops ih =>
    intro t
    refine ⟨?_, ih _⟩
    cases op with
    | receiveMessage s m => cases m <;> first | trivial | (intro _ _ _ _; rfl)
    | _ => trivial

/-- `AsNew.Dealer` in terms of the tables. -/
theorem asNew_table (ops : List Op) : AsNew.Dealer ops ↔ ∀ later, (ops ++ later).length ≤ 2 ^ 53 → ∃ ρ, OneToOne ρ ∧
    ({} : Table).answers (later.map (rpcIds ρ)) = ((tableAfter ops).answers later).map (·.map (rpcOutIds ρ)) := by
  refine forall_congr' fun later => forall_congr' fun hl => exists_congr fun ρ => and_congr_right fun _ => ?_
  have hll : later.length ≤ 2 ^ 53 := by rw [List.length_append] at hl; omega
  have e1 := (Dealer.C80_dealer_is_table (later.map (rpcIds ρ)) (by rw [List.length_map]; exact hll)).2
  have h80 := (Dealer.C80_dealer_is_table (ops ++ later) hl).2
  rw [rpc_answers_append, List.map_append] at h80
  have h2 := congrArg (List.drop ops.length) h80
  rw [List.drop_left' (by rw [List.length_map]; exact rpc_answers_length _ _), ← List.map_drop] at h2
  change _ = ((tableAfter ops).answers later).map some at h2
  have e2 := congrArg (List.map (Option.map (Except.map (rpcOutIds ρ)))) h2
  rw [List.map_map, List.map_map] at e2
  have e3 : (fun e : Dealer.Obs => ended e.2) = fun e => graded e.2 := funext fun e => ended_eq e.2
  have e4 : (fun e : Dealer.Obs => (ended e.2).map (·.map (rpcOutIds ρ))) =
      Option.map (Except.map (rpcOutIds ρ)) ∘ fun e : Dealer.Obs => graded e.2 := by
    funext e; rw [ended_eq]; rfl
  rw [e3, e4, e1, e2]
  have e5 : (Option.map (Except.map (ε := Failure) (rpcOutIds ρ)) ∘ some) = some ∘ Except.map (rpcOutIds ρ) := rfl
  rw [e5, ← List.map_map]
  constructor
  · intro h
    exact (List.map_inj_right (fun _ _ h => Option.some.inj h)).1 h
  · intro h; rw [h]

theorem asNew_of_clear (ops : List Op) (hlo : ops.length ≤ 2 ^ 53) (hk : (tableAfter ops).known = [])
    (hp : (tableAfter ops).pending = []) (hm : (tableAfter ops).marks = []) : AsNew.Dealer ops := by
  rw [asNew_table]
  intro later hl
  have hh : (tableAfter ops).held = [] := by
    have := rpc_held_known ops
    cases hx : (tableAfter ops).held with
    | nil => rfl
    | cons x l =>
      have := this x (by rw [hx]; simp)
      rw [hk] at this; cases this
  have hn : (tableAfter ops).next = ((Rpc.view (Dealer.trace ops)).drawn : Int) + 1 := (Dealer.sim_after ops hlo).next
  generalize (Rpc.view (Dealer.trace ops)).drawn = n at hn
  let fl := List.replicate n false ++ rpcFlags (fun _ => true) (fun _ => true) (tableAfter ops) later
  have hs : RpcSim (fun _ => true) (fun _ => true) fl (tableAfter ops) {} n := by
    refine ⟨?_, ?_, ?_, ?_, ?_, ?_, ?_, ?_, hn, ?_⟩
    · rw [hk]; rfl
    · rw [hh]; rfl
    · rw [hp]; rfl
    · rw [hm]; rfl
    · rw [hh]; intro x hx; cases hx
    · rw [hp]; intro x hx; cases hx
    · rw [hp]; intro x hx; cases hx
    · rw [hp]; intro x hx; cases hx
    · have : rank fl n = 0 := by simp [rank, fl]
      rw [this]; rfl
  have hr := (rpcSim_run later _ _ n hs (fun op _ => rpcApart_all op) (fair_all later _) (by simp [fl])).1
  refine ⟨rho fl, rho_one fl, ?_⟩
  have hall : later.filter (rpcMine (fun _ => true) (fun _ => true)) = later := by
    rw [List.filter_eq_self]; intro op _; exact rpcMine_all op
  have hz : ((later.zip ((tableAfter ops).answers later)).filter fun e => rpcMine (fun _ => true) (fun _ => true) e.1) =
      later.zip ((tableAfter ops).answers later) := by
    rw [List.filter_eq_self]; intro e _; exact rpcMine_all e.1
  rw [hall, hz] at hr
  rw [hr]
  have : (later.zip ((tableAfter ops).answers later)).map Prod.snd = (tableAfter ops).answers later :=
    List.map_snd_zip (by rw [rpc_answers_length]; exact Nat.le_refl _)
  conv => rhs; rw [← this]
  rw [List.map_map]; rfl

/-- Once everybody has left, the dealer is as good as new exactly if no call is in progress and no request id is remembered. -/
theorem C118_dealer_exact (ops : List Op) (hl : ops.length + 4 ≤ 2 ^ 53) (h : (Rpc.view (Dealer.trace ops)).known = []) :
    AsNew.Dealer ops ↔ (tableAfter ops).pending = [] ∧ (tableAfter ops).marks = [] := by
  have hs := Dealer.sim_after ops (by omega)
  have hk : (tableAfter ops).known = [] := by rw [hs.known]; exact h
  refine ⟨fun hn => ?_, fun hc => asNew_of_clear ops (by omega) hk hc.1 hc.2⟩
  rw [asNew_table] at hn
  have hp : (tableAfter ops).pending = [] := by
    cases hx : (tableAfter ops).pending with
    | nil => rfl
    | cons x l =>
      exfalso
      obtain ⟨ρ, -, hρ⟩ := hn [.receiveMessage x.callee (.yield_ { requestId := .int x.inv })] (by simp; omega)
      have e : ((tableAfter ops).step (.receiveMessage x.callee (.yield_ { requestId := .int x.inv }))).2 ≠ .error .valueError := by
        have hf : (tableAfter ops).pending.find? (·.inv = (PyInt.int x.inv).val) = some x := by
          rw [hx, List.find?_cons_of_pos]; exact decide_eq_true rfl
        simp only [Table.step, hf]
        rw [if_neg (by simp)]
        split
        · simp
        · split <;> simp
      simp only [List.map_cons, List.map_nil, Table.answers, List.cons.injEq, and_true] at hρ
      generalize ((tableAfter ops).step (.receiveMessage x.callee (.yield_ { requestId := .int x.inv }))).2 = r at hρ e
      change Except.error Failure.valueError = _ at hρ
      cases r with
      | ok o => cases hρ
      | error f => cases f with
        | valueError => exact e rfl
        | keyError => cases hρ
  refine ⟨hp, ?_⟩
  cases hx : (tableAfter ops).marks with
  | nil => rfl
  | cons k l =>
    exfalso
    have hh : (tableAfter ops).held = [] := by
      have := rpc_held_known ops
      cases hx : (tableAfter ops).held with
      | nil => rfl
      | cons x l =>
        have := this x (by rw [hx]; simp)
        rw [hk] at this; cases this
    obtain ⟨ρ, -, hρ⟩ := hn [.addSession { sessionId := .int 1, realm := "r" },
      .receiveMessage 1 (.register { requestId := .int 1, procedure := "p" }),
      .receiveMessage k.caller (.call { requestId := .int k.request, procedure := "p", options_ := [(.str "progress", .bool true)] }),
      .receiveMessage 1 (.yield_ { requestId := .int k.inv })] (by simp; omega)
    generalize tableAfter ops = t at *
    obtain ⟨known, held, pending, marks, next⟩ := t
    simp only at hk hp hx hh
    subst hk hp hx hh
    have hmk : Table.mark ⟨[1], [⟨1, "p", next⟩], [], k :: l, next + 1⟩ k.caller (PyInt.int k.request).val = some k := by
      rw [Table.mark, List.find?_cons_of_pos]; exact decide_eq_true ⟨rfl, rfl⟩
    have a1 : Table.step ⟨[], [], [], k :: l, next⟩ (.addSession { sessionId := .int 1, realm := "r" }) =
        (⟨[1], [], [], k :: l, next⟩, .ok .unit) := rfl
    have a2 : Table.step ⟨[1], [], [], k :: l, next⟩ (.receiveMessage 1 (.register { requestId := .int 1, procedure := "p" })) =
        (⟨[1], [⟨1, "p", next⟩], [], k :: l, next + 1⟩, .ok (.reply ⟨.registered ⟨.int 1, .int next⟩, 1⟩)) := rfl
    have a3 : Table.step ⟨[1], [⟨1, "p", next⟩], [], k :: l, next + 1⟩ (.receiveMessage k.caller
        (.call { requestId := .int k.request, procedure := "p", options_ := [(.str "progress", .bool true)] })) =
        (⟨[1], [⟨1, "p", next⟩], [], k :: l, next + 1⟩, .ok (.reply ⟨Rpc.invocation
          { requestId := .int k.request, procedure := "p", options_ := [(.str "progress", .bool true)] } k.inv next, 1⟩)) := by
      have hr : List.find? (fun x : Reg => decide (x.procedure = "p")) [⟨1, "p", next⟩] = some ⟨1, "p", next⟩ := rfl
      simp only [Table.step, hr, hmk]
      rfl
    have a4 : Table.step ⟨[1], [⟨1, "p", next⟩], [], k :: l, next + 1⟩ (.receiveMessage 1 (.yield_ { requestId := .int k.inv })) =
        (⟨[1], [⟨1, "p", next⟩], [], k :: l, next + 1⟩, .error .valueError) := rfl
    have b1 : Table.step {} (.addSession { sessionId := .int 1, realm := "r" }) = (⟨[1], [], [], [], 1⟩, .ok .unit) := rfl
    have b2 : Table.step ⟨[1], [], [], [], 1⟩ (.receiveMessage 1 (.register { requestId := .int 1, procedure := "p" })) =
        (⟨[1], [⟨1, "p", 1⟩], [], [], 2⟩, .ok (.reply ⟨.registered ⟨.int 1, .int 1⟩, 1⟩)) := rfl
    have b3 : Table.step ⟨[1], [⟨1, "p", 1⟩], [], [], 2⟩ (.receiveMessage k.caller
        (.call { requestId := .int k.request, procedure := "p", options_ := [(.str "progress", .bool true)] })) =
        (⟨[1], [⟨1, "p", 1⟩], [⟨2, k.caller, .int k.request, 1, false⟩], [⟨k.caller, k.request, 2⟩], 3⟩, .ok (.reply ⟨Rpc.invocation
          { requestId := .int k.request, procedure := "p", options_ := [(.str "progress", .bool true)] } 2 1, 1⟩)) := rfl
    have b4 : (Table.step ⟨[1], [⟨1, "p", 1⟩], [⟨2, k.caller, .int k.request, 1, false⟩], [⟨k.caller, k.request, 2⟩], 3⟩
        (.receiveMessage 1 (.yield_ { requestId := .int 2 }))).2 = .ok (.reply ⟨.result { requestId := .int k.request }, k.caller⟩) := by
      have hm : Table.mark ⟨[1], [⟨1, "p", 1⟩], [⟨2, k.caller, .int k.request, 1, false⟩], [⟨k.caller, k.request, 2⟩], 3⟩
          k.caller (PyInt.int k.request).val = some ⟨k.caller, k.request, 2⟩ := by
        rw [Table.mark, List.find?_cons_of_pos]; exact decide_eq_true ⟨rfl, rfl⟩
      have hr : List.find? (fun x : Pending => decide (x.inv = (PyInt.int 2).val)) [⟨2, k.caller, .int k.request, 1, false⟩] =
        some ⟨2, k.caller, .int k.request, 1, false⟩ := rfl
      simp only [Table.step, hr, hm]
      rfl
    simp only [Table.answers, a1, a2, a3, a4, List.map_cons, List.map_nil, rpcIds, ids, b1, b2, b3] at hρ
    injection hρ with _ hρ
    injection hρ with _ hρ
    injection hρ with h3 hρ
    injection hρ with h4 _
    have hi : (2 : Int) = ρ k.inv := congrArg (fun e : Except Failure Out =>
      match e with | .ok (.reply ⟨.invocation i, _⟩) => i.requestId.val | _ => 0) h3
    change (Table.step _ (.receiveMessage 1 (.yield_ { requestId := .int (ρ k.inv) }))).2 = _ at h4
    rw [← hi, b4] at h4
    cases h4

/-- Nobody answered with ERROR. -/
def NoErrors (tr : List Dealer.Obs) : Prop := ∀ s m o, (.receiveMessage s (.error m), .ok o) ∉ tr

/-- Calls in progress have different ids, and every request id remembered is that of a call in progress. -/
structure Tidy (t : Table) : Prop where
  old : ∀ x ∈ t.pending, x.inv < t.next
  uniq : ∀ x ∈ t.pending, ∀ y ∈ t.pending, x.inv = y.inv → x = y
  marks : ∀ k ∈ t.marks, ∃ x ∈ t.pending, x.inv = k.inv ∧ x.caller = k.caller ∧ x.request.val = k.request

theorem tidy_step {t : Table} (h : Tidy t) (op : Op) (he : ∀ s m o, op = .receiveMessage s (.error m) → (t.step op).2 ≠ .ok o) :
    Tidy (t.step op).1 := by
  obtain ⟨h1, h2, h3⟩ := h
  cases op with
  | addSession d => simp only [Table.step]; split <;> exact ⟨h1, h2, h3⟩
  | removeSession s => simp only [Table.step]; split <;> exact ⟨h1, h2, h3⟩
  | hasRegistration x => exact ⟨h1, h2, h3⟩
  | receiveMessage s m =>
    cases m with
    | register m =>
      simp only [Table.step]
      split
      · split
        · exact ⟨h1, h2, h3⟩
        · exact ⟨fun x hx => by have := h1 x hx; simp only; omega, h2, h3⟩
      · exact ⟨h1, h2, h3⟩
    | unregister m => simp only [Table.step]; split <;> exact ⟨h1, h2, h3⟩
    | call m =>
      simp only [Table.step]
      split
      · exact ⟨h1, h2, h3⟩
      · split
        · exact ⟨h1, h2, h3⟩
        · refine ⟨?_, ?_, ?_⟩
          · intro x hx
            rcases List.mem_append.1 hx with hx | hx
            · have := h1 x hx; simp only; omega
            · rw [List.mem_singleton.1 hx]; simp only; omega
          · intro x hx y hy e
            rcases List.mem_append.1 hx with hx | hx <;> rcases List.mem_append.1 hy with hy | hy
            · exact h2 x hx y hy e
            · rw [List.mem_singleton.1 hy] at e; have := h1 x hx; simp only at e; omega
            · rw [List.mem_singleton.1 hx] at e; have := h1 y hy; simp only at e; omega
            · rw [List.mem_singleton.1 hx, List.mem_singleton.1 hy]
          · intro k hk
            rcases List.mem_append.1 hk with hk | hk
            · obtain ⟨x, hx, hr⟩ := h3 k (List.mem_filter.1 hk).1
              exact ⟨x, List.mem_append_left _ hx, hr⟩
            · rw [List.mem_singleton.1 hk]
              exact ⟨_, List.mem_append_right _ (List.mem_singleton.2 rfl), rfl, rfl, rfl⟩
    | yield_ m =>
      cases hf : t.pending.find? (·.inv = m.requestId.val) with
      | none => simp only [Table.step, hf]; exact ⟨h1, h2, h3⟩
      | some x =>
        have hx := List.mem_of_find?_eq_some hf
        have hi : x.inv = m.requestId.val := by simpa using List.find?_some hf
        have key : ∀ k ∈ t.marks, ¬ (k.caller = x.caller ∧ k.request = x.request.val) →
            ∃ y ∈ t.pending.filter (·.inv ≠ m.requestId.val), y.inv = k.inv ∧ y.caller = k.caller ∧ y.request.val = k.request := by
          intro k hk hn
          obtain ⟨y, hy, r1, r2, r3⟩ := h3 k hk
          refine ⟨y, List.mem_filter.2 ⟨hy, decide_eq_true fun e => hn ?_⟩, r1, r2, r3⟩
          have := h2 y hy x hx (e.trans hi.symm)
          rw [← r2, ← r3, this]; exact ⟨rfl, rfl⟩
        have g1 : ∀ y ∈ t.pending.filter (·.inv ≠ m.requestId.val), y.inv < t.next := fun y hy => h1 y (List.mem_filter.1 hy).1
        have g2 : ∀ y ∈ t.pending.filter (·.inv ≠ m.requestId.val), ∀ z ∈ t.pending.filter (·.inv ≠ m.requestId.val),
            y.inv = z.inv → y = z := fun y hy z hz => h2 y (List.mem_filter.1 hy).1 z (List.mem_filter.1 hz).1
        cases hm : t.mark x.caller x.request.val with
        | none =>
          simp only [Table.step, hf, hm]
          split
          · exact ⟨h1, h2, h3⟩
          · split
            · exact ⟨h1, h2, h3⟩
            · refine ⟨g1, g2, fun k hk => key k hk ?_⟩
              have := List.find?_eq_none.1 hm k hk
              exact fun e => this (decide_eq_true e)
        | some k' =>
          simp only [Table.step, hf, hm]
          split
          · exact ⟨h1, h2, h3⟩
          · split
            · exact ⟨h1, h2, h3⟩
            · refine ⟨g1, g2, fun k hk => ?_⟩
              obtain ⟨q1, q2⟩ := List.mem_filter.1 hk
              exact key k q1 (of_decide_eq_true q2)
    | error m =>
      have he := fun o => he s m o rfl
      revert he
      simp only [Table.step]
      split
      · intro _; exact ⟨h1, h2, h3⟩
      · intro he; exact absurd rfl (he _)
    | _ => exact ⟨h1, h2, h3⟩

theorem tidy_after (ops : List Op) (hl : ops.length ≤ 2 ^ 53) (he : NoErrors (Dealer.trace ops)) : Tidy (tableAfter ops) := by
  induction ops using snoc_induction with
  | nil => exact ⟨(by intro x hx; cases hx), (by intro x hx; cases hx), (by intro x hx; cases hx)⟩
  | snoc ops op ih =>
    have h1 : ops.length + 1 ≤ 2 ^ 53 := by rw [List.length_append] at hl; exact hl
    rw [Dealer.trace_snoc] at he
    have ht : tableAfter (ops ++ [op]) = ((tableAfter ops).step op).1 := by simp [tableAfter]
    rw [ht]
    refine tidy_step (ih (by omega) fun s m o h => he s m o (List.mem_append_left _ h)) op ?_
    rintro s m o rfl e
    have h80 := (Dealer.C80_dealer_is_table _ hl).2
    rw [Dealer.trace_snoc, List.map_append, Dealer.answers_append, List.map_append] at h80
    have := (List.append_inj' h80 rfl).2
    simp only [List.map_cons, List.map_nil, List.cons.injEq, and_true] at this
    change _ = some ((tableAfter ops).step _).2 at this
    rw [e] at this
    have h2 := graded_ok this
    exact he s m o (List.mem_append_right _ (by rw [← h2]; exact List.mem_singleton.2 rfl))

/-- The full statement: once everybody has left, the dealer is as good as new.  It is false (`C118_dealer_false`); it is true if no
call is in progress and none was answered with ERROR. -/
theorem C118_dealer_partial (ops : List Op) (hl : ops.length ≤ 2 ^ 53) (h : (Rpc.view (Dealer.trace ops)).known = [])
    (hp : (Rpc.view (Dealer.trace ops)).pending = []) (he : NoErrors (Dealer.trace ops)) : AsNew.Dealer ops := by
  have hs := Dealer.sim_after ops hl
  have hp' : (tableAfter ops).pending = [] := by rw [hs.pending]; exact hp
  refine asNew_of_clear ops hl (by rw [hs.known]; exact h) hp' ?_
  cases hx : (tableAfter ops).marks with
  | nil => rfl
  | cons k l =>
    obtain ⟨x, hx, -⟩ := (tidy_after ops hl he).marks k (by rw [hx]; simp)
    rw [hp'] at hx; cases hx

/-- A callee and a caller, one call; then both leave. -/
def visit (between : List Op) : List Op :=
  [.addSession { sessionId := .int 1, realm := "r" }, .addSession { sessionId := .int 2, realm := "r" },
   .receiveMessage 1 (.register { requestId := .int 1, procedure := "a" }),
   .receiveMessage 2 (.call { requestId := .int 5, procedure := "a" })] ++ between ++ [.removeSession 2, .removeSession 1]

/-- Calls in progress are left behind, and so are request ids of calls that were answered with ERROR. -/
theorem C118_dealer_false :
    ¬ (∀ ops : List Op, ops.length ≤ 2 ^ 53 → (Rpc.view (Dealer.trace ops)).known = [] → AsNew.Dealer ops) ∧
    ¬ (∀ ops : List Op, ops.length ≤ 2 ^ 53 → (Rpc.view (Dealer.trace ops)).known = [] →
      (Rpc.view (Dealer.trace ops)).pending = [] → AsNew.Dealer ops) := by
  constructor
  · intro h
    have := (C118_dealer_exact (visit []) (by decide) (by decide)).1 (h _ (by decide) (by decide))
    revert this; decide
  · intro h
    let ops := visit [.receiveMessage 1 (.error { messageType := .int 68, requestId := .int 2, uri := "no" })]
    have := (C118_dealer_exact ops (by decide) (by decide)).1 (h _ (by decide) (by decide) (by decide))
    revert this; decide

/-! A dealer that has been used and is as good as new: one call, answered. -/

def answered : List Op := visit [.receiveMessage 1 (.yield_ { requestId := .int 2 })]

example : answered.length ≤ 2 ^ 53 ∧ (Rpc.view (Dealer.trace answered)).known = [] ∧
    (Rpc.view (Dealer.trace answered)).pending = [] ∧ (Rpc.view (Dealer.trace answered)).drawn = 2 := by decide

example : NoErrors (Dealer.trace answered) := by
  have h : ∀ e ∈ Dealer.trace answered, ∀ s m, e.1 ≠ .receiveMessage s (.error m) := by
    intro e he s m
    have : e.1 ∈ answered := by
      rw [← (Dealer.C80_dealer_is_table answered (by decide)).1]; exact List.mem_map.2 ⟨e, he, rfl⟩
    intro e2
    rw [e2] at this
    simp [answered, visit] at this
  intro s m o hm
  exact h _ hm s m rfl

end

/-! A broker that has been used and left: a subscription and a publication that was acknowledged. -/

def visited : List Broker.Op :=
  [.addSession { sessionId := .int 1, realm := "r" }, .addSession { sessionId := .int 2, realm := "r" },
   .receiveMessage 1 (.subscribe { requestId := .int 1, topic := "t" }),
   .receivePublish 2 { requestId := .int 5, topic := "t", options := [(.str "acknowledge", .bool true)] },
   .removeSession 1, .removeSession 2]

example : (Pub.view (Broker.trace visited)).known = [] ∧ (Pub.view (Broker.trace visited)).drawn = 2 := by decide

end Wamp.Spec.AsNew
