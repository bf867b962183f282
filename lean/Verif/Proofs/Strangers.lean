import Verif.Spec.Strangers
import Verif.Proofs.Stack
import Verif.Proofs.AcceptorInv

/-! # Strangers do not get in -/

namespace Wamp.Spec.Stack
open RawSocket Net Hs

/-! ## Sessions that are in -/

theorem InBroker.snoc {ops : List Broker.Op} {d : SessionDetails} (h : InBroker ops d) {op : Broker.Op}
    (hop : op ≠ .removeSession d.sessionId.val) : InBroker (ops ++ [op]) d := by
  obtain ⟨pre, post, rfl, h2, h3⟩ := h
  refine ⟨pre, post ++ [op], by simp, h2, ?_⟩
  rw [List.mem_append, List.mem_singleton]
  rintro (h | h)
  · exact h3 h
  · exact hop h.symm

theorem InDealer.snoc {ops : List Dealer.Op} {d : SessionDetails} (h : InDealer ops d) {op : Dealer.Op}
    (hop : op ≠ .removeSession d.sessionId.val) : InDealer (ops ++ [op]) d := by
  obtain ⟨pre, post, rfl, h2, h3⟩ := h
  refine ⟨pre, post ++ [op], by simp, h2, ?_⟩
  rw [List.mem_append, List.mem_singleton]
  rintro (h | h)
  · exact h3 h
  · exact hop h.symm

theorem InBroker.known {ops : List Broker.Op} {d : SessionDetails} (h : InBroker ops d) :
    d.sessionId.val ∈ (Pub.view (Broker.trace ops)).known := by
  obtain ⟨pre, post, rfl, h2, h3⟩ := h
  induction post using snoc_induction with
  | nil =>
    rw [bknown_snoc]
    refine .inl ?_
    cases ho : Broker.outcome pre (.addSession d) with
    | error e => rw [ho] at h2; cases h2
    | ok x => exact ⟨d, x, rfl, rfl⟩
  | snoc l op ih =>
    rw [List.mem_append, List.mem_singleton] at h3
    rw [← List.cons_append, ← List.append_assoc, bknown_snoc]
    refine .inr ⟨ih (fun h => h3 (.inl h)), ?_⟩
    rintro ⟨out, e⟩
    exact h3 (.inr (congrArg Prod.fst e).symm)

/-! ## The dialog -/

theorem grun_snoc (r : Setup) (sched : List GAct) (a : GAct) : grun r (sched ++ [a]) = (grun r sched).gstep r a := by simp [grun]

theorem dialog_fst (r : Setup) (sched : List GAct) (c : Nat) :
    (sched.foldl (fun (x : Stack × Option (PyInt × List Acceptor.In)) a => (x.1.gstep r a, dialogStep x.1 c x.2 a)) ({}, none)).1 =
      grun r sched := by
  induction sched using snoc_induction with
  | nil => rfl
  | snoc l a ih => rw [grun_snoc, List.foldl_append]; simp only [List.foldl]; rw [ih]

theorem dialog_snoc (r : Setup) (sched : List GAct) (a : GAct) (c : Nat) :
    dialog r (sched ++ [a]) c = dialogStep (grun r sched) c (dialog r sched c) a := by
  rw [dialog, List.foldl_append]
  simp only [List.foldl]
  rw [dialog_fst]
  rfl

theorem Consented.snoc {r : Setup} {sched : List GAct} {d : SessionDetails} (h : Consented r sched d) (a : GAct) :
    Consented r (sched ++ [a]) d := by
  obtain ⟨pre, c, env, post, ins, m, hello, resp, rfl, h⟩ := h
  exact ⟨pre, c, env, post ++ [a], ins, m, hello, resp, by simp, h⟩

/-! ## The acceptor -/

theorem verdict_more {r : Setup} {f : Format} {a a' : Acceptor} {env : AuthEnv} {data b : Bytes} (h : verdict r f a env data = .more a' b) :
    ∃ m, f.wire.deserialize data = .ok m ∧ a' = (a.receiveMessage r.crypto env m).1 := by
  unfold verdict Acceptor.receive at h
  cases hm : f.wire.deserialize data with
  | error e => rw [hm] at h; cases h
  | ok m =>
    rw [hm] at h
    dsimp only at h
    refine ⟨m, rfl, ?_⟩
    generalize a.receiveMessage r.crypto env m = o at h ⊢
    obtain ⟨a2, out⟩ := o
    cases out with
    | error e => cases h
    | ok t =>
      cases t with
      | none => cases h
      | some m2 =>
        dsimp only at h
        cases hs : f.wire.serialize m2 with
        | error e => rw [hs] at h; cases h
        | ok b2 =>
          rw [hs] at h
          cases m2 <;> simp only [Except.map] at h <;> (repeat' split at h) <;> cases h <;> rfl

theorem verdict_welcome {r : Setup} {f : Format} {a : Acceptor} {d : SessionDetails} {env : AuthEnv} {data b : Bytes}
    (h : verdict r f a env data = .welcome d b) :
    ∃ m, f.wire.deserialize data = .ok m ∧ (a.receiveMessage r.crypto env m).1.sessionDetails = some d := by
  unfold verdict Acceptor.receive at h
  cases hm : f.wire.deserialize data with
  | error e => rw [hm] at h; cases h
  | ok m =>
    rw [hm] at h
    dsimp only at h
    refine ⟨m, rfl, ?_⟩
    generalize a.receiveMessage r.crypto env m = o at h ⊢
    obtain ⟨a2, out⟩ := o
    cases out with
    | error e => cases h
    | ok t =>
      cases t with
      | none => cases h
      | some m2 =>
        dsimp only at h
        cases hs : f.wire.serialize m2 with
        | error e => rw [hs] at h; cases h
        | ok b2 =>
          rw [hs] at h
          have key : (match a2.getSessionDetails with
              | .error _ => Verdict.away (frame b2)
              | .ok d => if b2.length < 2 ^ 24 then .welcome d (frame b2) else .away []) = .welcome d b → a2.sessionDetails = some d := by
            intro h
            unfold Acceptor.getSessionDetails at h
            cases hd : a2.sessionDetails with
            | none => rw [hd] at h; cases h
            | some d2 =>
              rw [hd] at h
              dsimp only at h
              split at h
              · cases h; rfl
              · cases h
          cases m2 <;> simp only [Except.map] at h <;> first | exact key h | (split at h <;> cases h)

open Acceptor in
theorem welcome_consent (cr : Crypto) (roles : Option PyDict) (sid : PyInt) (ins : List In) (i : In) (d : SessionDetails)
    (hn : (after cr (init true roles sid) ins).sessionDetails = none)
    (hd : ((after cr (init true roles sid) ins).receiveMessage cr i.1 i.2).1.sessionDetails = some d) :
    (∃ w, reply cr (init true roles sid) ins i = .ok (some (.welcome w))) ∧
    ∃ hello r, Justified cr (init true roles sid) ins i hello r ∧ d = ⟨sid, hello.realm, r.authid, r.authrole⟩ := by
  unfold reply
  have hi := inv_after cr true roles sid ins
  have ho := outcome cr _ ins i _ hi
  generalize (after cr (init true roles sid) ins).receiveMessage cr i.1 i.2 = o at *
  cases ho with
  | quiet q => rw [hn] at hd; cases hd
  | refused _ q => dsimp only at hd; rw [hn] at hd; cases hd
  | aborted _ q => dsimp only at hd; rw [hn] at hd; cases hd
  | challenged _ _ _ _ _ _ _ h5 => dsimp only at hd; rw [h5, hn] at hd; cases hd
  | welcomed hs h1 h2 h3 h4 why =>
    have hsid : (after cr (init true roles sid) ins).sessionId = sid := hi.sid
    injection hd with hd
    rw [h3, hsid] at hd
    refine ⟨⟨_, rfl⟩, ?_⟩
    rcases why with ⟨hf, _⟩ | ⟨r, h1, h2, h3, rfl, rfl, rfl⟩ | ⟨a, env, ch, r, h1, h2, h3, h4, _, _, rfl, rfl, rfl⟩
    · rw [hi.auth] at hf; cases hf
    · exact ⟨_, r, .inl ⟨h1, h2, h3⟩, hd.symm⟩
    · exact ⟨_, r, .inr ⟨a, env, ch, h1, h2, h3, h4⟩, hd.symm⟩

/-! ## The invariant -/

variable {r : Setup}

/-- What holds of a connection -/
def Known (r : Setup) (sched : List GAct) (n : Stack) (c : Nat) : RouterEnd → Prop
  | .greeting sid => dialog r sched c = some (sid, [])
  | .accepting _ a => a.sessionDetails = none ∧ ∃ sid ins, dialog r sched c = some (sid, ins) ∧
      a = Acceptor.after r.crypto (Acceptor.init r.hasAuthenticator r.roles sid) ins
  | .attached _ s => ∃ d, d.sessionId.val = s ∧ InBroker n.broker d ∧ InDealer n.dealer d ∧ Consented r sched d
  | .closed => True

structure GInv (r : Setup) (sched : List GAct) (n : Stack) : Prop where
  link : ∀ c l, n.links c = some l → Known r sched n c l.router
  one : ∀ c c' l l' f f' s, n.links c = some l → l.router = .attached f s → n.links c' = some l' → l'.router = .attached f' s → c = c'
  bops : ∀ pre op post s, n.broker = pre ++ op :: post → brokerFor op = some s →
    ∃ d, d.sessionId.val = s ∧ InBroker pre d ∧ Consented r sched d
  dops : ∀ pre op post s, n.dealer = pre ++ op :: post → dealerFor op = some s →
    ∃ d, d.sessionId.val = s ∧ InDealer pre d ∧ Consented r sched d
  badd : ∀ op ∈ n.broker, brokerFor op = none → ∃ d, op = .addSession d ∧ Consented r sched d
  dadd : ∀ op ∈ n.dealer, dealerFor op = none → ∃ d, op = .addSession d ∧ Consented r sched d

theorem more_added {α : Type} {sched : List GAct} (a : GAct) {p : SessionDetails → α} {op : α}
    (h : ∃ d, op = p d ∧ Consented r sched d) : ∃ d, op = p d ∧ Consented r (sched ++ [a]) d := by
  obtain ⟨d, h1, h2⟩ := h
  exact ⟨d, h1, h2.snoc a⟩

/-- Something happens to one connection, and nothing to the broker and the dealer. -/
theorem GInv.set {sched : List GAct} {n : Stack} (h : GInv r sched n) (a : GAct) (c : Nat) (x : Option Link)
    (hx : ∀ l, x = some l → Known r (sched ++ [a]) n c l.router ∧
      ∀ f s, l.router = .attached f s → ∃ l0 f0, n.links c = some l0 ∧ l0.router = .attached f0 s)
    (hd : ∀ c', c' ≠ c → dialog r (sched ++ [a]) c' = dialog r sched c') : GInv r (sched ++ [a]) (n.set c x) := by
  refine ⟨?_, ?_, ?_, ?_, fun op hm ho => more_added a (h.badd op hm ho), fun op hm ho => more_added a (h.dadd op hm ho)⟩
  · intro c' l hl
    rw [set_links] at hl
    split at hl
    · rename_i hc
      subst hc
      have := (hx l hl).1
      cases hr : l.router <;> rw [hr] at this <;> exact this
    · rename_i hc
      have := h.link c' l hl
      cases hr : l.router <;> rw [hr] at this
      · show dialog _ _ _ = _; rw [hd c' hc]; exact this
      · obtain ⟨g1, g2⟩ := this
        exact ⟨g1, by rw [hd c' hc]; exact g2⟩
      · obtain ⟨d, g1, g2, g3, g4⟩ := this
        exact ⟨d, g1, g2, g3, g4.snoc a⟩
      · trivial
  · intro c1 c2 l1 l2 f1 f2 s h1 h2 h3 h4
    rw [set_links] at h1 h3
    have key : ∀ c3 l3 f3, (if c3 = c then x else n.links c3) = some l3 → l3.router = .attached f3 s →
        ∃ l4 f4, n.links c3 = some l4 ∧ l4.router = .attached f4 s := by
      intro c3 l3 f3 g1 g2
      split at g1
      · rename_i hcc
        subst hcc
        exact (hx l3 g1).2 f3 s g2
      · exact ⟨l3, f3, g1, g2⟩
    obtain ⟨l1', f1', g1, g2⟩ := key c1 l1 f1 h1 h2
    obtain ⟨l2', f2', g3, g4⟩ := key c2 l2 f2 h3 h4
    exact h.one c1 c2 l1' l2' f1' f2' s g1 g2 g3 g4
  · intro pre op post s e ho
    obtain ⟨d, g1, g2, g3⟩ := h.bops pre op post s e ho
    exact ⟨d, g1, g2, g3.snoc a⟩
  · intro pre op post s e ho
    obtain ⟨d, g1, g2, g3⟩ := h.dops pre op post s e ho
    exact ⟨d, g1, g2, g3.snoc a⟩

/-- Nothing happens. -/
theorem GInv.idle {sched : List GAct} {n : Stack} (h : GInv r sched n) (a : GAct)
    (hd : ∀ c' l, n.links c' = some l → dialog r (sched ++ [a]) c' = dialog r sched c') : GInv r (sched ++ [a]) n := by
  refine ⟨?_, h.one, ?_, ?_, fun op hm ho => more_added a (h.badd op hm ho), fun op hm ho => more_added a (h.dadd op hm ho)⟩
  · intro c' l hl
    have := h.link c' l hl
    cases hr : l.router <;> rw [hr] at this
    · show dialog _ _ _ = _; rw [hd c' l hl]; exact this
    · obtain ⟨g1, g2⟩ := this
      exact ⟨g1, by rw [hd c' l hl]; exact g2⟩
    · obtain ⟨d, g1, g2, g3, g4⟩ := this
      exact ⟨d, g1, g2, g3, g4.snoc a⟩
    · trivial
  · intro pre op post s e ho
    obtain ⟨d, g1, g2, g3⟩ := h.bops pre op post s e ho
    exact ⟨d, g1, g2, g3.snoc a⟩
  · intro pre op post s e ho
    obtain ⟨d, g1, g2, g3⟩ := h.dops pre op post s e ho
    exact ⟨d, g1, g2, g3.snoc a⟩

theorem GInv.push {sched : List GAct} {n : Stack} (h : GInv r sched n) (out : List (Int × Message)) : GInv r sched (n.push out) := by
  have hl : ∀ c l, (n.push out).links c = some l → ∃ l', n.links c = some l' ∧ l.router = l'.router := by
    intro c l hk
    rw [push_links] at hk
    cases hc : n.links c with
    | none => rw [hc] at hk; cases hk
    | some l' => rw [hc] at hk; cases hk; exact ⟨l', rfl, push_router out l'⟩
  refine ⟨?_, ?_, h.bops, h.dops, h.badd, h.dadd⟩
  · intro c l hk
    obtain ⟨l', h1, h2⟩ := hl c l hk
    have := h.link c l' h1
    rw [h2]
    cases hr : l'.router <;> rw [hr] at this <;> exact this
  · intro c1 c2 l1 l2 f1 f2 s h1 h2 h3 h4
    obtain ⟨l1', g1, g2⟩ := hl c1 l1 h1
    obtain ⟨l2', g3, g4⟩ := hl c2 l2 h3
    rw [g2] at h2
    rw [g4] at h4
    exact h.one c1 c2 l1' l2' f1 f2 s g1 h2 g3 h4

theorem snoc_split {α : Type} {l pre post : List α} {a x : α} (h : l ++ [a] = pre ++ x :: post) :
    (pre = l ∧ x = a ∧ post = []) ∨ ∃ post', l = pre ++ x :: post' ∧ post = post' ++ [a] := by
  rcases List.eq_nil_or_concat post with rfl | ⟨post', z, rfl⟩
  · have := List.append_inj' h rfl
    obtain ⟨h1, h2⟩ := this
    injection h2 with h2
    exact .inl ⟨h1.symm, h2.symm, rfl⟩
  · right
    rw [List.concat_eq_append, ← List.cons_append, ← List.append_assoc] at h
    obtain ⟨h1, h2⟩ := List.append_inj' h rfl
    injection h2 with h2
    exact ⟨post', h1, by rw [List.concat_eq_append, h2]⟩

/-- The router handles a message from a session that is in. -/
theorem GInv.handle {sched : List GAct} {n : Stack} (h : GInv r sched n) {s : Int} (hs : ∃ d, d.sessionId.val = s ∧ InBroker n.broker d ∧
    InDealer n.dealer d ∧ Consented r sched d) (m : Message) : GInv r sched (n.handle s m) := by
  obtain ⟨d, hd1, hd2, hd3, hd4⟩ := hs
  unfold Stack.handle
  cases hb : brokerCall s m with
  | some op =>
    dsimp only
    refine GInv.push (n := { n with broker := n.broker ++ [op] }) ?_ _
    have hop := brokerCall_op hb
    refine ⟨?_, h.one, ?_, h.dops, ?_, h.dadd⟩
    · intro c l hl
      have := h.link c l hl
      cases hr : l.router <;> rw [hr] at this <;> try exact this
      obtain ⟨d', g1, g2, g3, g4⟩ := this
      exact ⟨d', g1, g2.snoc (hop.2 _), g3, g4⟩
    · intro pre op' post s' e ho
      rcases snoc_split e with ⟨rfl, rfl, rfl⟩ | ⟨post', e1, -⟩
      · have : s' = s := by
          cases m <;> simp only [brokerCall, reduceCtorEq, Option.some.injEq] at hb <;> subst hb <;> cases ho <;> rfl
        subst this
        exact ⟨d, hd1, hd2, hd4⟩
      · exact h.bops pre op' post' s' e1 ho
    · intro op' hm ho
      rw [List.mem_append, List.mem_singleton] at hm
      rcases hm with hm | rfl
      · exact h.badd op' hm ho
      · exfalso
        cases m <;> simp only [brokerCall, reduceCtorEq, Option.some.injEq] at hb <;> subst hb <;> cases ho
  | none =>
    cases hdl : dealerCall s m with
    | some op =>
      dsimp only
      refine GInv.push (n := { n with dealer := n.dealer ++ [op] }) ?_ _
      have hop := dealerCall_op hdl
      refine ⟨?_, h.one, h.bops, ?_, h.badd, ?_⟩
      · intro c l hl
        have := h.link c l hl
        cases hr : l.router <;> rw [hr] at this <;> try exact this
        obtain ⟨d', g1, g2, g3, g4⟩ := this
        exact ⟨d', g1, g2, g3.snoc (hop.2 _), g4⟩
      · intro pre op' post s' e ho
        rcases snoc_split e with ⟨rfl, rfl, rfl⟩ | ⟨post', e1, -⟩
        · have : s' = s := by
            cases m <;> simp only [dealerCall, reduceCtorEq, Option.some.injEq] at hdl <;> subst hdl <;> cases ho <;> rfl
          subst this
          exact ⟨d, hd1, hd3, hd4⟩
        · exact h.dops pre op' post' s' e1 ho
      · intro op' hm ho
        rw [List.mem_append, List.mem_singleton] at hm
        rcases hm with hm | rfl
        · exact h.dadd op' hm ho
        · exfalso
          cases m <;> simp only [dealerCall, reduceCtorEq, Option.some.injEq] at hdl <;> subst hdl <;> cases ho
    | none => exact h

/-- A client that is in goes. -/
theorem GInv.leave {sched : List GAct} {n : Stack} (h : GInv r sched n) (a : GAct) {c : Nat} {l : Link} {f : Format} {s : Int}
    (hl : n.links c = some l) (hr : l.router = .attached f s)
    (hd : ∀ c', c' ≠ c → dialog r (sched ++ [a]) c' = dialog r sched c') :
    GInv r (sched ++ [a])
      (({ n with broker := n.broker ++ [.removeSession s], dealer := n.dealer ++ [.removeSession s] } : Stack).set c none) := by
  have hlink : ∀ c' l', (if c' = c then none else n.links c') = some l' → c' ≠ c ∧ n.links c' = some l' := by
    intro c' l' h1
    split at h1
    · cases h1
    · rename_i hcc; exact ⟨hcc, h1⟩
  have hkn := h.link c l hl
  rw [hr] at hkn
  obtain ⟨d0, hd0⟩ := hkn
  refine ⟨?_, ?_, ?_, ?_, ?_, ?_⟩
  · intro c' l' hl'
    obtain ⟨hc, hl2⟩ := hlink c' l' hl'
    have := h.link c' l' hl2
    cases hr' : l'.router <;> rw [hr'] at this
    · show dialog _ _ _ = _; rw [hd c' hc]; exact this
    · obtain ⟨g1, g2⟩ := this
      exact ⟨g1, by rw [hd c' hc]; exact g2⟩
    · obtain ⟨d, g1, g2, g3, g4⟩ := this
      have hne : d.sessionId.val ≠ s := by
        rintro rfl
        rw [← g1] at hr'
        exact hc (h.one c' c l' l _ _ _ hl2 hr' hl hr)
      refine ⟨d, g1, g2.snoc ?_, g3.snoc ?_, g4.snoc a⟩
      · intro e; injection e with e; exact hne e.symm
      · intro e; injection e with e; exact hne e.symm
    · trivial
  · intro c1 c2 l1 l2 f1 f2 s2 h1 h2 h3 h4
    exact h.one c1 c2 l1 l2 f1 f2 s2 (hlink _ _ h1).2 h2 (hlink _ _ h3).2 h4
  · intro pre op post s' e ho
    rcases snoc_split e with ⟨rfl, rfl, rfl⟩ | ⟨post', e1, -⟩
    · cases ho
      exact ⟨d0, hd0.1, hd0.2.1, hd0.2.2.2.snoc a⟩
    · obtain ⟨d, g1, g2, g3⟩ := h.bops pre op post' s' e1 ho
      exact ⟨d, g1, g2, g3.snoc a⟩
  · intro pre op post s' e ho
    rcases snoc_split e with ⟨rfl, rfl, rfl⟩ | ⟨post', e1, -⟩
    · cases ho
      exact ⟨d0, hd0.1, hd0.2.2.1, hd0.2.2.2.snoc a⟩
    · obtain ⟨d, g1, g2, g3⟩ := h.dops pre op post' s' e1 ho
      exact ⟨d, g1, g2, g3.snoc a⟩
  · intro op hm ho
    rcases List.mem_append.1 hm with hm | hm
    · exact more_added a (h.badd op hm ho)
    · rw [List.mem_singleton] at hm; subst hm; cases ho
  · intro op hm ho
    rcases List.mem_append.1 hm with hm | hm
    · exact more_added a (h.dadd op hm ho)
    · rw [List.mem_singleton] at hm; subst hm; cases ho

/-- A client is let in, or its session id is in use. -/
theorem GInv.join {sched : List GAct} {n : Stack} (h : GInv r sched n) (a : GAct) {c : Nat} (d : SessionDetails)
    (hcon : Consented r (sched ++ [a]) d) (l1 l2 : Link) (f : Format) (h1 : l1.router = .attached f d.sessionId.val)
    (h2 : l2.router = .closed) (hd : ∀ c', c' ≠ c → dialog r (sched ++ [a]) c' = dialog r sched c') :
    GInv r (sched ++ [a])
      (if returned (Broker.outcome n.broker (.addSession d)) ∧ returned (Dealer.outcome n.dealer (.addSession d)) then
        ({ n with broker := n.broker ++ [.addSession d], dealer := n.dealer ++ [.addSession d] } : Stack).set c (some l1)
      else ({ n with broker := n.broker ++ [.addSession d], dealer := n.dealer ++ [.addSession d] } : Stack).set c (some l2)) := by
  have hold : ∀ c' l', c' ≠ c → n.links c' = some l' →
      Known r (sched ++ [a]) { n with broker := n.broker ++ [.addSession d], dealer := n.dealer ++ [.addSession d] } c' l'.router := by
    intro c' l' hc hl'
    have := h.link c' l' hl'
    cases hr' : l'.router <;> rw [hr'] at this
    · show dialog _ _ _ = _; rw [hd c' hc]; exact this
    · obtain ⟨g1, g2⟩ := this
      exact ⟨g1, by rw [hd c' hc]; exact g2⟩
    · obtain ⟨d', g1, g2, g3, g4⟩ := this
      exact ⟨d', g1, g2.snoc (by intro e; cases e), g3.snoc (by intro e; cases e), g4.snoc a⟩
    · trivial
  have hbops : ∀ pre op post s, n.broker ++ [.addSession d] = pre ++ op :: post → brokerFor op = some s →
      ∃ d, d.sessionId.val = s ∧ InBroker pre d ∧ Consented r (sched ++ [a]) d := by
    intro pre op post s' e ho
    rcases snoc_split e with ⟨rfl, rfl, rfl⟩ | ⟨post', e1, -⟩
    · cases ho
    · obtain ⟨d, g1, g2, g3⟩ := h.bops pre op post' s' e1 ho
      exact ⟨d, g1, g2, g3.snoc a⟩
  have hdops : ∀ pre op post s, n.dealer ++ [.addSession d] = pre ++ op :: post → dealerFor op = some s →
      ∃ d, d.sessionId.val = s ∧ InDealer pre d ∧ Consented r (sched ++ [a]) d := by
    intro pre op post s' e ho
    rcases snoc_split e with ⟨rfl, rfl, rfl⟩ | ⟨post', e1, -⟩
    · cases ho
    · obtain ⟨d, g1, g2, g3⟩ := h.dops pre op post' s' e1 ho
      exact ⟨d, g1, g2, g3.snoc a⟩
  have hbadd : ∀ op ∈ n.broker ++ [.addSession d], brokerFor op = none → ∃ d', op = .addSession d' ∧ Consented r (sched ++ [a]) d' := by
    intro op hm ho
    rcases List.mem_append.1 hm with hm | hm
    · exact more_added a (h.badd op hm ho)
    · rw [List.mem_singleton] at hm; exact ⟨d, hm, hcon⟩
  have hdadd : ∀ op ∈ n.dealer ++ [.addSession d], dealerFor op = none → ∃ d', op = .addSession d' ∧ Consented r (sched ++ [a]) d' := by
    intro op hm ho
    rcases List.mem_append.1 hm with hm | hm
    · exact more_added a (h.dadd op hm ho)
    · rw [List.mem_singleton] at hm; exact ⟨d, hm, hcon⟩
  split
  · rename_i hret
    have hfree : ∀ c' l' f', n.links c' = some l' → l'.router ≠ .attached f' d.sessionId.val := by
      intro c' l' f' g1 g2
      have := h.link c' l' g1
      rw [g2] at this
      obtain ⟨d', k1, k2, -⟩ := this
      have hk := k2.known
      rw [k1] at hk
      obtain ⟨e, he⟩ := (badd_outcome n.broker d).2 hk
      have := hret.1
      rw [he] at this
      cases this
    refine ⟨?_, ?_, hbops, hdops, hbadd, hdadd⟩
    · intro c' l' hl'
      rw [set_links] at hl'
      split at hl'
      · cases hl'
        rw [h1]
        exact ⟨d, rfl, ⟨n.broker, [], by simp [Stack.set], hret.1, by simp⟩, ⟨n.dealer, [], by simp [Stack.set], hret.2, by simp⟩, hcon⟩
      · rename_i hc
        have := hold c' l' hc hl'
        cases hr : l'.router <;> rw [hr] at this <;> exact this
    · intro c1 c2 m1 m2 f1 f2 s g1 g2 g3 g4
      rw [set_links] at g1 g3
      split at g1
      · cases g1
        rw [h1] at g2; cases g2
        split at g3
        · simp_all
        · exact absurd g4 (hfree c2 m2 f2 g3)
      · split at g3
        · cases g3
          rw [h1] at g4; cases g4
          exact absurd g2 (hfree c1 m1 f1 g1)
        · exact h.one c1 c2 m1 m2 f1 f2 s g1 g2 g3 g4
  · refine ⟨?_, ?_, hbops, hdops, hbadd, hdadd⟩
    · intro c' l' hl'
      rw [set_links] at hl'
      split at hl'
      · cases hl'
        rw [h2]
        trivial
      · rename_i hc
        have := hold c' l' hc hl'
        cases hr : l'.router <;> rw [hr] at this <;> exact this
    · intro c1 c2 m1 m2 f1 f2 s g1 g2 g3 g4
      rw [set_links] at g1 g3
      split at g1
      · cases g1
        rw [h2] at g2; cases g2
      · split at g3
        · cases g3
          rw [h2] at g4; cases g4
        · exact h.one c1 c2 m1 m2 f1 f2 s g1 g2 g3 g4

/-! ## One step -/

/-- A connection changes, but not the router's end of it. -/
theorem GInv.keep {sched : List GAct} {n : Stack} (h : GInv r sched n) (a : GAct) {c : Nat} {l l' : Link} (hl : n.links c = some l)
    (hr : l'.router = l.router) (hd : ∀ c', dialog r (sched ++ [a]) c' = dialog r sched c') : GInv r (sched ++ [a]) (n.set c (some l')) := by
  refine h.set a c _ ?_ (fun c' _ => hd c')
  intro l2 hl2
  cases hl2
  refine ⟨?_, fun f s e => ⟨l, f, hl, by rw [← hr]; exact e⟩⟩
  have := h.link c l hl
  rw [hr]
  cases hr' : l.router <;> rw [hr'] at this
  · show dialog _ _ _ = _; rw [hd c]; exact this
  · obtain ⟨g1, g2⟩ := this
    exact ⟨g1, by rw [hd c]; exact g2⟩
  · obtain ⟨d, g1, g2, g3, g4⟩ := this
    exact ⟨d, g1, g2, g3, g4.snoc a⟩
  · trivial

theorem greet_router (l : Link) (sid : PyInt) :
    (l.greet r sid).router = l.router ∨ (l.greet r sid).router = .closed ∨
      ∃ f, (l.greet r sid).router = .accepting f (Acceptor.init r.hasAuthenticator r.roles sid) := by
  unfold Link.greet
  repeat' split
  · exact .inl rfl
  · exact .inr (.inl rfl)
  · exact .inr (.inl rfl)
  · exact .inr (.inl rfl)
  · exact .inr (.inr ⟨_, rfl⟩)

theorem send_router (l : Link) (m : Message) : (l.send m).router = l.router := by
  unfold Link.send
  split <;> rfl

theorem dialog_serve_other (sched : List GAct) (c : Nat) (env : AuthEnv) (c' : Nat) (hc : c' ≠ c) :
    dialog r (sched ++ [.act (.serve c env)]) c' = dialog r sched c' := by
  rw [dialog_snoc]
  simp only [dialogStep]
  rw [if_neg (fun e => hc e.symm)]

theorem dialog_serve_none (sched : List GAct) (c : Nat) (env : AuthEnv) (hh : (grun r sched).hears c = none) (c' : Nat) :
    dialog r (sched ++ [.act (.serve c env)]) c' = dialog r sched c' := by
  by_cases hc : c' = c
  · subst hc
    rw [dialog_snoc]
    simp only [dialogStep, if_pos]
    rw [hh]
    split <;> simp_all
  · exact dialog_serve_other sched c env c' hc

theorem dialog_serve (sched : List GAct) (c : Nat) (env : AuthEnv) {m : Message} (hh : (grun r sched).hears c = some m) {sid : PyInt}
    {ins : List Acceptor.In} (hd : dialog r sched c = some (sid, ins)) :
    dialog r (sched ++ [.act (.serve c env)]) c = some (sid, ins ++ [(env, m)]) := by
  rw [dialog_snoc]
  simp only [dialogStep, if_pos]
  rw [hd, hh]

theorem GInv.serve (hr : r.hasAuthenticator = true) {sched : List GAct} (h : GInv r sched (grun r sched)) (c : Nat) (env : AuthEnv)
    (l : Link) (hl : (grun r sched).links c = some l) :
    GInv r (sched ++ [.act (.serve c env)]) ((grun r sched).serve r c l env) := by
  have hlink := h.link c l hl
  have hhears : (grun r sched).hears c = match l.router, readOne l.upHas with
      | .accepting f _, some (x, _) => (f.wire.deserialize x.payload).toOption
      | _, _ => none := by
    rw [Stack.hears, hl]
    rfl
  unfold Stack.serve
  cases hro : l.router with
  | greeting sid =>
    rw [hro] at hlink hhears
    have hd := dialog_serve_none sched c env (hhears.trans rfl)
    dsimp only
    refine h.set _ c _ ?_ (fun c' _ => hd c')
    intro l2 hl2
    cases hl2
    rcases greet_router (r := r) l sid with e | e | ⟨f, e⟩
    · rw [e, hro]
      exact ⟨(hd c).trans hlink, fun f s e => by cases e⟩
    · rw [e]
      exact ⟨trivial, fun f s e => by cases e⟩
    · rw [e]
      exact ⟨⟨rfl, sid, [], (hd c).trans hlink, rfl⟩, fun f s e => by cases e⟩
  | closed =>
    rw [hro] at hhears
    exact h.idle _ (fun c' _ _ => dialog_serve_none sched c env (hhears.trans rfl) c')
  | attached f s =>
    rw [hro] at hlink hhears
    have hd := dialog_serve_none sched c env (hhears.trans (by cases readOne l.upHas <;> rfl))
    dsimp only
    cases hread : readOne l.upHas with
    | none => exact h.idle _ (fun c' _ _ => hd c')
    | some z =>
      obtain ⟨x, rest⟩ := z
      dsimp only
      have hset := h.keep (.act (.serve c env)) (l' := { l with router := .attached f s, upHas := rest }) hl hro.symm hd
      cases f.wire.deserialize x.payload with
      | error e => exact hset
      | ok m =>
        refine hset.handle ?_ m
        obtain ⟨d, g1, g2, g3, g4⟩ := hlink
        exact ⟨d, g1, g2, g3, g4.snoc _⟩
  | accepting f a =>
    rw [hro] at hlink hhears
    obtain ⟨hnone, sid, ins, hdia, rfl⟩ := hlink
    dsimp only
    cases hread : readOne l.upHas with
    | none =>
      rw [hread] at hhears
      exact h.idle _ (fun c' _ _ => dialog_serve_none sched c env hhears c')
    | some z =>
      obtain ⟨x, rest⟩ := z
      rw [hread] at hhears
      dsimp only at hhears ⊢
      cases hv : verdict r f (Acceptor.after r.crypto (Acceptor.init r.hasAuthenticator r.roles sid) ins) env x.payload with
      | away b =>
        dsimp only
        refine h.set _ c _ ?_ (fun c' hc => dialog_serve_other sched c env c' hc)
        intro l2 hl2
        cases hl2
        exact ⟨trivial, fun f s e => by cases e⟩
      | more a' b =>
        obtain ⟨m, hm, rfl⟩ := verdict_more hv
        rw [hm] at hhears
        dsimp only
        refine h.set _ c _ ?_ (fun c' hc => dialog_serve_other sched c env c' hc)
        intro l2 hl2
        cases hl2
        refine ⟨⟨?_, sid, ins ++ [(env, m)], dialog_serve sched c env hhears hdia, (Acceptor.after_snoc r.crypto _ ins (env, m)).symm⟩, fun f s e => by cases e⟩
        rcases verdict_cases r f _ env x.payload hnone with ⟨t, hv', -⟩ | ⟨a2, t, hv', ha, -⟩ | ⟨d, w, t, hv', -⟩
        · rw [hv] at hv'; cases hv'
        · rw [hv] at hv'; cases hv'; exact ha
        · rw [hv] at hv'; cases hv'
      | welcome d b =>
        obtain ⟨m, hm, hdet⟩ := verdict_welcome hv
        rw [hm] at hhears
        rw [hr] at hnone hdet
        obtain ⟨hw, hello, resp, hj, hd⟩ := welcome_consent r.crypto r.roles sid ins (env, m) d hnone hdet
        have hsid : d.sessionId = sid := by rw [hd]
        refine h.join _ d ?_ _ _ f rfl rfl (fun c' hc => dialog_serve_other sched c env c' hc)
        refine ⟨sched, c, env, [], ins, m, hello, resp, rfl, hhears, ?_, ?_, ?_, ?_⟩
        · rw [hsid]; exact hdia
        · rw [hsid]; exact hw
        · rw [hsid]; exact hj
        · rw [hsid]; exact hd

theorem ginv_run (hr : r.hasAuthenticator = true) (sched : List GAct) : GInv r sched (grun r sched) := by
  induction sched using snoc_induction with
  | nil =>
    refine ⟨?_, ?_, ?_, ?_, ?_, ?_⟩
    · intro c l h; cases h
    · intro c c' l l' f f' s h; cases h
    · intro pre op post s e; exact absurd e (by simp [grun])
    · intro pre op post s e; exact absurd e (by simp [grun])
    · intro op h; cases h
    · intro op h; cases h
  | snoc sched a h =>
    rw [grun_snoc]
    have hquiet : (∀ c n x, dialogStep n c x a = x) → ∀ c', dialog r (sched ++ [a]) c' = dialog r sched c' :=
      fun hq c' => by rw [dialog_snoc, hq]
    cases a with
    | inject c b =>
      simp only [Stack.gstep]
      have hd := hquiet (fun _ _ _ => rfl)
      cases hl : (grun r sched).links c with
      | none => exact h.idle _ (fun c' _ _ => hd c')
      | some l => exact h.keep _ hl rfl hd
    | act a =>
      simp only [Stack.gstep]
      cases a with
      | connect c cfg sid =>
        simp only [Stack.step]
        have hd : ∀ c', c' ≠ c → dialog r (sched ++ [.act (.connect c cfg sid)]) c' = dialog r sched c' := by
          intro c' hc
          rw [dialog_snoc]
          simp only [dialogStep]
          rw [if_neg (fun e => hc e.1.symm)]
        have hidle : GInv r (sched ++ [.act (.connect c cfg sid)]) (grun r sched) := by
          refine h.idle _ ?_
          intro c' l hl
          by_cases hc : c' = c
          · subst hc
            rw [dialog_snoc]
            simp [dialogStep, hl]
          · exact hd c' hc
        cases hl : (grun r sched).links c with
        | some l => exact hidle
        | none =>
          cases hh : sendHandshake ⟨cfg.format.type, cfg.size⟩ with
          | error e => exact hidle
          | ok t =>
            dsimp only
            refine h.set _ c _ ?_ hd
            intro l hl2
            cases hl2
            refine ⟨?_, fun f s e => by cases e⟩
            show dialog _ _ _ = _
            rw [dialog_snoc]
            simp [dialogStep, hl]
      | carryUp c k =>
        simp only [Stack.step]
        have hd := hquiet (fun _ _ _ => rfl)
        cases hl : (grun r sched).links c with
        | none => exact h.idle _ (fun c' _ _ => hd c')
        | some l => exact h.keep _ hl rfl hd
      | carryDown c k =>
        simp only [Stack.step]
        have hd := hquiet (fun _ _ _ => rfl)
        cases hl : (grun r sched).links c with
        | none => exact h.idle _ (fun c' _ _ => hd c')
        | some l => exact h.keep _ hl rfl hd
      | hear c =>
        simp only [Stack.step]
        have hd := hquiet (fun _ _ _ => rfl)
        cases hl : (grun r sched).links c with
        | none => exact h.idle _ (fun c' _ _ => hd c')
        | some l => exact h.keep _ hl (hear_router l) hd
      | send c m =>
        simp only [Stack.step]
        have hd := hquiet (fun _ _ _ => rfl)
        cases hl : (grun r sched).links c with
        | none => exact h.idle _ (fun c' _ _ => hd c')
        | some l => exact h.keep _ hl (send_router l m) hd
      | serve c env =>
        simp only [Stack.step]
        cases hl : (grun r sched).links c with
        | none =>
          refine h.idle _ (fun c' _ _ => dialog_serve_none sched c env ?_ c')
          rw [Stack.hears, hl]
        | some l => exact h.serve hr c env l hl
      | drop c =>
        simp only [Stack.step]
        have hd : ∀ c', c' ≠ c → dialog r (sched ++ [.act (.drop c)]) c' = dialog r sched c' := by
          intro c' hc
          rw [dialog_snoc]
          simp only [dialogStep]
          rw [if_neg (fun e => hc e.symm)]
        cases hl : (grun r sched).links c with
        | none =>
          refine h.idle _ ?_
          intro c' l hl2
          refine hd c' ?_
          rintro rfl
          rw [hl] at hl2; cases hl2
        | some l =>
          dsimp only
          cases hro : l.router with
          | attached f s => exact h.leave _ hl hro hd
          | _ => exact h.set _ c none (fun l e => by cases e) hd

end Wamp.Spec.Stack
