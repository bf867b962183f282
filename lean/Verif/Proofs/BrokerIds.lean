import Verif.Proofs.BrokerRel

/-! # Broker ids while fewer than 2^53 have been drawn -/

namespace Wamp.Broker
open Spec.Pub

/-- Ids seen so far. -/
def pubIds (tr : List Obs) : List Int := tr.filterMap pubId?
def subIds (tr : List Obs) : List Int := tr.filterMap subId?

theorem draw_small {n : Nat} (h : n < 2 ^ 53) : IdGen.draw n = n + 1 := by rw [draw_eq]; omega

/-- Id bookkeeping: everything shown so far lies in `1..drawn`, publication ids are all different and different from
subscription ids, live topics have different ids. -/
structure Fresh (b : Broker) (tr : List Obs) : Prop where
  live : ∀ t r, b.subscriptionsByTopic.get t = some r → (b.heap r).id ∈ subIds tr
  inj : ∀ t r t' r', b.subscriptionsByTopic.get t = some r → b.subscriptionsByTopic.get t' = some r' →
    (b.heap r).id = (b.heap r').id → t = t'
  pub : ∀ i ∈ pubIds tr, 1 ≤ i ∧ i ≤ (view tr).drawn
  sub : ∀ i ∈ subIds tr, 1 ≤ i ∧ i ≤ (view tr).drawn
  nodup : (pubIds tr).Nodup
  disj : ∀ i ∈ pubIds tr, i ∉ subIds tr

theorem pubIds_snoc (tr : List Obs) (e : Obs) : pubIds (tr ++ [e]) = pubIds tr ++ (pubId? e).toList := by
  simp [pubIds, List.filterMap_append, List.filterMap_cons]; cases pubId? e <;> rfl
theorem subIds_snoc (tr : List Obs) (e : Obs) : subIds (tr ++ [e]) = subIds tr ++ (subId? e).toList := by
  simp [subIds, List.filterMap_append, List.filterMap_cons]; cases subId? e <;> rfl

theorem drawn_next_le (v : View) (e : Obs) : v.drawn ≤ (v.next e).drawn := by
  unfold View.next; split <;> simp <;> split <;> omega

/-- A call that shows no id and only removes topics. -/
theorem Fresh.quiet {b b' : Broker} {tr : List Obs} {e : Obs} (h : Fresh b tr)
    (h1 : pubId? e = none) (h2 : ∀ i, subId? e = some i → i ∈ subIds tr)
    (h3 : ∀ t r, b'.subscriptionsByTopic.get t = some r → b.subscriptionsByTopic.get t = some r ∧ (b'.heap r).id = (b.heap r).id) :
    Fresh b' (tr ++ [e]) := by
  have hd := drawn_next_le (view tr) e
  have hs : ∀ i, i ∈ subIds (tr ++ [e]) ↔ i ∈ subIds tr := by
    intro i; rw [subIds_snoc]
    cases he : subId? e with
    | none => simp
    | some j => simp only [Option.toList, List.mem_append, List.mem_singleton]
                constructor
                · rintro (h | rfl)
                  · exact h
                  · exact h2 _ he
                · exact .inl
  have hp : pubIds (tr ++ [e]) = pubIds tr := by rw [pubIds_snoc, h1]; simp
  refine ⟨?_, ?_, ?_, ?_, ?_, ?_⟩
  · intro t r ht; rw [hs, (h3 t r ht).2]; exact h.live t r (h3 t r ht).1
  · intro t r t' r' ht ht' e
    rw [(h3 t r ht).2, (h3 t' r' ht').2] at e
    exact h.inj t r t' r' (h3 t r ht).1 (h3 t' r' ht').1 e
  · intro i hi; rw [hp] at hi; rw [view_snoc]; have := h.pub i hi; omega
  · intro i hi; rw [hs] at hi; rw [view_snoc]; have := h.sub i hi; omega
  · rw [hp]; exact h.nodup
  · intro i hi; rw [hp] at hi; rw [hs]; exact h.disj i hi

theorem fresh_step (b : Broker) (hb : b.Wf) (tr : List Obs) (hrel : Rel b (view tr)) (h : Fresh b tr) (op : Op)
    (hd : (view (tr ++ [(op, (b.step op).2)])).drawn ≤ 2 ^ 53) :
    Fresh (b.step op).1 (tr ++ [(op, (b.step op).2)]) ∧ ¬ Clash (view tr) (op, (b.step op).2) := by
  rw [view_snoc] at hd
  cases op with
  | addSession dt =>
    refine ⟨?_, by simp [Clash]⟩
    apply h.quiet rfl (by intro i h; cases h)
    intro t r ht
    simp only [step, addSession] at ht ⊢
    split at ht
    · exact ⟨ht, by split <;> rfl⟩
    · exact ⟨ht, by split <;> rfl⟩
  | removeSession s =>
    refine ⟨?_, by simp [Clash]⟩
    apply h.quiet rfl (by intro i h; cases h)
    intro t r ht
    cases hs : b.subscriptionsBySession.get s with
    | none => simp only [step, removeSession, hs] at ht ⊢; exact ⟨ht, trivial⟩
    | some d =>
      obtain ⟨b', k1, k2, k3, k4, k5, k6, k6', k7⟩ := removeSession_ok b hb s d hs
      simp only [step, k1] at ht ⊢
      refine ⟨((k7 t r).1 ht).1, ?_⟩
      by_cases hr : ∃ i, d.get i = some r
      · rw [k6 r hr]; rfl
      · rw [k6' r hr]
  | receiveMessage s m =>
    cases m with
    | subscribe m =>
      cases hs : b.subscriptionsBySession.get s with
      | none =>
        simp only [step, receiveMessage, receiveSubscribe, hs, Except.map]
        exact ⟨h.quiet rfl (by intro i h; cases h) (fun t r ht => ⟨ht, rfl⟩), by simp [Clash]⟩
      | some d =>
        cases ht : b.subscriptionsByTopic.get m.topic with
        | some r0 =>
          have hres := subscribe_old b s m d r0 hs ht
          simp only [step, receiveMessage, hres, Except.map]
          refine ⟨h.quiet rfl ?_ ?_, ?_⟩
          · intro i hi; cases hi; exact h.live _ _ ht
          · intro t r ht; refine ⟨ht, ?_⟩; simp only; split
            · rename_i e; rw [e]
            · rfl
          · simp only [Clash, PyInt.val]
            rintro ⟨x, hx, es, et, ei⟩
            obtain ⟨r, d', k1, k2, k3, k4⟩ := hrel.ids x hx
            exact et (h.inj _ _ _ _ k1 ht (k2.trans ei))
        | none =>
          have hres := subscribe_new b s m d hs ht
          have hany := subscribers_nil_iff.1 (hrel.subs_none ht)
          simp only [step, receiveMessage, hres, Except.map, View.next, hany] at hd ⊢
          have hlt : ∀ t r, b.subscriptionsByTopic.get t = some r → r ≠ b.nextRef := by
            intro t r h e; have := (hb.top t r h).2.2.2; rw [e] at this; exact Nat.lt_irrefl _ this
          have hid : b.idgen.next.2 = ((view tr).drawn : Int) + 1 := by
            rw [hrel.gen, idgen_next]; exact draw_small (by simp at hd; omega)
          rw [hid]
          have hsub : subIds (tr ++ [(.receiveMessage s (.subscribe m), .ok (.reply ⟨.subscribed ⟨m.requestId, .int ((view tr).drawn + 1)⟩, s⟩))])
              = subIds tr ++ [((view tr).drawn : Int) + 1] := by rw [subIds_snoc]; rfl
          have hpub : pubIds (tr ++ [(.receiveMessage s (.subscribe m), .ok (.reply ⟨.subscribed ⟨m.requestId, .int ((view tr).drawn + 1)⟩, s⟩))])
              = pubIds tr := by rw [pubIds_snoc]; simp [pubId?]
          have hview : (view (tr ++ [(.receiveMessage s (.subscribe m), .ok (.reply ⟨.subscribed ⟨m.requestId, .int ((view tr).drawn + 1)⟩, s⟩))])).drawn
              = (view tr).drawn + 1 := by rw [view_snoc]; simp only [View.next, hany]; rfl
          have hnew : ∀ t r, b.subscriptionsByTopic.get t = some r → (b.heap r).id ≠ (view tr).drawn + 1 := by
            intro t r ht e; have := h.sub _ (h.live t r ht); omega
          refine ⟨⟨?_, ?_, ?_, ?_, ?_, ?_⟩, ?_⟩
          · intro t r htr
            simp only [Dict.get_set] at htr ⊢
            rw [hsub]
            split at htr
            · cases htr; simp
            · simp only [if_neg (hlt t r htr)]; exact List.mem_append_left _ (h.live t r htr)
          · intro t r t' r' h1 h2 e
            simp only [Dict.get_set] at h1 h2 e
            split at h1
            · rename_i e1; cases h1
              split at h2
              · rename_i e2; rw [← e1, e2]
              · rw [if_pos rfl, if_neg (hlt _ _ h2)] at e
                exact absurd e.symm (hnew _ _ h2)
            · split at h2
              · cases h2
                rw [if_pos rfl, if_neg (hlt _ _ h1)] at e
                exact absurd e (hnew _ _ h1)
              · rw [if_neg (hlt _ _ h1), if_neg (hlt _ _ h2)] at e
                exact h.inj t r t' r' h1 h2 e
          · intro i hi; rw [hpub] at hi; rw [hview]; have := h.pub i hi; omega
          · intro i hi; rw [hsub, List.mem_append, List.mem_singleton] at hi; rw [hview]
            rcases hi with hi | rfl
            · have := h.sub i hi; omega
            · omega
          · rw [hpub]; exact h.nodup
          · intro i hi; rw [hpub] at hi; rw [hsub, List.mem_append, List.mem_singleton]
            rintro (h1 | h1)
            · exact h.disj i hi h1
            · have := h.pub i hi; omega
          · simp only [Clash, PyInt.val]
            rintro ⟨x, hx, es, et, ei⟩
            obtain ⟨r, d', k1, k2, k3, k4⟩ := hrel.ids x hx
            exact hnew _ _ k1 (k2.trans ei)
    | unsubscribe m =>
      refine ⟨?_, by simp [Clash]⟩
      cases hs : b.subscriptionsBySession.get s with
      | none =>
        simp only [step, receiveMessage, receiveUnsubscribe, hs, Except.map]
        exact h.quiet rfl (by intro i h; cases h) (fun t r ht => ⟨ht, rfl⟩)
      | some d =>
        cases hr : d.get m.subscriptionId.val with
        | none =>
          simp only [step, receiveMessage, receiveUnsubscribe, hs, hr, Except.map]
          exact h.quiet rfl (by intro i h; cases h) (fun t r ht => ⟨ht, rfl⟩)
        | some r =>
          have hx := unsubscribe_ok b hb s m d r hs hr
          simp only [step, receiveMessage, hx, Except.map]
          refine h.quiet rfl (by intro i h; cases h) ?_
          intro t r' ht
          simp only [drop_topic, drop_heap] at ht ⊢
          split at ht
          · cases ht
          · refine ⟨ht, ?_⟩; split
            · rename_i e; rw [e]; rfl
            · rfl
    | _ => exact ⟨h.quiet rfl (by intro i h; cases h) (fun t r ht => ⟨ht, rfl⟩), by simp [Clash]⟩
  | hasSubscription t =>
    exact ⟨h.quiet rfl (by intro i h; cases h) (fun t r ht => ⟨ht, rfl⟩), by simp [Clash]⟩
  | receivePublish s m =>
    refine ⟨?_, by simp [Clash]⟩
    by_cases hk : b.subscriptionsBySession.contains s = true
    · have hd' : (view tr).drawn + 1 ≤ 2 ^ 53 := by
        simpa only [step, receivePublish, if_pos hk, Except.map, View.next] using hd
      have hid : b.idgen.next.2 = ((view tr).drawn : Int) + 1 := by
        rw [hrel.gen, idgen_next]; exact draw_small (by omega)
      generalize hout : (b.step (.receivePublish s m)).2 = out
      have hb' : ∀ t, (b.step (.receivePublish s m)).1.subscriptionsByTopic.get t = b.subscriptionsByTopic.get t ∧
          (b.step (.receivePublish s m)).1.heap = b.heap := by
        intro t; simp only [step, receivePublish, if_pos hk]; exact ⟨trivial, trivial⟩
      have hview : (view (tr ++ [(.receivePublish s m, out)])).drawn = (view tr).drawn + 1 := by
        rw [view_snoc, ← hout]; simp only [step, receivePublish, if_pos hk, Except.map, View.next]
      have hsub : subIds (tr ++ [(.receivePublish s m, out)]) = subIds tr := by
        rw [subIds_snoc]; simp [subId?]
      have hpub : ∀ i, pubId? (.receivePublish s m, out) = some i → i = (view tr).drawn + 1 := by
        intro i
        rw [← hout, ← hid]
        simp only [step, receivePublish, if_pos hk, Except.map, pubId?]
        cases b.subscriptionsByTopic.get m.topic <;> cases PyDict.flag m.options "acknowledge" <;>
          simp [eq_comm, PyInt.val]
      have hp : pubIds (tr ++ [(.receivePublish s m, out)]) = pubIds tr ∨
          pubIds (tr ++ [(.receivePublish s m, out)]) = pubIds tr ++ [((view tr).drawn : Int) + 1] := by
        rw [pubIds_snoc]
        cases he : pubId? (.receivePublish s m, out) with
        | none => left; simp
        | some j => right; rw [hpub j he]; rfl
      have hp' : ∀ i, i ∈ pubIds (tr ++ [(.receivePublish s m, out)]) → i ∈ pubIds tr ∨ i = (view tr).drawn + 1 := by
        intro i hi; rcases hp with hp | hp <;> rw [hp] at hi
        · exact .inl hi
        · simpa using hi
      refine ⟨?_, ?_, ?_, ?_, ?_, ?_⟩
      · intro t r ht; rw [(hb' t).2, hsub]; rw [(hb' t).1] at ht; exact h.live t r ht
      · intro t r t' r' h1 h2; rw [(hb' t).2]; rw [(hb' t).1] at h1; rw [(hb' t').1] at h2; exact h.inj t r t' r' h1 h2
      · intro i hi; rw [hview]
        rcases hp' i hi with hi | rfl
        · have := h.pub i hi; omega
        · omega
      · intro i hi; rw [hsub] at hi; rw [hview]; have := h.sub i hi; omega
      · rcases hp with hp | hp <;> rw [hp]
        · exact h.nodup
        · rw [List.nodup_append]
          refine ⟨h.nodup, by simp, ?_⟩
          intro a ha c hc e
          simp only [List.mem_singleton] at hc
          have := h.pub a ha; omega
      · intro i hi; rw [hsub]
        rcases hp' i hi with hi | rfl
        · exact h.disj i hi
        · intro h1; have := h.sub _ h1; omega
    · simp only [step, receivePublish, if_neg hk, Except.map]
      exact h.quiet rfl (by intro i h; cases h) (fun t r ht => ⟨ht, rfl⟩)

/-- While at most 2^53 ids have been drawn, no id clashes and the id bookkeeping holds. -/
theorem fresh_after (ops : List Op) : (view (trace ops)).drawn ≤ 2 ^ 53 →
    NoClash (trace ops) ∧ Fresh (after ops) (trace ops) := by
  induction ops using snoc_induction with
  | nil =>
    intro _
    refine ⟨?_, ?_, ?_, ?_, ?_, ?_, ?_⟩
    · intro pre e post h; simp [trace, runFrom] at h
    · intro t r h; simp [after, runFrom, init] at h
    · intro t r _ _ h; simp [after, runFrom, init] at h
    · intro i hi; cases hi
    · intro i hi; cases hi
    · exact List.nodup_nil
    · intro i hi; cases hi
  | snoc ops op ih =>
    intro h
    rw [trace_snoc] at h ⊢
    have h1 : (view (trace ops)).drawn ≤ 2 ^ 53 := by
      rw [view_snoc] at h; exact Nat.le_trans (drawn_next_le _ _) h
    obtain ⟨i1, i2⟩ := ih h1
    obtain ⟨j1, j2⟩ := fresh_step (after ops) (wf_after ops) (trace ops) (rel_after ops i1) i2 op h
    rw [after_snoc]
    exact ⟨noClash_snoc_mk i1 j2, j1⟩

/-- The number of ids drawn is at most the number of calls. -/
theorem drawn_le_length (ops : List Op) : (view (trace ops)).drawn ≤ ops.length := by
  induction ops using snoc_induction with
  | nil => simp [trace, runFrom, view]
  | snoc ops op ih =>
    rw [trace_snoc, view_snoc]
    have : ∀ (v : View) e, (v.next e).drawn ≤ v.drawn + 1 := by
      intro v e; unfold View.next; split <;> simp <;> split <;> omega
    have := this (view (trace ops)) (op, ((after ops).step op).2)
    simp; omega

end Wamp.Broker
