import Verif.Spec.SessionIds
import Verif.Proofs.Renaming
import Verif.Proofs.SessionView

/-!
# A session goes by ids, and ids are only names (C114)

Two sessions side by side: with other names for ids, other contents of messages, another serializer. The books of one are
those of the other by the new names.
-/

namespace Wamp.WAMPSession
open Spec (code)
open Spec.Ses Spec.Ids Spec.Naming
variable {W W' : Type} (c : Codec W) (c' : Codec W')

theorem mem_map' {f : Int → Int} (hf : OneToOne f) (l : IdSet) (i : Int) : f i ∈ (l.map f : List Int) ↔ i ∈ l := by
  rw [List.mem_map]
  exact ⟨(fun ⟨_, h, e⟩ => hf _ _ e ▸ h), fun h => ⟨_, h, rfl⟩⟩

theorem add_map {f : Int → Int} (hf : OneToOne f) (l : IdSet) (i : Int) :
    IdSet.add (l.map f) (f i) = (l.add i).map f := by
  unfold IdSet.add
  by_cases h : i ∈ l
  · rw [if_pos h, if_pos ((mem_map' hf l i).2 h)]
  · rw [if_neg h, if_neg (mt (mem_map' hf l i).1 h)]; simp

theorem discard_map {f : Int → Int} (hf : OneToOne f) (l : IdSet) (i : Int) :
    IdSet.discard (l.map f) (f i) = (l.discard i).map f := by
  unfold IdSet.discard
  rw [List.filter_map]
  congr 1
  apply List.filter_congr
  intro x _
  simp only [Function.comp, decide_eq_decide]
  exact ⟨fun h e => h (by rw [e]), fun h e => h (hf _ _ e)⟩

/-- The books by other names. -/
def renamed (ν : Names) (s : WAMPSession) : WAMPSession where
  callRequests := s.callRequests.map (ν.request .call)
  registerRequests := s.registerRequests.map (ν.request .register)
  registrations := s.registrations.map ν.registration
  invocationRequests := s.invocationRequests.map ν.invocation
  unregisterRequests := s.unregisterRequests.mapKV (ν.request .unregister) ν.registration
  publishRequests := s.publishRequests.map (ν.request .publish)
  subscribeRequests := s.subscribeRequests.map (ν.request .subscribe)
  subscriptions := s.subscriptions.map ν.subscription
  unsubscribeRequests := s.unsubscribeRequests.mapKV (ν.request .unsubscribe) ν.subscription

/-- Both sessions go on. -/
local macro "both" : tactic =>
  `(tactic| exact ⟨by first | rfl | trivial, Or.inl ⟨by first | rfl | trivial, by first | rfl | trivial⟩⟩)
/-- Both raise. -/
local macro "neither" : tactic =>
  `(tactic| exact ⟨by first | rfl | trivial, Or.inr ⟨_, by first | rfl | trivial, by first | rfl | trivial⟩⟩)

theorem pyType_code {m m' : Message} (h : code m = code m') : m.pyType = m'.pyType := by
  cases m <;> cases m' <;> first | rfl | (simp [code] at h; done)

theorem send_like {ν : Names} (hν : ν.Ok) (s : WAMPSession) {m m' : Message} (h : Corresponds ν m m') :
    ((renamed ν s).sendMessage c' m').1 = renamed ν (s.sendMessage c m).1 ∧
    ((s.sendMessage c m).2 = c.serialize m ∧ ((renamed ν s).sendMessage c' m').2 = c'.serialize m' ∨
     ∃ t, (s.sendMessage c m).2 = .error (.valueError t) ∧ ((renamed ν s).sendMessage c' m').2 = .error (.valueError t)) := by
  obtain ⟨hr, hs, hg, hi⟩ := hν
  obtain ⟨hc, he⟩ := h
  have ht := pyType_code hc
  cases m <;> cases m' <;> first | (simp [code] at hc; done) | skip
  case call.call m m' =>
    simp only [ids, same, id, List.cons.injEq, and_true] at he
    simp only [sendMessage, renamed, ← he, add_map (hr _)]
    both
  case register.register m m' =>
    simp only [ids, same, id, List.cons.injEq, and_true] at he
    simp only [sendMessage, renamed, ← he, add_map (hr _)]
    both
  case subscribe.subscribe m m' =>
    simp only [ids, same, id, List.cons.injEq, and_true] at he
    simp only [sendMessage, renamed, ← he, add_map (hr _)]
    both
  case unregister.unregister m m' =>
    simp only [ids, same, id, List.cons.injEq, and_true] at he
    simp only [sendMessage, renamed, ← he.1, ← he.2, Dict.set_mapKV (hr _)]
    both
  case unsubscribe.unsubscribe m m' =>
    simp only [ids, same, id, List.cons.injEq, and_true] at he
    simp only [sendMessage, renamed, ← he.1, ← he.2, Dict.set_mapKV (hr _)]
    both
  case publish.publish m m' =>
    simp only [ids, same, id] at he
    unfold sendMessage
    simp only []
    by_cases ha : PyDict.flag m.options "acknowledge" = true
    · by_cases hb : PyDict.flag m'.options "acknowledge" = true
      · rw [if_pos ha, if_pos hb] at *
        simp only [List.cons.injEq, and_true] at he
        simp only [renamed, ← he, add_map (hr _)]
        both
      · rw [if_pos ha, if_neg hb] at he; cases he
    · by_cases hb : PyDict.flag m'.options "acknowledge" = true
      · rw [if_neg ha, if_pos hb] at he; cases he
      · rw [if_neg ha, if_neg hb]
        both
  case yield_.yield_ m m' =>
    simp only [ids, same, id, List.cons.injEq, and_true] at he
    simp only [sendMessage, renamed, ← he, mem_map' hi, discard_map hi]
    by_cases hm : m.requestId.val ∈ s.invocationRequests
    · simp only [if_pos hm]; both
    · simp only [if_neg hm]; neither
  case error.error m m' =>
    simp only [ids, same, id, List.cons.injEq, and_true] at he
    obtain ⟨h1, h2⟩ := he
    simp only [sendMessage, ← h1]
    by_cases hm : m.messageType.val = Invocation.TYPE
    · have : kindOfCode Invocation.TYPE = none := by decide
      rw [← h1, hm, this] at h2
      simp only at h2
      rw [if_neg (by simp [hm]), if_neg (by simp [hm])]
      simp only [renamed, ← h2, discard_map hi]
      both
    · rw [if_pos hm, if_pos hm]; neither
  all_goals first
    | both
    | neither

/-- Both take the message, or both refuse it with the same words. -/
def BothTake (m m' : Message) (r r' : Except Exc Message) : Prop :=
  (r = .ok m ∧ r' = .ok m') ∨ ∃ t, r = .error (.valueError t) ∧ r' = .error (.valueError t)

theorem receiveError_like {ν : Names} (hν : ν.Ok) (s : WAMPSession) {m m' : ErrorMsg} (h : Corresponds ν (.error m) (.error m')) :
    ((renamed ν s).receiveError m').1 = renamed ν (s.receiveError m).1 ∧
    BothTake (.error m) (.error m') (s.receiveError m).2 ((renamed ν s).receiveError m').2 := by
  obtain ⟨hr, hs, hg, hi⟩ := hν
  obtain ⟨hc, he⟩ := h
  simp only [ids, same, id, List.cons.injEq, and_true] at he
  obtain ⟨h1, h2⟩ := he
  rw [← h1] at h2
  unfold receiveError
  simp only [← h1]
  have pick : ∀ k, kindOfCode m.messageType.val = some k → m'.requestId.val = ν.request k m.requestId.val := by
    intro k hk; rw [hk] at h2; exact h2.symm
  by_cases e : m.messageType.val = Call.TYPE
  · rw [if_pos e, if_pos e, pick .call (by rw [e]; decide)]
    simp only [renamed, mem_map' (hr _), discard_map (hr _)]
    by_cases hm : m.requestId.val ∈ s.callRequests
    · simp only [if_pos hm]; both
    · simp only [if_neg hm]; neither
  rw [if_neg e, if_neg e]; clear e
  by_cases e : m.messageType.val = Register.TYPE
  · rw [if_pos e, if_pos e, pick .register (by rw [e]; decide)]
    simp only [renamed, mem_map' (hr _), discard_map (hr _)]
    by_cases hm : m.requestId.val ∈ s.registerRequests
    · simp only [if_pos hm]; both
    · simp only [if_neg hm]; neither
  rw [if_neg e, if_neg e]; clear e
  by_cases e : m.messageType.val = Unregister.TYPE
  · rw [if_pos e, if_pos e, pick .unregister (by rw [e]; decide)]
    simp only [renamed, Dict.contains_mapKV (hr _), Dict.del_mapKV (hr _)]
    by_cases hm : s.unregisterRequests.contains m.requestId.val = true
    · simp only [if_pos hm]; both
    · simp only [if_neg hm]; neither
  rw [if_neg e, if_neg e]; clear e
  by_cases e : m.messageType.val = Subscribe.TYPE
  · rw [if_pos e, if_pos e, pick .subscribe (by rw [e]; decide)]
    simp only [renamed, mem_map' (hr _), discard_map (hr _)]
    by_cases hm : m.requestId.val ∈ s.subscribeRequests
    · simp only [if_pos hm]; both
    · simp only [if_neg hm]; neither
  rw [if_neg e, if_neg e]; clear e
  by_cases e : m.messageType.val = Unsubscribe.TYPE
  · rw [if_pos e, if_pos e, pick .unsubscribe (by rw [e]; decide)]
    simp only [renamed, Dict.contains_mapKV (hr _), Dict.del_mapKV (hr _)]
    by_cases hm : s.unsubscribeRequests.contains m.requestId.val = true
    · simp only [if_pos hm]; both
    · simp only [if_neg hm]; neither
  rw [if_neg e, if_neg e]; clear e
  by_cases e : m.messageType.val = Publish.TYPE
  · rw [if_pos e, if_pos e, pick .publish (by rw [e]; decide)]
    simp only [renamed, mem_map' (hr _), discard_map (hr _)]
    by_cases hm : m.requestId.val ∈ s.publishRequests
    · simp only [if_pos hm]; both
    · simp only [if_neg hm]; neither
  rw [if_neg e, if_neg e]
  neither

theorem receive_like {ν : Names} (hν : ν.Ok) (s : WAMPSession) {m m' : Message} (h : Corresponds ν m m') :
    ((renamed ν s).receiveMessage m').1 = renamed ν (s.receiveMessage m).1 ∧
    BothTake m m' (s.receiveMessage m).2 ((renamed ν s).receiveMessage m').2 := by
  have hν' := hν
  obtain ⟨hr, hs, hg, hi⟩ := hν
  have h' := h
  obtain ⟨hc, he⟩ := h
  have ht := pyType_code hc
  cases m <;> cases m' <;> first | (simp [code] at hc; done) | skip
  case result.result m m' =>
    simp only [ids, same, id, List.cons.injEq, and_true] at he
    simp only [receiveMessage, renamed, ← he, mem_map' (hr _), discard_map (hr _)]
    by_cases hm : m.requestId.val ∈ s.callRequests
    · simp only [if_pos hm]; both
    · simp only [if_neg hm]; neither
  case published.published m m' =>
    simp only [ids, same, id, List.cons.injEq, and_true] at he
    simp only [receiveMessage, renamed, ← he, mem_map' (hr _), discard_map (hr _)]
    by_cases hm : m.requestId.val ∈ s.publishRequests
    · simp only [if_pos hm]; both
    · simp only [if_neg hm]; neither
  case registered.registered m m' =>
    simp only [ids, same, id, List.cons.injEq, and_true] at he
    simp only [receiveMessage, renamed, ← he.1, ← he.2, mem_map' (hr _), discard_map (hr _), add_map hg]
    by_cases hm : m.requestId.val ∈ s.registerRequests
    · simp only [if_pos hm]; both
    · simp only [if_neg hm]; neither
  case subscribed.subscribed m m' =>
    simp only [ids, same, id, List.cons.injEq, and_true] at he
    simp only [receiveMessage, renamed, ← he.1, ← he.2, mem_map' (hr _), discard_map (hr _), add_map hs]
    by_cases hm : m.requestId.val ∈ s.subscribeRequests
    · simp only [if_pos hm]; both
    · simp only [if_neg hm]; neither
  case invocation.invocation m m' =>
    simp only [ids, same, id, List.cons.injEq, and_true] at he
    simp only [receiveMessage, renamed, ← he.1, ← he.2, mem_map' hg, add_map hi]
    by_cases hm : m.registrationId.val ∈ s.registrations
    · simp only [if_pos hm]; both
    · simp only [if_neg hm]; neither
  case event.event m m' =>
    simp only [ids, same, id, List.cons.injEq, and_true] at he
    simp only [receiveMessage, renamed, ← he, mem_map' hs]
    by_cases hm : m.subscriptionId.val ∈ s.subscriptions
    · simp only [if_pos hm]; both
    · simp only [if_neg hm]; neither
  case unregistered.unregistered m m' =>
    simp only [ids, same, id, List.cons.injEq, and_true] at he
    simp only [receiveMessage]
    have : (renamed ν s).unregisterRequests.get m'.requestId.val = (s.unregisterRequests.get m.requestId.val).map ν.registration := by
      rw [← he]; exact Dict.get_mapKV (hr _) _ _
    rw [this]
    cases hd : s.unregisterRequests.get m.requestId.val with
    | none => neither
    | some r =>
      simp only [Option.map_some, renamed, ← he, mem_map' hg, discard_map hg, Dict.del_mapKV (hr _)]
      by_cases hm : r ∈ s.registrations
      · simp only [if_pos hm]; both
      · simp only [if_neg hm]; neither
  case unsubscribed.unsubscribed m m' =>
    simp only [ids, same, id, List.cons.injEq, and_true] at he
    simp only [receiveMessage]
    have : (renamed ν s).unsubscribeRequests.get m'.requestId.val = (s.unsubscribeRequests.get m.requestId.val).map ν.subscription := by
      rw [← he]; exact Dict.get_mapKV (hr _) _ _
    rw [this]
    cases hd : s.unsubscribeRequests.get m.requestId.val with
    | none => neither
    | some r =>
      simp only [Option.map_some, renamed, ← he, mem_map' hs, discard_map hs, Dict.del_mapKV (hr _)]
      by_cases hm : r ∈ s.subscriptions
      · simp only [if_pos hm]; both
      · simp only [if_neg hm]; neither
  case error.error m m' => exact receiveError_like hν' s h'
  all_goals first
    | both
    | neither

theorem step_like {ν : Names} (hν : ν.Ok) (s : WAMPSession) {op : Op W} {op' : Op W'} (h : Like c c' ν op op') :
    ((renamed ν s).step c' op').1 = renamed ν (s.step c op).1 := by
  rcases h with ⟨m, m', rfl, rfl, h⟩ | ⟨m, m', h1, h2, h⟩ | ⟨d, d', rfl, rfl, h1, h2⟩
  · exact (send_like c c' hν s h).1
  · rw [step_incoming c h1, step_incoming c' h2]
    exact (receive_like hν s h).1
  · rw [(step_garbage c h1 (by simp)).1, (step_garbage c' h2 (by simp)).1]

theorem run_like {ν : Names} (hν : ν.Ok) : ∀ (ops : List (Op W)) (ops' : List (Op W')) (s : WAMPSession), LikeAll c c' ν ops ops' →
    (runFrom c' (renamed ν s) ops').1 = renamed ν (runFrom c s ops).1
  | [], [], _, _ => rfl
  | op :: ops, op' :: ops', s, h => by
    simp only [runFrom]
    rw [step_like c c' hν s h.1]
    exact run_like hν ops ops' _ h.2
  | [], _ :: _, _, h => h.elim
  | _ :: _, [], _, h => h.elim

theorem after_like {ν : Names} (hν : ν.Ok) {ops : List (Op W)} {ops' : List (Op W')} (h : LikeAll c c' ν ops ops') :
    after c' ops' = renamed ν (after c ops) := run_like c c' hν ops ops' {} h

/-! ## C114 -/

/-- After corresponding histories, two sessions (with different serializers) both hand a message to send to their
serializers, or both refuse it with the same words. -/
theorem C114_send (ν : Names) (hν : ν.Ok) (ops : List (Op W)) (ops' : List (Op W')) (h : LikeAll c c' ν ops ops')
    (m m' : Message) (hm : Corresponds ν m m') :
    (outcome c ops (.sendMessage m) = (c.serialize m).map .data ∧ outcome c' ops' (.sendMessage m') = (c'.serialize m').map .data) ∨
    ∃ t, outcome c ops (.sendMessage m) = .error (.valueError t) ∧ outcome c' ops' (.sendMessage m') = .error (.valueError t) := by
  unfold outcome
  rw [after_like c c' hν h]
  simp only [step]
  rcases (send_like c c' hν (after c ops) hm).2 with ⟨h1, h2⟩ | ⟨t, h1, h2⟩
  · rw [h1, h2]; exact .inl ⟨rfl, rfl⟩
  · rw [h1, h2]; exact .inr ⟨t, rfl, rfl⟩

/-- After corresponding histories, two sessions both take a message received, each returning its own, or both refuse it with
the same words. -/
theorem C114_receive (ν : Names) (hν : ν.Ok) (ops : List (Op W)) (ops' : List (Op W')) (h : LikeAll c c' ν ops ops')
    (op : Op W) (op' : Op W') (m m' : Message) (h1 : incoming c op = some m) (h2 : incoming c' op' = some m') (hm : Corresponds ν m m') :
    (outcome c ops op = .ok (.msg m) ∧ outcome c' ops' op' = .ok (.msg m')) ∨
    ∃ t, outcome c ops op = .error (.valueError t) ∧ outcome c' ops' op' = .error (.valueError t) := by
  unfold outcome
  rw [after_like c c' hν h, step_incoming c h1, step_incoming c' h2]
  rcases (receive_like hν (after c ops) hm).2 with ⟨h1, h2⟩ | ⟨t, h1, h2⟩
  · simp only [h1, h2]; exact .inl ⟨rfl, rfl⟩
  · simp only [h1, h2]; exact .inr ⟨t, rfl, rfl⟩

/-- Other ids: everything a hundred higher, subscriptions doubled. -/
def others : Names := ⟨fun _ i => i + 100, fun i => 2 * i, fun i => i, fun i => i + 1⟩
theorem others_ok : others.Ok :=
  ⟨fun _ x y h => by simp only [others] at h; omega, fun x y h => by simp only [others] at h; omega, fun x y h => h,
   fun x y h => by simp only [others] at h; omega⟩

example : LikeAll c c' others
    [.sendMessage (.subscribe ⟨.int 1, "news", []⟩), .receiveMessage (.subscribed ⟨.int 1, .int 7⟩)]
    [.sendMessage (.subscribe ⟨.int 101, "weather", [(.str "match", .str "prefix")]⟩), .receiveMessage (.subscribed ⟨.int 101, .int 14⟩)] :=
  ⟨.inl ⟨_, _, rfl, rfl, rfl, rfl⟩, .inr (.inl ⟨_, _, rfl, rfl, rfl, rfl⟩), trivial⟩

example : Corresponds others (.event ⟨.int 7, .int 1, some [.str "rain"], none, []⟩) (.event ⟨.int 14, .int 2, none, none, []⟩) := ⟨rfl, rfl⟩

/-! ## C52 -/

theorem same_ok : same.Ok := ⟨fun _ _ _ h => h, fun _ _ h => h, fun _ _ h => h, fun _ _ h => h⟩

theorem like_same {d : Codec W} (hd : d.deserialize = c.deserialize) (op : Op W) : Like c d same op op := by
  cases op with
  | sendMessage m => exact .inl ⟨m, m, rfl, rfl, rfl, rfl⟩
  | receiveMessage m => exact .inr (.inl ⟨m, m, rfl, rfl, rfl, rfl⟩)
  | receive w =>
    have e : incoming d (.receive w) = incoming c (.receive w) := by simp only [incoming, hd]
    cases h : incoming c (.receive w) with
    | none => exact .inr (.inr ⟨w, w, rfl, rfl, h, e.trans h⟩)
    | some m => exact .inr (.inl ⟨m, m, h, e.trans h, rfl, rfl⟩)

theorem likeAll_same {d : Codec W} (hd : d.deserialize = c.deserialize) : ∀ ops : List (Op W), LikeAll c d same ops ops
  | [] => trivial
  | op :: ops => ⟨like_same c hd op, likeAll_same hd ops⟩

/-- Exactly: a message the serializer refuses counts as sent. Take the same serializer, but with another `serialize`, which
may fail on other messages: everything received has the same outcome, and the same messages are refused by the session
itself. -/
theorem C52_counts_as_sent (d : Codec W) (hd : d.deserialize = c.deserialize) (ops : List (Op W)) :
    (∀ op m, incoming c op = some m → outcome d ops op = outcome c ops op) ∧
    (∀ m, (outcome c ops (.sendMessage m) = (c.serialize m).map .data ∧ outcome d ops (.sendMessage m) = (d.serialize m).map .data) ∨
      ∃ t, outcome c ops (.sendMessage m) = .error (.valueError t) ∧ outcome d ops (.sendMessage m) = .error (.valueError t)) := by
  refine ⟨fun op m h => ?_, fun m => C114_send c d same same_ok ops ops (likeAll_same c hd ops) m m ⟨rfl, rfl⟩⟩
  have h' : incoming d op = some m := by
    cases op with
    | sendMessage _ => cases h
    | receiveMessage _ => exact h
    | receive w => simpa only [incoming, hd] using h
  rcases C114_receive c d same same_ok ops ops (likeAll_same c hd ops) op op m m h h' ⟨rfl, rfl⟩ with ⟨h1, h2⟩ | ⟨t, h1, h2⟩
  · rw [h1, h2]
  · rw [h1, h2]

/-- A serializer that refuses everything, and one that refuses nothing. -/
example : ∃ c d : Codec Unit, d.deserialize = c.deserialize ∧ ∃ m, (∃ e, c.serialize m = .error e) ∧ d.serialize m = .ok () :=
  ⟨⟨fun _ => .error .attributeError, fun _ => .error .attributeError⟩, ⟨fun _ => .ok (), fun _ => .error .attributeError⟩, rfl,
    .goodbye ⟨[], ""⟩, ⟨_, rfl⟩, rfl⟩

end Wamp.WAMPSession
