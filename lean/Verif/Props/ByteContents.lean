import Verif.Props.Members
import Verif.Props.Formats

/-!
# C81, C89: what the applications of a network on bytes are handed

`handed_next` (`Props/Members.lean`) brings a message an application was handed back to the network on messages, where C71 and
C74 say where it comes from.
-/

namespace Wamp.Spec.Net
open Wamp.Spec.Ses
open Wamp.Spec.Stack (chain_mem good_before)
variable {W : Type}

/-- The session hands the message to its application. -/
def Handed (c : Codec W) (calls : List (WAMPSession.Op W)) (m : Message) : Prop :=
  ∃ op, (op, .ok (.msg m)) ∈ WAMPSession.trace c calls

theorem sent_bytes {sched : List Act} {s : Int} {m : Message} (h : .send s m ∈ sched.map arriving) :
    ∃ m', .send s m' ∈ sched ∧ m = received m' := by
  obtain ⟨a, h1, h2⟩ := List.mem_map.1 h
  obtain ⟨m', rfl, h3⟩ := arriving_send h2
  exact ⟨m', h1, h3⟩

section
variable {D : Value → Prop} {cs : Int → Codec W} (hD : DataSet D) (hc : ∀ s, Restores (cs s) D) (sched : List Act)
  (hs : SendsData D sched) (hl : sched.length ≤ 2 ^ 53)

include hD hc hs hl in
/-- Every EVENT an application is handed has the arguments of a PUBLISH an application asked to send. -/
theorem C81_event (s : Int) (k : BConn W) (hk : (brun cs sched).conns s = some k) (e : Event) (h : Handed (cs s) k.calls (.event e)) :
    ∃ s' p, .send s' (.publish p) ∈ sched ∧ e.args = seenArgs p.args p.kwargs ∧ e.kwargs = p.kwargs := by
  obtain ⟨op, hop⟩ := h
  obtain ⟨⟨k', hk', hm⟩, -⟩ := handed_next hD hc sched hs hl s k hk op _ hop
  have hlen : (sched.map arriving).length ≤ 2 ^ 53 := by rw [List.length_map]; exact hl
  have hev : e ∈ k'.events := List.mem_append_left _ (List.mem_filterMap.2 ⟨_, hm, rfl⟩)
  have heq := C74_exactly_once_in_order objects _ hlen s k' hk'
  have : (e.subscriptionId.val, e.args, e.kwargs, e.details) ∈ k'.events.map (fun e => (e.subscriptionId.val, e.args, e.kwargs, e.details)) :=
    List.mem_map.2 ⟨e, hev, rfl⟩
  rw [heq] at this
  obtain ⟨f, hf, hfe⟩ := List.mem_map.1 this
  have hpub : f.publish ∈ publishes f.publisher (sched.map arriving) :=
    (C74_publisher_order objects _ hlen s f.publisher).subset (List.mem_map.2 ⟨f, List.mem_filter.2 ⟨hf, by simp⟩, rfl⟩)
  obtain ⟨a, h1, h2⟩ := List.mem_filterMap.1 hpub
  split at h2
  · rename_i s' m
    split at h2
    · replace h2 := Option.some.inj h2
      obtain ⟨m', h4, h5⟩ := sent_bytes h1
      cases m' <;> cases h5
      rename_i p
      rw [← h2] at hfe
      injection hfe with e1 e2
      injection e2 with e2 e3
      injection e3 with e3 e4
      exact ⟨_, p, h4, e2.symm, e3.symm⟩
    · cases h2
  · cases h2

include hD hc hs hl in
/-- Every INVOCATION an application is handed has the arguments of a CALL an application asked to send. -/
theorem C81_invocation (s : Int) (k : BConn W) (hk : (brun cs sched).conns s = some k) (inv : Invocation)
    (h : Handed (cs s) k.calls (.invocation inv)) :
    ∃ s' m, .send s' (.call m) ∈ sched ∧ inv.args = seenArgs m.args m.kwargs ∧ inv.kwargs = m.kwargs := by
  obtain ⟨op, hop⟩ := h
  obtain ⟨-, pre, post, h1, h2⟩ := handed_next hD hc sched hs hl s k hk op _ hop
  have hlen := hl
  rw [h1, List.length_append] at hlen
  obtain ⟨s', m, h3, h4⟩ := C71_invocation objects _ (by rw [List.length_map]; omega) s inv h2
  obtain ⟨m', h7, h8⟩ := sent_bytes (sched := sched) (s := s') (m := .call m) (by
    rw [h1, List.map_append]; exact List.mem_append_left _ (chain_mem h4 (by simp)))
  cases m' <;> cases h8
  exact ⟨s', _, h7, h3.args, h3.kwargs⟩

include hD hc hs hl in
/-- Every RESULT an application is handed has the request id of a CALL it asked to send, and the arguments of a YIELD that the
application which was handed the INVOCATION asked to send. -/
theorem C81_result (hg : GoodClientsB cs sched) (s : Int) (k : BConn W) (hk : (brun cs sched).conns s = some k) (x : Result)
    (h : Handed (cs s) k.calls (.result x)) :
    (∃ m, .send s (.call m) ∈ sched ∧ x.requestId = m.requestId) ∧
      ∃ callee y, .send callee (.yield_ y) ∈ sched ∧ x.args = seenArgs y.args y.kwargs ∧ x.kwargs = y.kwargs := by
  obtain ⟨op, hop⟩ := h
  obtain ⟨-, pre, post, h1, h2⟩ := handed_next hD hc sched hs hl s k hk op _ hop
  have hgood := good_of_bytes hD hc sched hs hl hg
  have e : sched.map arriving = pre.map arriving ++ (.deliver s :: post).map arriving := by rw [h1, List.map_append]
  rw [e] at hgood
  have hlen := hl
  rw [h1, List.length_append] at hlen
  obtain ⟨m, callee, inv, y, h5, -, -, h6, h7, pre', post', h8, -, h9⟩ :=
    C71_result objects _ (by rw [List.length_map]; omega) (good_before hgood) s x h2
  have hy := chain_mem h9 (s := callee) (m := .yield_ y) (by simp)
  constructor
  · obtain ⟨m', k2, k3⟩ := sent_bytes (sched := sched) (s := s) (m := .call m) (by
      rw [e]; exact List.mem_append_left _ (by rw [h8]; simp))
    cases m' <;> cases k3
    exact ⟨_, k2, h5⟩
  · obtain ⟨m', k2, k3⟩ := sent_bytes (sched := sched) (s := callee) (m := .yield_ y) (by
      rw [e]; exact List.mem_append_left _ (by rw [h8]; exact List.mem_append_right _ (List.mem_cons_of_mem _ hy)))
    cases m' <;> cases k3
    exact ⟨callee, _, k2, h6, h7⟩
end

section
variable (fmt : Int → Format) (sched : List Act) (hs : SendsData (Fits commonLimits) sched) (hl : sched.length ≤ 2 ^ 53)

include hs hl in
/-- With JSON, MessagePack and CBOR side by side: EVENTs, INVOCATIONs and RESULTs have the arguments of the PUBLISH, the CALL and the
YIELD they come from, whichever serializers the two clients use. -/
theorem C89_contents (s : Int) (k : BConn (String ⊕ Bytes)) (hk : (brun (fun s => (fmt s).codec) sched).conns s = some k) :
    (∀ e, Handed (fmt s).codec k.calls (.event e) →
      ∃ s' p, .send s' (.publish p) ∈ sched ∧ e.args = seenArgs p.args p.kwargs ∧ e.kwargs = p.kwargs) ∧
    (∀ inv, Handed (fmt s).codec k.calls (.invocation inv) →
      ∃ s' m, .send s' (.call m) ∈ sched ∧ inv.args = seenArgs m.args m.kwargs ∧ inv.kwargs = m.kwargs) ∧
    (GoodClientsB (fun s => (fmt s).codec) sched → ∀ x, Handed (fmt s).codec k.calls (.result x) →
      (∃ m, .send s (.call m) ∈ sched ∧ x.requestId = m.requestId) ∧
        ∃ callee y, .send callee (.yield_ y) ∈ sched ∧ x.args = seenArgs y.args y.kwargs ∧ x.kwargs = y.kwargs) :=
  ⟨fun e h => C81_event common_dataSet (cs := fun s => (fmt s).codec) (fun s => common_restores (fmt s)) sched hs hl s k hk e h,
   fun inv h => C81_invocation common_dataSet (cs := fun s => (fmt s).codec) (fun s => common_restores (fmt s)) sched hs hl s k hk inv h,
   fun hg x h => C81_result common_dataSet (cs := fun s => (fmt s).codec) (fun s => common_restores (fmt s)) sched hs hl hg s k hk x h⟩
end

/-- Client 1 gets the event client 2 published, client 2 the call of client 1, whose answer client 1 gets. -/
def demoC : List Act :=
  demoB ++ [.deliver 1, .deliver 2, .send 2 (yieldOf 2), .route 2, .deliver 1]

/-- Messages an application was handed. -/
def allHanded (c : Codec W) (calls : List (WAMPSession.Op W)) : List Message :=
  (WAMPSession.trace c calls).filterMap fun
    | (_, .ok (.msg m)) => some m
    | _ => none



theorem demoC_common : SendsData (Fits commonLimits) demoC := by
  intro s m h
  rcases List.mem_append.1 h with h | h
  · exact demoB_common s m h
  · simp only [List.mem_cons, Act.send.injEq, reduceCtorEq, false_or, List.not_mem_nil, or_false] at h
    obtain ⟨rfl, rfl⟩ := h
    simp [yieldOf, Valid, IdOk, PyInt.val, Message.marshal, payloadTail, Fits, FitsList, FitsDict, PyInt.toValue, Yield.options,
      withSerializer, commonLimits]
    decide

theorem demoC_formats : GoodClientsB (fun s => (three s).codec) demoC := by
  have hf := fun K h => fresh_to_bytes (cs := fun s => (three s).codec) common_dataSet (fun s => common_restores (three s)) demoC
    demoC_common (by decide) K (fresh_of_freshB objects K (demoC.map arriving) h)
  refine ⟨hf _ (by decide), ?_, ?_, distinct_of_nodup (by decide)⟩
  · intro s m h
    simp [demoC, demoB, joins, callP, yieldOf] at h
    rw [h.2]; rfl
  · intro pre s m post e
    have : Act.send s (.error m) ∈ demoC := by rw [e]; simp
    simp [demoC, demoB, joins, callP, yieldOf] at this

/-- Client 1 is handed the EVENT and the RESULT, client 2 the INVOCATION. -/
example : (∃ k e, (brun (fun s => (three s).codec) demoC).conns 1 = some k ∧ Handed (three 1).codec k.calls (.event e) ∧
      e.kwargs = some [(.str "k", .int 5)]) ∧
    (∃ k x, (brun (fun s => (three s).codec) demoC).conns 1 = some k ∧ Handed (three 1).codec k.calls (.result x) ∧ x.args = some [.int 8]) ∧
    ∃ k inv, (brun (fun s => (three s).codec) demoC).conns 2 = some k ∧ Handed (three 2).codec k.calls (.invocation inv) ∧ inv.args = some [.int 7] := by
  have key : ∀ s (P : Message → Bool), ((run objects (demoC.map arriving)).conns s).any (fun k => (allHanded objects k.calls).any P) = true →
      ∃ k m, (brun (fun s => (three s).codec) demoC).conns s = some k ∧ Handed (three s).codec k.calls m ∧ P m = true := by
    intro s P hP
    obtain ⟨k, hk, hk2⟩ := (Option.any_eq_true _ _).1 hP
    obtain ⟨m, hm, hPm⟩ := List.any_eq_true.1 hk2
    have h := C89_formats_refine_messages three demoC demoC_common (by decide)
    cases hk' : (brun (fun s => (three s).codec) demoC).conns s with
    | none => have := (h.gone s).1 hk'; rw [hk] at this; cases this
    | some kb =>
      have hs := (h.conn s kb k hk' hk).seen
      obtain ⟨⟨op, res⟩, h1, h2⟩ := List.mem_filterMap.1 hm
      have : appSees (op, res) = .got m := by
        revert h2; cases res with
        | error e => intro h2; cases h2
        | ok o => cases o <;> intro h2 <;> cases h2; rfl
      have hin : Seen.got m ∈ (WAMPSession.trace (three s).codec kb.calls).map appSees := by
        rw [hs, ← this]; exact List.mem_map.2 ⟨_, h1, rfl⟩
      obtain ⟨⟨op', res'⟩, h3, h4⟩ := List.mem_map.1 hin
      refine ⟨kb, m, rfl, ⟨op', ?_⟩, hPm⟩
      cases res' with
      | error e => cases h4
      | ok o => cases o <;> cases h4; exact h3
  refine ⟨?_, ?_, ?_⟩
  · obtain ⟨k, m, h1, h2, h3⟩ := key 1 (fun m => match m with | .event e => decide (e.kwargs = some [(.str "k", .int 5)]) | _ => false)
      (by decide +kernel)
    cases m <;> first | exact ⟨k, _, h1, h2, of_decide_eq_true h3⟩ | cases h3
  · obtain ⟨k, m, h1, h2, h3⟩ := key 1 (fun m => match m with | .result x => decide (x.args = some [.int 8]) | _ => false) (by decide +kernel)
    cases m <;> first | exact ⟨k, _, h1, h2, of_decide_eq_true h3⟩ | cases h3
  · obtain ⟨k, m, h1, h2, h3⟩ := key 2 (fun m => match m with | .invocation x => decide (x.args = some [.int 7]) | _ => false) (by decide +kernel)
    cases m <;> first | exact ⟨k, _, h1, h2, of_decide_eq_true h3⟩ | cases h3

end Wamp.Spec.Net
