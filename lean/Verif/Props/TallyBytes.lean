import Verif.Props.LastWord
import Verif.Props.ByteNet

/-! # C140, C141 on bytes: what applications are handed -/

namespace Wamp.Spec.Tally
open Wamp.Spec.Net Wamp.Spec.Ses

variable {W : Type}

/-- The messages a session has handed to its application -/
def handed (c : Codec W) (calls : List (WAMPSession.Op W)) : List Message :=
  (WAMPSession.trace c calls).filterMap fun o => match appSees o with | .got m => some m | _ => none

theorem receive_same (st : WAMPSession) (m m' : Message) (h : (st.receiveMessage m).2 = .ok m') : m' = m := by
  unfold WAMPSession.receiveMessage WAMPSession.receiveError at h
  cases m <;> dsimp only at h <;> (repeat' split at h) <;> cases h <;> rfl

/-- Only what it has received, in the order of receipt -/
theorem handed_sub (c : Codec W) (calls : List (WAMPSession.Op W)) (h : ∀ w, .receive w ∉ calls) :
    (handed c calls).Sublist (calls.filterMap fun | .receiveMessage m => some m | _ => none) := by
  induction calls using snoc_induction with
  | nil => exact List.Sublist.slnil
  | snoc calls op ih =>
    have hi := ih fun w hw => h w (List.mem_append_left _ hw)
    have e : handed c (calls ++ [op]) = handed c calls ++
        [(op, WAMPSession.outcome c calls op)].filterMap fun o => match appSees o with | .got m => some m | _ => none := by
      simp only [handed, WAMPSession.trace_snoc, List.filterMap_append]
    rw [e, List.filterMap_append]
    refine List.Sublist.append hi ?_
    cases op with
    | receive w => exact absurd (List.mem_append_right _ (List.mem_singleton.2 rfl)) (h w)
    | sendMessage m =>
      simp only [WAMPSession.outcome, WAMPSession.step]
      cases ((WAMPSession.after c calls).sendMessage c m).2 <;> exact List.nil_sublist _
    | receiveMessage m =>
      simp only [WAMPSession.outcome, WAMPSession.step]
      cases hr : ((WAMPSession.after c calls).receiveMessage m).2 with
      | error x => exact List.nil_sublist _
      | ok m' =>
        rw [receive_same _ _ _ hr]
        exact List.Sublist.refl _

theorem no_bytes (c : Codec W) (sched : List Act) : ∀ s k, (run c sched).conns s = some k → ∀ w, .receive w ∉ k.calls := by
  induction sched using snoc_induction with
  | nil => intro s k h; cases h
  | snoc sched a hi =>
    rw [run_snoc]
    generalize run c sched = n at hi ⊢
    have set : ∀ (n' : Net W) u kc, n'.conns = n.conns → (∀ k, kc = some k → ∀ w, .receive w ∉ k.calls) →
        ∀ s k, (n'.setConn u kc).conns s = some k → ∀ w, .receive w ∉ k.calls := by
      intro n' u kc e g s k hk
      simp only [Net.setConn] at hk
      split at hk
      · exact g k hk
      · rw [e] at hk; exact hi s k hk
    have push : ∀ (n' : Net W) l, (∀ s k, n'.conns s = some k → ∀ w, .receive w ∉ k.calls) →
        ∀ s k, (n'.push l).conns s = some k → ∀ w, .receive w ∉ k.calls := by
      intro n' l g s k hk
      simp only [Net.push, Option.map_eq_some_iff] at hk
      obtain ⟨k', h', rfl⟩ := hk
      exact g s k' h'
    cases a with
    | join d =>
      simp only [Net.step]
      split
      · refine set _ _ _ rfl ?_
        rintro k ⟨⟩ w h
        cases h
      · exact hi
    | leave u => exact set _ _ _ rfl nofun
    | send u m =>
      simp only [Net.step]
      cases hk : n.conns u with
      | none => exact hi
      | some kc =>
        refine set _ _ _ rfl ?_
        rintro k ⟨⟩ w h
        rcases List.mem_append.1 h with h | h
        · exact hi u kc hk w h
        · cases List.mem_singleton.1 h
    | deliver u =>
      simp only [Net.step]
      cases hk : n.conns u with
      | none => exact hi
      | some kc =>
        dsimp only
        split
        · exact hi
        · refine set _ _ _ rfl ?_
          rintro k ⟨⟩ w h
          rcases List.mem_append.1 h with h | h
          · exact hi u kc hk w h
          · cases List.mem_singleton.1 h
    | route u =>
      simp only [Net.step]
      cases hk : n.conns u with
      | none => exact hi
      | some kc =>
        dsimp only
        split
        · exact hi
        · rename_i m rest hu
          have g := set n u (some { kc with up := rest }) rfl (by rintro k ⟨⟩; exact hi u kc hk)
          simp only [Net.handle]
          split
          · exact push _ _ g
          · exact push _ _ g
          · exact g

theorem asks_arriving (s : Int) (sched : List Act) (k : Ses.Kind) (i : Int) :
    requested (asks s (sched.map arriving)) k i = requested (asks s sched) k i := by
  induction sched using snoc_induction with
  | nil => rfl
  | snoc sched a ih =>
    rw [List.map_append, List.map_singleton, asks_snoc, asks_snoc, ih]
    cases a with
    | send t m => simp only [arriving, one, requestOf_received]
    | _ => rfl

variable {D : Value → Prop} {cs : Int → Codec W}

/-- The application is handed a part of what the router has sent it in the network of messages. -/
theorem handed_bytes (hD : DataSet D) (hc : ∀ s, Net.Restores (cs s) D) (sched : List Act) (hs : SendsData D sched)
    (hl : sched.length ≤ 2 ^ 53) (s : Int) (kb : BConn W) (hk : (brun cs sched).conns s = some kb) :
    ∃ k, (run objects (sched.map arriving)).conns s = some k ∧ (handed (cs s) kb.calls).Sublist k.sentTo := by
  have hr := C81_bytes_refine_messages hD hc sched hs hl
  cases hk' : (run objects (sched.map arriving)).conns s with
  | none => rw [(hr.gone s).2 hk'] at hk; cases hk
  | some k =>
    refine ⟨k, rfl, ?_⟩
    have e : handed (cs s) kb.calls = handed objects k.calls := by
      have := congrArg (List.filterMap fun | Seen.got m => some m | _ => none) (hr.conn s kb k hk hk').seen
      simp only [List.filterMap_map] at this
      exact this
    rw [e]
    exact (handed_sub objects k.calls (no_bytes objects _ s k hk')).trans (List.sublist_append_left _ _)

/-- On bytes: an application is never handed more answers to requests of a kind and id than it has asked to send such requests, whatever
all clients send (of values the serializers restore). -/
theorem C140_handed (hD : DataSet D) (hc : ∀ s, Net.Restores (cs s) D) (sched : List Act) (hs : SendsData D sched)
    (hl : sched.length ≤ 2 ^ 53) (s : Int) (kb : BConn W) (hk : (brun cs sched).conns s = some kb) (k : Ses.Kind) (i : Int) :
    settled (handed (cs s) kb.calls) k i ≤ requested (asks s sched) k i := by
  obtain ⟨kc, h1, h2⟩ := handed_bytes hD hc sched hs hl s kb hk
  rw [← asks_arriving]
  exact Nat.le_trans (h2.countP_le) (C140_no_more_answers objects _ (by rw [List.length_map]; exact hl) s kc h1 k i)

/-- On bytes: once an application has been handed the answer to a request made once, it is handed nothing more in reply to it. -/
theorem C141_handed (hD : DataSet D) (hc : ∀ s, Net.Restores (cs s) D) (sched : List Act) (hs : SendsData D sched)
    (hl : sched.length ≤ 2 ^ 53) (s : Int) (kb : BConn W) (hk : (brun cs sched).conns s = some kb) (k : Ses.Kind) (i : Int)
    (h : requested (asks s sched) k i ≤ 1) (a b : List Message) (m : Message) (hm : handed (cs s) kb.calls = a ++ m :: b)
    (hs' : settles m = some (k, i)) : ∀ m' ∈ b, replyTo m' ≠ some (k, i) := by
  obtain ⟨kc, h1, h2⟩ := handed_bytes hD hc sched hs hl s kb hk
  have := last_run objects (sched.map arriving) (by rw [List.length_map]; exact hl) s k i (by rw [asks_arriving]; exact h) kc h1
  have := List.Pairwise.sublist h2 this
  rw [hm, List.pairwise_append] at this
  intro m' hm'
  exact (List.pairwise_cons.1 this.2.1).1 m' hm' hs'

/-- The example on bytes, the client receiving all it is sent -/
example : (((brun (fun _ => objects) (insistent ++ [.deliver 1, .deliver 1])).conns 1).map fun kb =>
    (handed objects kb.calls).map fun m => settles m) = some [some (.call, 1), some (.call, 2)] := by decide +kernel

end Wamp.Spec.Tally
