import Verif.Spec.Members
import Verif.Props.Bystanders
import Verif.Props.Stack
import Verif.Props.NetworkStory
import Verif.Props.NetworkStream
import Verif.Props.SessionGrammar
import Verif.Proofs.LoginEnds

/-! # C125: among strangers, the members are a network of sessions; what a member is told comes from a member -/

namespace Wamp.Spec.Net
open Wamp.Spec.Ses
variable {W : Type}

/-- The calls made on a client's session: a message it sends, or one that was next on the way to it. -/
theorem calls_from (c : Codec W) (sched : List Act) (s : Int) (k : Conn W) (hk : (run c sched).conns s = some k) :
    ∀ op ∈ k.calls, (∃ m, op = .sendMessage m) ∨
      ∃ m, op = .receiveMessage m ∧ ∃ pre post, sched = pre ++ .deliver s :: post ∧ NextDown c pre s m := by
  induction sched using snoc_induction generalizing s k with
  | nil => cases hk
  | snoc sched a ih =>
    have old : ∀ s k, (run c sched).conns s = some k → ∀ op ∈ k.calls, (∃ m, op = .sendMessage m) ∨
        ∃ m, op = .receiveMessage m ∧ ∃ pre post, sched ++ [a] = pre ++ .deliver s :: post ∧ NextDown c pre s m := by
      intro s k h op hop
      rcases ih s k h op hop with h | ⟨m, h1, pre, post, h2, h3⟩
      · exact .inl h
      · exact .inr ⟨m, h1, pre, post ++ [a], by rw [h2]; simp, h3⟩
    rw [run_snoc] at hk
    have push : ∀ (n : Net W) out, (∀ s k, n.conns s = some k → ∃ k0, (run c sched).conns s = some k0 ∧ k.calls = k0.calls) →
        ∀ s k, (n.push out).conns s = some k → ∃ k0, (run c sched).conns s = some k0 ∧ k.calls = k0.calls := by
      intro n out h s k hk
      rw [conns_push, Option.map_eq_some_iff] at hk
      obtain ⟨k1, h1, rfl⟩ := hk
      exact h s k1 h1
    cases a with
    | join d =>
      simp only [Net.step] at hk
      split at hk
      · rw [setConn_conns] at hk
        split at hk
        · cases hk; intro op hop; cases hop
        · exact old s k hk
      · exact old s k hk
    | leave s' =>
      simp only [Net.step, setConn_conns] at hk
      split at hk
      · cases hk
      · exact old s k hk
    | send s' m =>
      cases hk' : (run c sched).conns s' with
      | none => rw [step_send_none c hk'] at hk; exact old s k hk
      | some k' =>
        rw [step_send c hk', setConn_conns] at hk
        split at hk
        · rename_i e
          subst e
          cases hk
          intro op hop
          rcases List.mem_append.1 hop with h | h
          · exact old s k' hk' op h
          · exact .inl ⟨m, List.mem_singleton.1 h⟩
        · exact old s k hk
    | deliver s' =>
      cases hk' : (run c sched).conns s' with
      | none =>
        simp only [Net.step, hk'] at hk
        exact old s k hk
      | some k' =>
        cases hd : k'.down with
        | nil =>
          simp only [Net.step, hk', hd] at hk
          exact old s k hk
        | cons m rest =>
          rw [step_deliver c hk' hd, setConn_conns] at hk
          split at hk
          · rename_i e
            subst e
            cases hk
            intro op hop
            rcases List.mem_append.1 hop with h | h
            · exact old s k' hk' op h
            · exact .inr ⟨m, List.mem_singleton.1 h, sched, [], rfl, k', rest, hk', hd⟩
          · exact old s k hk
    | route s' =>
      have hcalls : ∃ k0, (run c sched).conns s = some k0 ∧ k.calls = k0.calls := by
        simp only [Net.step] at hk
        split at hk
        · exact ⟨k, hk, rfl⟩
        · rename_i k' hk'
          split at hk
          · exact ⟨k, hk, rfl⟩
          · rename_i m rest hu
            have hset : ∀ t kt, ((run c sched).setConn s' (some { k' with up := rest })).conns t = some kt →
                ∃ k0, (run c sched).conns t = some k0 ∧ kt.calls = k0.calls := by
              intro t kt h
              rw [setConn_conns] at h
              split at h
              · rename_i e; subst e; cases h; exact ⟨k', hk', rfl⟩
              · exact ⟨kt, h, rfl⟩
            unfold Net.handle at hk
            split at hk
            · exact push _ _ hset s k hk
            · exact push _ _ hset s k hk
            · exact hset s k hk
      obtain ⟨k0, h0, e⟩ := hcalls
      intro op hop
      exact old s k0 h0 op (e ▸ hop)

theorem in_trace (c : Codec W) (calls : List (WAMPSession.Op W)) (op : WAMPSession.Op W) (res : Except Exc (WAMPSession.Out W))
    (h : (op, res) ∈ WAMPSession.trace c calls) : ∃ pre, WAMPSession.outcome c pre op = res := by
  induction calls using snoc_induction with
  | nil => cases h
  | snoc calls op' ih =>
    rw [WAMPSession.trace_snoc] at h
    rcases List.mem_append.1 h with h | h
    · exact ih h
    · obtain ⟨rfl, rfl⟩ := Prod.mk.inj (List.mem_singleton.1 h)
      exact ⟨calls, rfl⟩

/-- What a session hands to its application is what it was given. -/
theorem handed (c : Codec W) (calls : List (WAMPSession.Op W)) (op : WAMPSession.Op W) (m : Message)
    (h : (op, .ok (.msg m)) ∈ WAMPSession.trace c calls) :
    op ∈ calls ∧ (∀ m', op = .receiveMessage m' → m' = m) ∧ ∀ m', op ≠ .sendMessage m' := by
  refine ⟨by rw [← WAMPSession.trace_ops c calls]; exact List.mem_map.2 ⟨_, h, rfl⟩, ?_, ?_⟩ <;> obtain ⟨pre, hp⟩ := in_trace c _ _ _ h
  · rintro m' rfl
    cases WAMPSession.C76_receive_returns c pre _ m' rfl _ hp
    rfl
  · rintro m' rfl
    simp only [WAMPSession.outcome, WAMPSession.step] at hp
    cases hx : ((WAMPSession.after c pre).sendMessage c m').2 <;> rw [hx] at hp <;> cases hp

/-- What an application on bytes is handed has been next on the way to the corresponding client on messages. -/
theorem handed_next {D : Value → Prop} {cs : Int → Codec W} (hD : DataSet D) (hc : ∀ s, Restores (cs s) D) (sched : List Act)
    (hs : SendsData D sched) (hl : sched.length ≤ 2 ^ 53) (s : Int) (kb : BConn W) (hk : (brun cs sched).conns s = some kb)
    (op : WAMPSession.Op W) (m : Message) (h : (op, .ok (.msg m)) ∈ WAMPSession.trace (cs s) kb.calls) :
    (∃ k, (run objects (sched.map arriving)).conns s = some k ∧ .receiveMessage m ∈ k.calls) ∧
    ∃ pre post, sched = pre ++ .deliver s :: post ∧ NextDown objects (pre.map arriving) s m := by
  obtain ⟨k, hk', hrel⟩ := (partner hD hc sched hs hl s).1 kb hk
  have hin : Seen.got m ∈ (WAMPSession.trace objects k.calls).map appSees := by
    rw [← hrel.cor.seen]; exact List.mem_map.2 ⟨_, h, rfl⟩
  obtain ⟨⟨op', res⟩, h1, h2⟩ := List.mem_map.1 hin
  have h3 : res = .ok (.msg m) := by
    cases res with
    | error e => cases h2
    | ok o => cases o <;> cases h2; rfl
  subst h3
  obtain ⟨h4, h5, h8⟩ := handed objects k.calls op' m h1
  rcases calls_from objects _ s k hk' op' h4 with ⟨m', rfl⟩ | ⟨m', rfl, pre, post, h6, h7⟩
  · exact absurd rfl (h8 m')
  · cases h5 m' rfl
    refine ⟨⟨k, hk', h4⟩, ?_⟩
    obtain ⟨pre', r, e1, rfl, e3⟩ := List.map_eq_append_iff.1 h6
    obtain ⟨a, post', rfl, e4, -⟩ := List.map_eq_cons_iff.1 e3
    have : a = .deliver s := by cases a <;> cases e4; rfl
    subst this
    exact ⟨pre', post', e1, h7⟩

end Wamp.Spec.Net

namespace Wamp.Spec.Stack
open RawSocket Net Hs

variable {q : Nat → Bool} {r : Setup}

theorem Strangers.unwelcome {sched : List GAct} (h : Strangers r q sched) : ∀ c, q c = true → Unwelcome r sched c :=
  fun c hc pre env post m sid ins w => h.out pre c env post m sid ins w hc

theorem grun_map (r : Setup) (sched : List SAct) : grun r (sched.map .act) = srun r sched := by
  simp only [grun, srun, List.foldl_map]
  rfl

/-- Without strangers, nothing but what clients of this package do. -/
theorem members_map {sched : List GAct} (h : ∀ c b, .inject c b ∈ sched → q c = true) : (members q sched).map .act = without q sched := by
  induction sched with
  | nil => rfl
  | cons a sched ih =>
    have ih := ih (fun c b hm => h c b (List.mem_cons_of_mem _ hm))
    simp only [members, without, List.filter_cons] at ih ⊢
    cases ha : q (connOf a) with
    | true => simpa using ih
    | false =>
      cases a with
      | inject c b => rw [show connOf (.inject c b) = c from rfl, h c b List.mem_cons_self] at ha; cases ha
      | act a => simpa [legal] using ih

theorem mem_members {sched : List GAct} {a : SAct} (h : a ∈ members q sched) : .act a ∈ sched ∧ q (connOf (.act a)) = false := by
  obtain ⟨x, h1, h2⟩ := List.mem_filterMap.1 h
  cases x with
  | inject c b => cases h2
  | act a' =>
    cases h2
    have := List.mem_filter.1 h1
    exact ⟨this.1, by simpa using this.2⟩

theorem members_length (sched : List GAct) : (members q sched).length ≤ sched.length :=
  Nat.le_trans (List.length_filterMap_le ..) (List.length_filter_le ..)

/-- A connection on which nothing happens is not there. -/
theorem unused_links (sched : List GAct) (c : Nat) (h : ∀ a ∈ sched, connOf a ≠ c) : (grun r sched).links c = none := by
  induction sched using snoc_induction with
  | nil => rfl
  | snoc sched a ih =>
    have ih := ih (fun a ha => h a (List.mem_append_left _ ha))
    rw [grun_snoc]
    rcases other_links r (grun r sched) (a := a) (c := c) (fun e => h a (by simp) e.symm) with e | ⟨out, e⟩ <;> rw [e, ih]
    rfl

/-- Take the strangers' connections away, and what is left is the system in which only the members' actions have happened. -/
theorem only_members (hr : r.hasAuthenticator = true) {sched : List GAct} (hs : Strangers r q sched) :
    (grun r sched).only q = srun r (members q sched) := by
  obtain ⟨h1, h2, h3⟩ := C122_bystanders r hr sched q hs.unwelcome
  rw [← grun_map, members_map hs.own]
  have h4 : (fun c => if q c = true then none else (grun r sched).links c) = (grun r (without q sched)).links := by
    funext c
    split
    · rename_i hc
      refine (unused_links _ c ?_).symm
      rintro a ha rfl
      have := (List.mem_filter.1 ha).2
      simp [hc] at this
    · rename_i hc
      exact h3 c (by simpa using hc)
  unfold Stack.only
  rw [h1, h2, h4]

/-! ## C125 -/

/-- Whatever strangers do, the others are a network of sessions: taking the strangers' connections away leaves what `C120_stack`
describes, for the members' own actions; and the strangers are not in. -/
theorem C125_network (fmt : Int → Format) (r : Setup) (hr : r.hasAuthenticator = true) (q : Nat → Bool) (sched : List GAct)
    (hs : Strangers r q sched) (hc : Consistent fmt (members q sched)) (hn : NothingTooLong fmt (sessions r (members q sched))) :
    Matches ((grun r sched).only q) (brun (codecs fmt) (sessions r (members q sched))) ∧
      ∀ c l f s, q c = true → (grun r sched).links c = some l → l.router ≠ .attached f s := by
  rw [only_members hr hs]
  exact ⟨C120_stack fmt r _ hc hn, fun c l f s h => (bystanders hr sched hs.unwelcome).2 c h l f s⟩

/-- A message a member has been handed was next on the way to it in the network of sessions. -/
theorem member_handed {fmt : Int → Format} (hr : r.hasAuthenticator = true) {sched : List GAct}
    (hs : Strangers r q sched) (hc : Consistent fmt (members q sched)) (hn : NothingTooLong fmt (sessions r (members q sched)))
    (hd : SendsCommon (members q sched)) (hl : sched.length ≤ 2 ^ 53) {c : Nat} {l : Link} {calls : List (WAMPSession.Op Bytes)}
    (hqc : q c = false) (hlink : (grun r sched).links c = some l) (hcl : l.client = .session calls) {m : Message}
    (h : Sees l.config.format calls m) :
    ∃ s pre post, sessions r (members q sched) = pre ++ .deliver s :: post ∧ NextDown objects (pre.map arriving) s m ∧
      ∃ k, (run objects ((sessions r (members q sched)).map arriving)).conns s = some k ∧ .receiveMessage m ∈ k.calls := by
  have hlink' : (srun r (members q sched)).links c = some l := by
    rw [← only_members hr hs]
    simp only [Stack.only, hqc, Bool.false_eq_true, if_false]
    exact hlink
  obtain ⟨s, k, -, h2, h3, rfl, -⟩ := session_partner hc hn hlink' hcl
  obtain ⟨op, hop⟩ := h
  have hf : l.config.format.wire = codecs fmt s := by rw [codecs, h2]
  rw [hf] at hop
  obtain ⟨h4, pre, post, h5, h6⟩ := handed_next common_dataSet (cs := codecs fmt) (fun s => wire_common (fmt s)) _ (sends_data hd)
    (Nat.le_trans (sessions_length r _) (Nat.le_trans (members_length sched) hl)) s k h3 op m hop
  exact ⟨s, pre, post, h5, h6, h4⟩

theorem member_send {sched : List GAct} {s : Int} {m : Message} (h : .send s m ∈ (sessions r (members q sched)).map arriving) :
    ∃ c m', q c = false ∧ .act (.send c m') ∈ sched ∧ m = received m' := by
  obtain ⟨a, h1, h2⟩ := List.mem_map.1 h
  obtain ⟨m', rfl, h3⟩ := arriving_send h2
  obtain ⟨c, hc⟩ := sessions_send h1
  obtain ⟨h4, h5⟩ := mem_members hc
  exact ⟨c, m', h5, h4, h3⟩

/-- Every EVENT a member is handed carries what a PUBLISH carries that the application of a member asked to send. -/
theorem C125_event (fmt : Int → Format) (r : Setup) (hr : r.hasAuthenticator = true) (q : Nat → Bool) (sched : List GAct)
    (hs : Strangers r q sched) (hc : Consistent fmt (members q sched)) (hn : NothingTooLong fmt (sessions r (members q sched)))
    (hd : SendsCommon (members q sched)) (hl : sched.length ≤ 2 ^ 53) (c : Nat) (l : Link) (calls : List (WAMPSession.Op Bytes))
    (hqc : q c = false) (hlink : (grun r sched).links c = some l) (hcl : l.client = .session calls) (e : Event)
    (h : Sees l.config.format calls (.event e)) :
    ∃ c' p, q c' = false ∧ .act (.send c' (.publish p)) ∈ sched ∧ e.args = seenArgs p.args p.kwargs ∧ e.kwargs = p.kwargs := by
  obtain ⟨s, -, -, -, -, k, hk, hm⟩ := member_handed hr hs hc hn hd hl hqc hlink hcl h
  have hlen : ((sessions r (members q sched)).map arriving).length ≤ 2 ^ 53 := by
    rw [List.length_map]; exact Nat.le_trans (sessions_length r _) (Nat.le_trans (members_length sched) hl)
  have hev : e ∈ k.events := List.mem_append_left _ (List.mem_filterMap.2 ⟨_, hm, rfl⟩)
  have heq := C74_exactly_once_in_order objects _ hlen s k hk
  have : (e.subscriptionId.val, e.args, e.kwargs, e.details) ∈ k.events.map (fun e => (e.subscriptionId.val, e.args, e.kwargs, e.details)) :=
    List.mem_map.2 ⟨e, hev, rfl⟩
  rw [heq] at this
  obtain ⟨f, hf, hfe⟩ := List.mem_map.1 this
  have hpub : f.publish ∈ publishes f.publisher ((sessions r (members q sched)).map arriving) :=
    (C74_publisher_order objects _ hlen s f.publisher).subset
      (List.mem_map.2 ⟨f, List.mem_filter.2 ⟨hf, by simp⟩, rfl⟩)
  obtain ⟨a, h1, h2⟩ := List.mem_filterMap.1 hpub
  split at h2
  · rename_i s' m
    split at h2
    · replace h2 := Option.some.inj h2
      obtain ⟨c', m', h3, h4, h5⟩ := member_send h1
      cases m' <;> cases h5
      rename_i p
      rw [← h2] at hfe
      injection hfe with e1 e2
      injection e2 with e2 e3
      injection e3 with e3 e4
      exact ⟨c', p, h3, h4, e2.symm, e3.symm⟩
    · cases h2
  · cases h2

theorem chain_mem {start : List Act} {es : List Ev} {post : List Act} (h : Chain start es post) {s : Int} {m : Message}
    (hm : Sends s m ∈ es) : .send s m ∈ post := by
  induction es generalizing post with
  | nil => cases hm
  | cons e es ih =>
    obtain ⟨q, a, r, rfl, h1, h2⟩ := h
    rcases List.mem_cons.1 hm with rfl | h3
    · cases h1; simp
    · exact List.mem_append_left _ (ih h2 h3)

/-- Every INVOCATION a member is handed carries what a CALL carries that the application of a member asked to send. -/
theorem C125_invocation (fmt : Int → Format) (r : Setup) (hr : r.hasAuthenticator = true) (q : Nat → Bool) (sched : List GAct)
    (hs : Strangers r q sched) (hc : Consistent fmt (members q sched)) (hn : NothingTooLong fmt (sessions r (members q sched)))
    (hd : SendsCommon (members q sched)) (hl : sched.length ≤ 2 ^ 53) (c : Nat) (l : Link) (calls : List (WAMPSession.Op Bytes))
    (hqc : q c = false) (hlink : (grun r sched).links c = some l) (hcl : l.client = .session calls) (inv : Invocation)
    (h : Sees l.config.format calls (.invocation inv)) :
    ∃ c' m, q c' = false ∧ .act (.send c' (.call m)) ∈ sched ∧ inv.args = seenArgs m.args m.kwargs ∧ inv.kwargs = m.kwargs := by
  obtain ⟨s, pre, post, h1, h2, -⟩ := member_handed hr hs hc hn hd hl hqc hlink hcl h
  have hlen := Nat.le_trans (sessions_length r (members q sched)) (Nat.le_trans (members_length sched) hl)
  rw [h1, List.length_append] at hlen
  obtain ⟨s', m, h3, h4⟩ := C71_invocation objects _ (by rw [List.length_map]; omega) s inv h2
  have h5 := chain_mem h4 (s := s') (m := .call m) (by simp)
  obtain ⟨c', m', h6, h7, h8⟩ := member_send (r := r) (q := q) (sched := sched) (s := s') (m := .call m) (by
    rw [h1, List.map_append]; exact List.mem_append_left _ h5)
  cases m' <;> cases h8
  exact ⟨c', _, h6, h7, h3.args, h3.kwargs⟩

theorem good_before {W : Type} {c : Codec W} {pre post : List Act} (h : GoodClients c (pre ++ post)) : GoodClients c pre := by
  induction post using snoc_induction with
  | nil => simpa using h
  | snoc post a ih => exact ih (GoodClients.init c (by rw [List.append_assoc]; exact h))

/-- The answer to a call, as the network of sessions explains it -/
theorem member_answer {fmt : Int → Format} (hr : r.hasAuthenticator = true) {sched : List GAct}
    (hs : Strangers r q sched) (hc : Consistent fmt (members q sched)) (hn : NothingTooLong fmt (sessions r (members q sched)))
    (hd : SendsCommon (members q sched)) (hg : GoodClientsB (codecs fmt) (sessions r (members q sched))) (hl : sched.length ≤ 2 ^ 53)
    {c : Nat} {l : Link} {calls : List (WAMPSession.Op Bytes)} (hqc : q c = false) (hlink : (grun r sched).links c = some l)
    (hcl : l.client = .session calls) {m : Message} (h : Sees l.config.format calls m) :
    ∃ s sched', (∀ a ∈ sched', a ∈ (sessions r (members q sched)).map arriving) ∧ sched'.length ≤ 2 ^ 53 ∧ GoodClients objects sched' ∧
      NextDown objects sched' s m := by
  obtain ⟨s, pre, post, h1, h2, -⟩ := member_handed hr hs hc hn hd hl hqc hlink hcl h
  have hlen := Nat.le_trans (sessions_length r (members q sched)) (Nat.le_trans (members_length sched) hl)
  have hgood := good_of_bytes common_dataSet (cs := codecs fmt) (fun s => wire_common (fmt s)) _ (sends_data hd) hlen hg
  have e : (sessions r (members q sched)).map arriving = pre.map arriving ++ (.deliver s :: post).map arriving := by
    rw [h1, List.map_append]
  rw [e] at hgood
  rw [h1, List.length_append] at hlen
  exact ⟨s, pre.map arriving, fun a ha => by rw [e]; exact List.mem_append_left _ ha, by rw [List.length_map]; omega, good_before hgood, h2⟩

/-- Every RESULT a member is handed carries what a YIELD carries that the application of a member asked to send, for an INVOCATION
of a CALL with the RESULT's request id. -/
theorem C125_result (fmt : Int → Format) (r : Setup) (hr : r.hasAuthenticator = true) (q : Nat → Bool) (sched : List GAct)
    (hs : Strangers r q sched) (hc : Consistent fmt (members q sched)) (hn : NothingTooLong fmt (sessions r (members q sched)))
    (hd : SendsCommon (members q sched)) (hg : GoodClientsB (codecs fmt) (sessions r (members q sched))) (hl : sched.length ≤ 2 ^ 53)
    (c : Nat) (l : Link) (calls : List (WAMPSession.Op Bytes))
    (hqc : q c = false) (hlink : (grun r sched).links c = some l) (hcl : l.client = .session calls) (x : Result)
    (h : Sees l.config.format calls (.result x)) :
    (∃ c' y, q c' = false ∧ .act (.send c' (.yield_ y)) ∈ sched ∧ x.args = seenArgs y.args y.kwargs ∧ x.kwargs = y.kwargs) ∧
      ∃ c' m, q c' = false ∧ .act (.send c' (.call m)) ∈ sched ∧ x.requestId = m.requestId := by
  obtain ⟨s, sched', h1, h2, h3, h4⟩ := member_answer hr hs hc hn hd hg hl hqc hlink hcl h
  obtain ⟨m, callee, inv, y, h5, -, -, h6, h7, pre, post, h8, -, h9⟩ := C71_result objects sched' h2 h3 s x h4
  have hy := chain_mem h9 (s := callee) (m := .yield_ y) (by simp)
  constructor
  · obtain ⟨c', m', k1, k2, k3⟩ := member_send (h1 (.send callee (.yield_ y)) (by
      rw [h8]; exact List.mem_append_right _ (List.mem_cons_of_mem _ hy)))
    cases m' <;> cases k3
    exact ⟨c', _, k1, k2, h6, h7⟩
  · obtain ⟨c', m', k1, k2, k3⟩ := member_send (h1 (.send s (.call m)) (by rw [h8]; simp))
    cases m' <;> cases k3
    exact ⟨c', _, k1, k2, h5⟩

/-- Every ERROR a member is handed for a call carries what an ERROR carries that the application of a member asked to send, or says
that there is no such procedure. -/
theorem C125_error (fmt : Int → Format) (r : Setup) (hr : r.hasAuthenticator = true) (q : Nat → Bool) (sched : List GAct)
    (hs : Strangers r q sched) (hc : Consistent fmt (members q sched)) (hn : NothingTooLong fmt (sessions r (members q sched)))
    (hd : SendsCommon (members q sched)) (hg : GoodClientsB (codecs fmt) (sessions r (members q sched))) (hl : sched.length ≤ 2 ^ 53)
    (c : Nat) (l : Link) (calls : List (WAMPSession.Op Bytes))
    (hqc : q c = false) (hlink : (grun r sched).links c = some l) (hcl : l.client = .session calls) (e : ErrorMsg)
    (h : Sees l.config.format calls (.error e)) (he : e.messageType.val = 48) :
    ((∃ c' x, q c' = false ∧ .act (.send c' (.error x)) ∈ sched ∧ x.messageType.val = 68 ∧ e.uri = x.uri ∧ e.details = x.details ∧
        e.args = seenArgs x.args x.kwargs ∧ e.kwargs = x.kwargs) ∨ e.uri = "wamp.error.no_such_procedure") ∧
      ∃ c' m, q c' = false ∧ .act (.send c' (.call m)) ∈ sched ∧ e.requestId = m.requestId := by
  obtain ⟨s, sched', h1, h2, h3, h4⟩ := member_answer hr hs hc hn hd hg hl hqc hlink hcl h
  obtain ⟨m, h5, h6⟩ := C71_error objects sched' h2 h3 s e h4 he
  have call : .send s (.call m) ∈ sched' → ∃ c' m, q c' = false ∧ .act (.send c' (.call m)) ∈ sched ∧ e.requestId = m.requestId := by
    intro hm
    obtain ⟨c', m', k1, k2, k3⟩ := member_send (h1 _ hm)
    cases m' <;> cases k3
    exact ⟨c', _, k1, k2, h5⟩
  rcases h6 with ⟨callee, inv, x, -, -, h7, h8, h9, h10, h11, pre, post, h12, -, h13⟩ | ⟨h7, pre, post, h8, -⟩
  · refine ⟨.inl ?_, call (by rw [h12]; simp)⟩
    have hx := chain_mem h13 (s := callee) (m := .error x) (by simp)
    obtain ⟨c', m', k1, k2, k3⟩ := member_send (h1 (.send callee (.error x)) (by
      rw [h12]; exact List.mem_append_right _ (List.mem_cons_of_mem _ hx)))
    cases m' <;> cases k3
    exact ⟨c', _, k1, k2, h7, h8, h11, h9, h10⟩
  · exact ⟨.inr h7, call (by rw [h8]; simp)⟩

/-! ### Which events, exactly -/

theorem concerns_snoc (s : Int) (ops : List Broker.Op) (op : Broker.Op) :
    concerns s (ops ++ [op]) = concernsStep s ops (concerns s ops) op := by
  have : ∀ ops : List Broker.Op, (ops.foldl (fun (x : List Broker.Op × List (Int × Publish)) op => (x.1 ++ [op], concernsStep s x.1 x.2 op)) ([], [])).1 = ops := by
    intro ops
    induction ops using snoc_induction with
    | nil => rfl
    | snoc ops op ih => rw [List.foldl_append, List.foldl_cons, List.foldl_nil, ih]
  simp only [concerns]
  rw [List.foldl_append, List.foldl_cons, List.foldl_nil, this]

/-- The feed of a client of the network, from the broker's calls alone -/
theorem feed_concerns {W : Type} (c : Codec W) (s : Int) (sched : List Act) (hl : sched.length ≤ 2 ^ 53) :
    (feed c s sched).map (fun f => (f.id, f.publish)) = concerns s (run c sched).broker := by
  induction sched using snoc_induction with
  | nil => rfl
  | snoc sched a ih =>
    rw [List.length_append, List.length_singleton] at hl
    have ih := ih (by omega)
    have hb := base_run c sched (by omega)
    rw [feed_snoc, run_snoc]
    generalize feed c s sched = fd at ih ⊢
    generalize run c sched = n at ih hb ⊢
    have hpush : ∀ (n : Net W) out, (n.push out).broker = n.broker := fun _ _ => rfl
    cases a with
    | join d =>
      have hx : (if d.sessionId.val = s ∧ (n.conns s).isNone = true then [] else fd).map (fun f => (f.id, f.publish)) =
          concerns s (n.broker ++ [.addSession d]) := by
        rw [concerns_snoc, ← ih]
        simp only [concernsStep]
        by_cases hs : d.sessionId.val = s
        · subst hs
          obtain ⟨h1, h2⟩ := badd_outcome n.broker d
          rw [hb.bk] at h1 h2
          cases hk : n.conns d.sessionId.val with
          | none =>
            rw [h1 (by rw [hk]; simp)]
            simp [returned]
          | some k =>
            obtain ⟨e, he⟩ := h2 (by rw [hk]; rfl)
            rw [he]
            simp [returned]
        · rw [if_neg (fun h => hs h.1), if_neg (fun h => hs h.1)]
      have hbr : (n.step c (.join d)).broker = n.broker ++ [.addSession d] := by
        simp only [Net.step]
        split <;> rfl
      rw [hbr]
      exact hx
    | leave s' =>
      simp only [feedStep, Net.step, Net.setConn]
      rw [concerns_snoc, ih]
      rfl
    | send s' m =>
      simp only [feedStep, Net.step]
      split <;> exact ih
    | deliver s' =>
      simp only [feedStep, Net.step]
      split
      · exact ih
      · split <;> exact ih
    | route s' =>
      simp only [feedStep, Net.step, nextPublish]
      cases hk : n.conns s' with
      | none => exact ih
      | some k =>
        obtain ⟨calls, up, down⟩ := k
        cases up with
        | nil => exact ih
        | cons m rest =>
          dsimp only
          unfold Net.handle
          cases m <;> simp only [brokerCall, dealerCall, hpush, Net.setConn] <;>
            first | exact ih | (rw [concerns_snoc, ← ih]; rfl) | skip
          rename_i m
          rw [concerns_snoc, ← ih]
          simp only [concernsStep, subscriptionOf, subscription]
          split <;> (rename_i h; simp [h])

/-- The EVENT an application sees -/
def seenEvent : Seen → Option Event
  | .got (.event e) => some e
  | _ => none

theorem eventsSeen_map (f : Format) (calls : List (WAMPSession.Op Bytes)) :
    eventsSeen f calls = ((WAMPSession.trace f.wire calls).map appSees).filterMap seenEvent := by
  rw [eventsSeen, List.filterMap_map]
  congr 1
  funext ⟨op, res⟩
  cases res with
  | error e => rfl
  | ok o =>
    cases o with
    | data w => rfl
    | msg m => cases m <;> rfl

/-- A session that takes every EVENT it is given hands over those it is given. -/
theorem seen_received {W : Type} (c : Codec W) (calls : List (WAMPSession.Op W))
    (h1 : ∀ op ∈ calls, (∃ m, op = .sendMessage m) ∨ ∃ m, op = .receiveMessage m)
    (h2 : ∀ pre e post, calls = pre ++ .receiveMessage (.event e) :: post →
      WAMPSession.outcome c pre (.receiveMessage (.event e)) = .ok (.msg (.event e))) :
    ((WAMPSession.trace c calls).map appSees).filterMap seenEvent = calls.filterMap receivedEvent := by
  induction calls using snoc_induction with
  | nil => rfl
  | snoc calls op ih =>
    have ih := ih (fun op h => h1 op (List.mem_append_left _ h)) (fun pre e post h => h2 pre e (post ++ [op]) (by rw [h]; simp))
    rw [WAMPSession.trace_snoc, List.map_append, List.filterMap_append, List.filterMap_append, ih]
    congr 1
    simp only [List.map_cons, List.map_nil]
    have none_ : ∀ {x : Seen}, seenEvent x = none → [x].filterMap seenEvent = [] := fun h => by simp [h]
    rcases h1 op (by simp) with ⟨m, rfl⟩ | ⟨m, rfl⟩
    · rw [none_]
      · rfl
      · cases ho : WAMPSession.outcome c calls (.sendMessage m) with
        | error e => rfl
        | ok o =>
          cases o with
          | data w => rfl
          | msg m' =>
            simp only [WAMPSession.outcome, WAMPSession.step] at ho
            cases hx : ((WAMPSession.after c calls).sendMessage c m).2 <;> rw [hx] at ho <;> cases ho
    · by_cases he : ∃ e, m = .event e
      · obtain ⟨e, rfl⟩ := he
        rw [h2 calls e [] rfl]
        rfl
      · have hr : receivedEvent (.receiveMessage m : WAMPSession.Op W) = none := by
          cases m <;> first | rfl | exact absurd ⟨_, rfl⟩ he
        rw [none_]
        · simp [hr]
        · cases ho : WAMPSession.outcome c calls (.receiveMessage m) with
          | error e => rfl
          | ok o =>
            cases WAMPSession.C76_receive_returns c calls _ m rfl _ ho
            cases m <;> first | rfl | exact absurd ⟨_, rfl⟩ he

/-- The EVENTs a member has been handed are, in order and one for one, the first of the PUBLISHes the broker has handled while the member's
session was subscribed to their topic; all of them, once nothing is on its way to the member. -/
theorem C125_stream (fmt : Int → Format) (r : Setup) (hr : r.hasAuthenticator = true) (q : Nat → Bool) (sched : List GAct)
    (hs : Strangers r q sched) (hc : Consistent fmt (members q sched)) (hn : NothingTooLong fmt (sessions r (members q sched)))
    (hd : SendsCommon (members q sched)) (hf : FreshRequestsB (codecs fmt) pubSub (sessions r (members q sched)))
    (hl : sched.length ≤ 2 ^ 53) (c : Nat) (l : Link) (calls : List (WAMPSession.Op Bytes))
    (hqc : q c = false) (hlink : (grun r sched).links c = some l) (hcl : l.client = .session calls) :
    ∃ s, l.router = .attached l.config.format s ∧
      (eventsSeen l.config.format calls).map (fun e => (e.subscriptionId.val, e.args, e.kwargs)) <+:
        (concerns s (grun r sched).broker).map (fun x => (x.1, x.2.args, x.2.kwargs)) ∧
      (l.downHas = [] → l.down = [] →
        (eventsSeen l.config.format calls).map (fun e => (e.subscriptionId.val, e.args, e.kwargs)) =
          (concerns s (grun r sched).broker).map (fun x => (x.1, x.2.args, x.2.kwargs))) := by
  have hlink' : (srun r (members q sched)).links c = some l := by
    rw [← only_members hr hs]
    simp only [Stack.only, hqc, Bool.false_eq_true, if_false]
    exact hlink
  obtain ⟨s, kb, h1, h2, h3, rfl, h5⟩ := session_partner hc hn hlink' hcl
  have hlen := Nat.le_trans (sessions_length r (members q sched)) (Nat.le_trans (members_length sched) hl)
  have hwire : ∀ s, Net.Restores (codecs fmt s) (Fits commonLimits) := fun s => wire_common (fmt s)
  obtain ⟨k, hk, hrel⟩ := (partner common_dataSet hwire _ (sends_data hd) hlen s).1 kb h3
  have hlen' : ((sessions r (members q sched)).map arriving).length ≤ 2 ^ 53 := by rw [List.length_map]; exact hlen
  have hbr : (grun r sched).broker = (run objects ((sessions r (members q sched)).map arriving)).broker := by
    rw [← (C81_bytes_refine_messages common_dataSet hwire _ (sends_data hd) hlen).broker,
      ← (C120_stack fmt r _ hc hn).broker, ← only_members hr hs]
    rfl
  have hseen : eventsSeen l.config.format kb.calls = k.received := by
    rw [eventsSeen_map, show l.config.format.wire = codecs fmt s by rw [codecs, h2], hrel.cor.seen]
    refine seen_received objects k.calls ?_ ?_
    · intro op hop
      rcases calls_from objects _ s k hk op hop with h | ⟨m, h, -⟩
      · exact .inl h
      · exact .inr ⟨m, h⟩
    · intro pre e post he
      exact C74_accepted objects _ hlen' (fresh_of_bytes common_dataSet hwire _ (sends_data hd) hlen _ hf) s k hk pre post e he
  have heq := C74_exactly_once_in_order objects _ hlen' s k hk
  have hmap : k.events.map (fun e => (e.subscriptionId.val, e.args, e.kwargs)) =
      (concerns s (grun r sched).broker).map (fun x => (x.1, x.2.args, x.2.kwargs)) := by
    rw [hbr, ← feed_concerns objects s _ hlen', List.map_map]
    have := congrArg (List.map fun (x : Int × Option (List Value) × Option PyDict × PyDict) => (x.1, x.2.1, x.2.2.1)) heq
    rw [List.map_map, List.map_map] at this
    exact this
  refine ⟨s, h1, ?_, fun e1 e2 => ?_⟩
  · rw [hseen, ← hmap, Conn.events, List.map_append]
    exact List.prefix_append _ _
  · have hnil : kb.down = [] :=
      stream_nil (fun w hw => hn _ (List.prefix_refl _) s kb h3 w (List.mem_append_right _ hw)) (by rw [← h5, e1, e2]; rfl)
    have hk0 : k.down = [] := by
      have := hrel.cor.down
      rw [hnil] at this
      exact List.map_eq_nil_iff.1 this.symm
    rw [hseen, ← hmap, Conn.events, hk0]
    simp

/-! ## The hypotheses can be met -/

/-- Both log in; then the first subscribes and registers, the second publishes and calls, the first answers. -/
def busy : List SAct :=
  [.connect 0 ⟨.cbor, 700, "realm1", anonymousAuthenticator "" none, none⟩ (.int 11),
   .connect 1 ⟨.msgpack, 5000, "realm1", anonymousAuthenticator "" none, none⟩ (.int 12)] ++
  comeIn 0 ++ comeIn 1 ++
  [.send 0 (.subscribe ⟨.int 1, "a", []⟩), .send 0 (.register ⟨.int 2, "p", []⟩), .carryUp 0 900, .serve 0 demoEnv, .serve 0 demoEnv,
   .carryDown 0 900, .hear 0, .hear 0,
   .send 1 (.publish ⟨.int 1, "a", some [.int 5], none, []⟩), .send 1 (.call { requestId := .int 2, procedure := "p", args := some [.int 7] }),
   .send 1 (.call { requestId := .int 3, procedure := "none" }), .carryUp 1 900, .serve 1 demoEnv, .serve 1 demoEnv, .serve 1 demoEnv,
   .carryDown 0 900, .hear 0, .hear 0, .send 0 (.yield_ { requestId := .int 2, args := some [.int 8] }), .carryUp 0 900, .serve 0 demoEnv,
   .carryDown 1 900, .hear 1, .hear 1]

def busyActs : List Act :=
  [.join ⟨.int 11, "realm1", some "me", some "user"⟩, .join ⟨.int 12, "realm1", some "me", some "user"⟩,
   .send 11 (.subscribe ⟨.int 1, "a", []⟩), .send 11 (.register ⟨.int 2, "p", []⟩), .route 11, .route 11, .deliver 11, .deliver 11,
   .send 12 (.publish ⟨.int 1, "a", some [.int 5], none, []⟩), .send 12 (.call { requestId := .int 2, procedure := "p", args := some [.int 7] }),
   .send 12 (.call { requestId := .int 3, procedure := "none" }), .route 12, .route 12, .route 12, .deliver 11, .deliver 11,
   .send 11 (.yield_ { requestId := .int 2, args := some [.int 8] }), .route 11, .deliver 12, .deliver 12]


theorem busy_acts : sessions demoSetup busy = busyActs := by decide +kernel

theorem busy_consistent : Consistent demoFmt busy := by
  intro c cfg sid h
  simp only [busy, comeIn, List.cons_append, List.nil_append, List.mem_cons, SAct.connect.injEq, reduceCtorEq,
    List.not_mem_nil, or_false] at h
  rcases h with ⟨-, rfl, rfl⟩ | ⟨-, rfl, rfl⟩ <;> decide

theorem busy_short : NothingTooLong demoFmt (sessions demoSetup busy) := by
  rw [busy_acts]
  have hall : ∀ i ∈ List.range 21, ∀ s ∈ [(11 : Int), 12], (match (brun (codecs demoFmt) (busyActs.take i)).conns s with
      | none => true
      | some k => (k.up ++ k.down).all (·.length < 100)) = true := by decide +kernel
  intro pre hp s k hk w hw
  have hpre : pre = busyActs.take pre.length := List.prefix_iff_eq_take.1 hp
  have hlen : pre.length < 21 := by have := hp.length_le; simp [busyActs] at this; omega
  by_cases hs : s = 11 ∨ s = 12
  · have := hall pre.length (List.mem_range.2 hlen) s (by simpa using hs)
    rw [← hpre, hk] at this
    have := List.all_eq_true.1 this w hw
    simp only [decide_eq_true_eq] at this
    omega
  · have hnone : (brun (codecs demoFmt) pre).conns s = none := by
      refine brun_absent _ _ _ (fun d hd hds => hs ?_)
      have : Act.join d ∈ busyActs := hp.subset hd
      simp only [busyActs, List.mem_cons, reduceCtorEq, Act.join.injEq, List.not_mem_nil, or_false] at this
      rcases this with rfl | rfl <;> simp [PyInt.val] at hds <;> omega
    rw [hnone] at hk; cases hk

theorem busy_sends : SendsCommon busy := by
  intro c m h
  simp only [busy, comeIn, List.cons_append, List.nil_append, List.mem_cons, SAct.send.injEq, reduceCtorEq,
    List.not_mem_nil, or_false, false_or] at h
  rcases h with ⟨-, rfl⟩ | ⟨-, rfl⟩ | ⟨-, rfl⟩ | ⟨-, rfl⟩ | ⟨-, rfl⟩ | ⟨-, rfl⟩
  all_goals
    refine ⟨by simp [Valid, IdOk, PyInt.val], ?_⟩
    simp [Message.marshal, payloadTail, PyInt.toValue, Fits, FitsList, FitsDict, commonLimits, Subscribe.TYPE, Publish.TYPE, Register.TYPE,
      Call.TYPE, Yield.TYPE, Call.options, Yield.options, withSerializer]
    try decide

theorem busy_good : FreshRequestsB (codecs demoFmt) pubSub (sessions demoSetup busy) ∧
    GoodClientsB (codecs demoFmt) (sessions demoSetup busy) := by
  have hf := fun K h => fresh_to_bytes common_dataSet (fun s => wire_common (demoFmt s)) (sessions demoSetup busy)
    (sends_data busy_sends) (by rw [busy_acts]; decide) K (fresh_of_freshB objects K ((sessions demoSetup busy).map arriving) h)
  rw [busy_acts] at *
  refine ⟨hf _ (by decide +kernel), hf _ (by decide +kernel), ?_, ?_, distinct_of_nodup (by decide)⟩
  · intro s m h
    simp only [busyActs, List.mem_cons, reduceCtorEq, Act.send.injEq, Message.call.injEq, false_or, or_false, and_false, List.not_mem_nil] at h
    rcases h with ⟨-, rfl⟩ | ⟨-, rfl⟩ <;> rfl
  · intro pre s m post e
    have : Act.send s (.error m) ∈ busyActs := by rw [e]; simp
    simp [busyActs] at this

/-- A stranger connects before them, and goes on sending; the authenticator approves of nothing it is asked about on that connection. -/
def infested : List GAct :=
  [.act (.connect 2 ⟨.cbor, 700, "realm1", anonymousAuthenticator "" none, none⟩ (.int 11)), .inject 2 hostile, .act (.carryUp 2 500),
   .act (.serve 2 strictEnv), .act (.serve 2 strictEnv), .act (.serve 2 strictEnv)] ++ (busy.take 40).map .act ++
  [.inject 2 hostile, .act (.carryUp 2 500), .act (.serve 2 strictEnv)] ++ (busy.drop 40).map .act

theorem infested_members : members (· == 2) infested = busy := rfl

theorem infested_strangers : Strangers demoSetup (· == 2) infested := by
  refine ⟨?_, ?_⟩
  · intro c b h
    have : ∀ a ∈ infested, (match a with | .inject c _ => c == 2 | _ => true) = true := by decide
    exact this _ h
  · intro pre c env post m sid ins w hc
    rw [beq_iff_eq] at hc
    subst hc
    refine C122_refused demoSetup rfl infested 2 ?_ pre env post m sid ins w
    intro env x response h
    have : env = strictEnv := by
      simp only [infested, busy, comeIn, List.cons_append, List.nil_append, List.take_succ_cons, List.take_zero, List.drop_succ_cons,
        List.drop_zero, List.map_cons, List.map_nil, List.mem_cons, reduceCtorEq, GAct.act.injEq, SAct.serve.injEq,
        List.not_mem_nil, or_false, false_or] at h
      simp_all
    subst this
    exact fun e => by cases e

/-- What the applications have been handed -/
def handedTo (n : Stack) (c : Nat) : List Message :=
  match n.links c with
  | some ⟨cfg, .session calls, _, _, _, _, _⟩ => (WAMPSession.trace cfg.format.wire calls).filterMap fun
    | (_, .ok (.msg m)) => some m
    | _ => none
  | _ => []

theorem infested_handed : (handedTo (grun demoSetup infested) 0).map code = [33, 65, 36, 68] ∧ (handedTo (grun demoSetup infested) 1).map code = [8, 50] := by
  decide +kernel

theorem sees_of_handed {n : Stack} {c : Nat} {m : Message} (h : m ∈ handedTo n c) :
    ∃ l calls, n.links c = some l ∧ l.client = .session calls ∧ Sees l.config.format calls m := by
  unfold handedTo at h
  split at h
  · rename_i cfg calls ro up uh dn dh hl
    obtain ⟨⟨op, res⟩, h1, h2⟩ := List.mem_filterMap.1 h
    refine ⟨_, calls, hl, rfl, op, ?_⟩
    split at h2
    · rename_i e; cases e; cases h2; exact h1
    · cases h2
  · cases h

theorem infested_sees (c : Nat) (i : Int) (h : i ∈ (handedTo (grun demoSetup infested) c).map code) :
    ∃ l calls m, (grun demoSetup infested).links c = some l ∧ l.client = .session calls ∧ Sees l.config.format calls m ∧ code m = i := by
  obtain ⟨m, h1, h2⟩ := List.mem_map.1 h
  obtain ⟨l, calls, h3, h4, h5⟩ := sees_of_handed h1
  exact ⟨l, calls, m, h3, h4, h5, h2⟩

/-- The EVENT: it is a member's PUBLISH. -/
example : ∃ e : Event, ∃ p, e.args = seenArgs p.args p.kwargs ∧ ∃ c', .act (.send c' (.publish p)) ∈ infested := by
  obtain ⟨l, calls, m, h1, h2, h3, h4⟩ := infested_sees 0 36 (by rw [infested_handed.1]; decide)
  cases m <;> cases h4
  rename_i e
  obtain ⟨c', p, -, h5, h6, -⟩ := C125_event demoFmt demoSetup rfl (· == 2) infested infested_strangers busy_consistent busy_short busy_sends
    (by decide) 0 l calls rfl h1 h2 e h3
  exact ⟨e, p, h6, c', h5⟩

/-- The INVOCATION: it is a member's CALL. -/
example : ∃ i : Invocation, ∃ m, i.args = seenArgs m.args m.kwargs ∧ ∃ c', .act (.send c' (.call m)) ∈ infested := by
  obtain ⟨l, calls, m, h1, h2, h3, h4⟩ := infested_sees 0 68 (by rw [infested_handed.1]; decide)
  cases m <;> cases h4
  rename_i i
  obtain ⟨c', p, -, h5, h6, -⟩ := C125_invocation demoFmt demoSetup rfl (· == 2) infested infested_strangers busy_consistent busy_short busy_sends
    (by decide) 0 l calls rfl h1 h2 i h3
  exact ⟨i, p, h6, c', h5⟩

/-- The RESULT: it is a member's YIELD. -/
example : ∃ x : Result, ∃ y, x.args = seenArgs y.args y.kwargs ∧ ∃ c', .act (.send c' (.yield_ y)) ∈ infested := by
  obtain ⟨l, calls, m, h1, h2, h3, h4⟩ := infested_sees 1 50 (by rw [infested_handed.2]; decide)
  cases m <;> cases h4
  rename_i x
  obtain ⟨⟨c', y, -, h5, h6, -⟩, -⟩ := C125_result demoFmt demoSetup rfl (· == 2) infested infested_strangers busy_consistent busy_short busy_sends
    busy_good.2 (by decide) 1 l calls rfl h1 h2 x h3
  exact ⟨x, y, h6, c', h5⟩

/-- The ERROR: there is no such procedure. -/
example : ∃ e : ErrorMsg, e.messageType.val = 48 ∧ e.uri = "wamp.error.no_such_procedure" := by
  have he : ∀ m ∈ handedTo (grun demoSetup infested) 1, (match m with | .error e => e.messageType.val == 48 | _ => true) = true := by
    decide +kernel
  have hm : (8 : Int) ∈ (handedTo (grun demoSetup infested) 1).map code := by rw [infested_handed.2]; decide
  obtain ⟨m, h1, h2⟩ := List.mem_map.1 hm
  cases m <;> cases h2
  rename_i e
  have ht := beq_iff_eq.1 (he _ h1)
  obtain ⟨l, calls, h3, h4, h5⟩ := sees_of_handed h1
  obtain ⟨h6 | h6, -⟩ := C125_error demoFmt demoSetup rfl (· == 2) infested infested_strangers busy_consistent busy_short busy_sends
    busy_good.2 (by decide) 1 l calls rfl h3 h4 e h5 ht
  · obtain ⟨c', x, h7, h8, -⟩ := h6
    have : ∀ a ∈ infested, (match a with | .act (.send _ (.error _)) => false | _ => true) = true := by decide
    cases this _ h8
  · exact ⟨e, ht, h6⟩

/-- The stream: the one EVENT is for the one PUBLISH. -/
example : ∃ l calls s, (grun demoSetup infested).links 0 = some l ∧ l.client = .session calls ∧
    (eventsSeen l.config.format calls).map (fun e => (e.subscriptionId.val, e.args, e.kwargs)) =
      (concerns s (grun demoSetup infested).broker).map (fun x => (x.1, x.2.args, x.2.kwargs)) ∧
    (concerns 11 (grun demoSetup infested).broker).length = 1 := by
  have hd : (match (grun demoSetup infested).links 0 with | some l => l.downHas.isEmpty && l.down.isEmpty | none => false) = true := by
    decide +kernel
  obtain ⟨l, calls, m, h1, h2, -, -⟩ := infested_sees 0 36 (by rw [infested_handed.1]; decide)
  rw [h1] at hd
  simp only [Bool.and_eq_true, List.isEmpty_iff] at hd
  obtain ⟨s, -, -, h3⟩ := C125_stream demoFmt demoSetup rfl (· == 2) infested infested_strangers busy_consistent busy_short busy_sends
    busy_good.1 (by decide) 0 l calls rfl h1 h2
  exact ⟨l, calls, s, h1, h2, h3 hd.1 hd.2, by decide +kernel⟩

end Wamp.Spec.Stack
