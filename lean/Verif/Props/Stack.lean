import Verif.Proofs.Stack
import Verif.Props.Formats

/-! # C120: the whole stack does what the network of sessions does -/

namespace Wamp.Spec.Stack
open RawSocket Net Ses

/-- From the first byte of every connection on, whatever pieces the bytes arrive in, whoever logs in how, and whatever happens in
which order: the broker and the dealer are called as in the network of sessions, and every client that has been let in has made the
same calls on its session, with the same data on its way in both directions.  No client takes itself to be in that is not. -/
theorem C120_stack (fmt : Int → Format) (r : Setup) (sched : List SAct) (hc : Consistent fmt sched)
    (hn : NothingTooLong fmt (sessions r sched)) : Matches (srun r sched) (brun (codecs fmt) (sessions r sched)) :=
  (sinv_run fmt r sched hc hn).matches

/-! ## What follows for a client -/

theorem wire_common (f : Format) : Net.Restores f.wire (Fits commonLimits) := fun v h => wire_restores f v (Fits.mono (common_le f) v h)

theorem acts_length (r : Setup) (n : Stack) (a : SAct) : (acts r n a).length ≤ 1 := by
  unfold acts
  repeat' split
  all_goals simp

theorem sessions_length (r : Setup) (sched : List SAct) : (sessions r sched).length ≤ sched.length := by
  induction sched using snoc_induction with
  | nil => simp [sessions]
  | snoc l a ih =>
    rw [sessions_snoc, List.length_append, List.length_append]
    have := acts_length r (srun r l) a
    simp only [List.length_singleton]
    omega

theorem acts_send {r : Setup} {n : Stack} {a : SAct} {s : Int} {m : Message} (h : .send s m ∈ acts r n a) : ∃ c, a = .send c m := by
  unfold acts at h
  repeat' split at h
  all_goals simp only [List.mem_singleton, List.not_mem_nil, reduceCtorEq, Act.send.injEq] at h
  exact ⟨_, by rw [h.2]⟩

theorem sessions_send {r : Setup} {sched : List SAct} {s : Int} {m : Message} (h : .send s m ∈ sessions r sched) :
    ∃ c, .send c m ∈ sched := by
  induction sched using snoc_induction with
  | nil => simp [sessions] at h
  | snoc l a ih =>
    rw [sessions_snoc, List.mem_append] at h
    rcases h with h | h
    · obtain ⟨c, hc⟩ := ih h
      exact ⟨c, List.mem_append_left _ hc⟩
    · obtain ⟨c, rfl⟩ := acts_send h
      exact ⟨c, by simp⟩

/-- Every message applications ask to send is valid, and made of values all three serializers can carry. -/
def SendsCommon (sched : List SAct) : Prop := ∀ c m, .send c m ∈ sched → Valid m ∧ Fits commonLimits (.list m.marshal)

theorem sends_data {r : Setup} {sched : List SAct} (h : SendsCommon sched) : SendsData (Fits commonLimits) (sessions r sched) := by
  intro s m hm
  obtain ⟨c, hc⟩ := sessions_send hm
  exact h c m hc

/-- The client of the network of sessions that belongs to a client that has been let in -/
theorem session_partner {fmt : Int → Format} {r : Setup} {sched : List SAct} (hc : Consistent fmt sched)
    (hn : NothingTooLong fmt (sessions r sched)) {c : Nat} {l : Link} {calls : List (WAMPSession.Op Bytes)}
    (hl : (srun r sched).links c = some l) (hcl : l.client = .session calls) :
    ∃ s k, l.router = .attached l.config.format s ∧ fmt s = l.config.format ∧ (brun (codecs fmt) (sessions r sched)).conns s = some k ∧
      k.calls = calls ∧ l.downHas ++ l.down = stream k.down := by
  have hok := (sinv_run fmt r sched hc hn).ok c l hl
  rw [Ok, hcl] at hok
  cases hr : l.router with
  | attached f s =>
    rw [hr] at hok
    obtain ⟨h1, h2, k, h3, h4, -, h6⟩ := hok
    exact ⟨s, k, by rw [h1], by rw [h2, h1], h3, h4, h6⟩
  | _ => rw [hr] at hok; exact hok.elim

/-- When a client that has been let in has a whole frame, its session accepts it: `receive` returns the message the frame carries. -/
theorem C120_client_reads (fmt : Int → Format) (r : Setup) (sched : List SAct) (hc : Consistent fmt sched)
    (hn : NothingTooLong fmt (sessions r sched)) (hs : SendsCommon sched) (hl : sched.length ≤ 2 ^ 53)
    (hf : FreshRequestsB (codecs fmt) pubSub (sessions r sched)) (hg : GoodClientsB (codecs fmt) (sessions r sched))
    (c : Nat) (l : Link) (calls : List (WAMPSession.Op Bytes)) (hlink : (srun r sched).links c = some l) (hcl : l.client = .session calls)
    (x : Frame) (rest : Bytes) (hx : readOne l.downHas = some (x, rest)) :
    ∃ m, l.config.format.wire.deserialize x.payload = .ok m ∧
      WAMPSession.outcome l.config.format.wire calls (.receive x.payload) = .ok (.msg m) := by
  obtain ⟨s, k, -, h2, h3, h4, h5⟩ := session_partner hc hn hlink hcl
  obtain ⟨ds, h6, -⟩ := read_first h5 (fun w hw => hn _ (List.prefix_refl _) s k h3 w (List.mem_append_right _ hw)) hx
  have := C81_client_never_rejects common_dataSet (fun s => wire_common (fmt s)) (sessions r sched) (sends_data hs)
    (Nat.le_trans (sessions_length r sched) hl) hf hg s k h3 x.payload ds h6
  simp only [h2, h4] at this
  exact this

/-- When a client that has been let in has used every byte that was sent to it, it has the subscriptions and the registrations that
the broker and the dealer let it have. -/
theorem C120_agreement (fmt : Int → Format) (r : Setup) (sched : List SAct) (hc : Consistent fmt sched)
    (hn : NothingTooLong fmt (sessions r sched)) (hs : SendsCommon sched) (hl : sched.length ≤ 2 ^ 53)
    (hf : FreshRequestsB (codecs fmt) pubSub (sessions r sched)) (hg : GoodClientsB (codecs fmt) (sessions r sched))
    (c : Nat) (l : Link) (calls : List (WAMPSession.Op Bytes)) (hlink : (srun r sched).links c = some l) (hcl : l.client = .session calls)
    (hd : l.downHas = []) (hd' : l.down = []) :
    ∃ s, l.router = .attached l.config.format s ∧ ∀ i,
      (Granted l.config.format.wire (WAMPSession.trace l.config.format.wire calls) .subscribe i ↔
        ∃ t, (⟨s, t, i⟩ : Pub.Holding) ∈ (Pub.view (Broker.trace (srun r sched).broker)).held) ∧
      (Granted l.config.format.wire (WAMPSession.trace l.config.format.wire calls) .register i ↔
        ∃ p, (⟨s, p, i⟩ : Rpc.Reg) ∈ (Rpc.view (Dealer.trace (srun r sched).dealer)).held) := by
  obtain ⟨s, k, h1, h2, h3, h4, h5⟩ := session_partner hc hn hlink hcl
  refine ⟨s, h1, fun i => ?_⟩
  rw [hd, hd'] at h5
  have h6 := stream_nil (fun w hw => hn _ (List.prefix_refl _) s k h3 w (List.mem_append_right _ hw)) h5.symm
  have := C81_agreement (cs := codecs fmt) common_dataSet (fun s => wire_common (fmt s)) (sessions r sched) (sends_data hs)
    (Nat.le_trans (sessions_length r sched) hl) hf hg s k h3 h6 i
  have hm := C120_stack fmt r sched hc hn
  rw [← hm.broker, ← hm.dealer] at this
  simp only [codecs, h2, h4] at this
  exact this

/-- When the router has a whole frame from a client it has let in, it reads from it a message some application asked to send. -/
theorem C120_router_reads (fmt : Int → Format) (r : Setup) (sched : List SAct) (hc : Consistent fmt sched)
    (hn : NothingTooLong fmt (sessions r sched)) (hs : SendsCommon sched) (hl : sched.length ≤ 2 ^ 53)
    (c : Nat) (l : Link) (f : Format) (s : Int) (hlink : (srun r sched).links c = some l) (hr : l.router = .attached f s)
    (x : Frame) (rest : Bytes) (hx : readOne l.upHas = some (x, rest)) :
    ∃ c' m, .send c' m ∈ sched ∧ f.wire.deserialize x.payload = .ok (received m) := by
  have hok := (sinv_run fmt r sched hc hn).ok c l hlink
  rw [Ok, hr] at hok
  obtain ⟨-, h2, k, h3, h4⟩ := hok.in_
  obtain ⟨us, h6, -⟩ := read_first h4 (fun w hw => hn _ (List.prefix_refl _) s k h3 w (List.mem_append_left _ hw)) hx
  obtain ⟨m, h7, h8⟩ := C81_router_reads common_dataSet (fun s => wire_common (fmt s)) (sessions r sched) (sends_data hs)
    (Nat.le_trans (sessions_length r sched) hl) s k h3 x.payload us h6
  obtain ⟨c', h9⟩ := sessions_send h7
  exact ⟨c', m, h9, by rw [← h2]; exact h8⟩

/-! ## The hypotheses can be met -/

theorem brun_absent {W : Type} (cs : Int → Codec W) (s : Int) (sched : List Act) :
    (∀ d, .join d ∈ sched → d.sessionId.val ≠ s) → (brun cs sched).conns s = none := by
  induction sched using snoc_induction with
  | nil => intro _; rfl
  | snoc l a ih =>
    intro h
    have h0 := ih (fun d hd => h d (List.mem_append_left _ hd))
    rw [brun_snoc]
    have hset : ∀ (n : BNet W) s' k, n.conns s = none → s' ≠ s → (n.setConn s' k).conns s = none := by
      intro n s' k hn hne
      simp only [BNet.setConn]
      rw [if_neg (fun e => hne e.symm)]
      exact hn
    have hpush : ∀ (n : BNet W) out, n.conns s = none → (n.push cs out).conns s = none := by
      intro n out hn
      simp [BNet.push, hn]
    generalize brun cs l = n at h0 ⊢
    have hne : ∀ s' k, n.conns s' = some k → s' ≠ s := by
      rintro s' k hk rfl
      rw [h0] at hk; cases hk
    cases a with
    | join d =>
      simp only [BNet.step]
      split
      · exact hset _ _ _ h0 (h d (by simp))
      · exact h0
    | leave s' =>
      simp only [BNet.step, BNet.setConn]
      split
      · rfl
      · exact h0
    | send s' m =>
      simp only [BNet.step]
      split
      · exact h0
      · rename_i k hk
        exact hset _ _ _ h0 (hne s' k hk)
    | route s' =>
      simp only [BNet.step]
      split
      · exact h0
      · rename_i k hk
        split
        · exact h0
        · split
          · exact hset _ _ _ h0 (hne s' k hk)
          · unfold BNet.handle
            split
            · exact hpush _ _ (hset _ _ _ h0 (hne s' k hk))
            · exact hpush _ _ (hset _ _ _ h0 (hne s' k hk))
            · exact hset _ _ _ h0 (hne s' k hk)
    | deliver s' =>
      simp only [BNet.step]
      split
      · exact h0
      · rename_i k hk
        split
        · exact h0
        · exact hset _ _ _ h0 (hne s' k hk)

/-- The router lets everybody in. -/
def demoSetup : Setup := ⟨⟨fun _ _ => [], fun _ _ _ _ => .ok [], fun _ => [], fun _ _ => [], fun _ _ => none⟩, true, none, 1000⟩
def demoEnv : AuthEnv := ⟨fun _ => .ok (.plain "me" "user"), [], "", []⟩

/-- The handshake and the answer to HELLO, in pieces -/
def comeIn (c : Nat) : List SAct :=
  [.carryUp c 2, .carryUp c 5, .serve c demoEnv, .carryDown c 9, .hear c, .carryUp c 500, .serve c demoEnv, .carryDown c 500, .hear c]

/-- One client logs in with a ticket, and uses CBOR; the other is anonymous, and uses MessagePack.  The first subscribes, the second
publishes.  The EVENT has arrived. -/
def demo : List SAct :=
  [.connect 0 ⟨.cbor, 700, "realm1", ticketAuthenticator "joe" "pass" none, none⟩ (.int 11),
   .connect 1 ⟨.msgpack, 5000, "realm1", anonymousAuthenticator "" none, none⟩ (.int 12)] ++
  comeIn 0 ++ comeIn 1 ++ [.carryUp 0 3, .carryUp 0 500, .serve 0 demoEnv, .carryDown 0 500, .hear 0] ++
  [.send 0 (.subscribe ⟨.int 1, "a", []⟩), .send 1 (.publish ⟨.int 1, "a", some [.int 5], none, []⟩),
   .carryUp 1 4, .carryUp 0 100, .serve 0 demoEnv, .carryDown 0 6, .carryUp 1 100, .serve 1 demoEnv, .carryDown 0 100, .hear 0]

def demoFmt (s : Int) : Format := if s = 11 then .cbor else .msgpack

/-- As the network of sessions sees it -/
def demoActs : List Act :=
  [.join ⟨.int 12, "realm1", some "me", some "user"⟩, .join ⟨.int 11, "realm1", some "me", some "user"⟩,
   .send 11 (.subscribe ⟨.int 1, "a", []⟩), .send 12 (.publish ⟨.int 1, "a", some [.int 5], none, []⟩), .route 11, .route 12, .deliver 11]

deriving instance DecidableEq for Net.Act

theorem demo_acts : sessions demoSetup demo = demoActs := by decide +kernel

theorem demo_consistent : Consistent demoFmt demo := by
  intro c cfg sid h
  simp only [demo, comeIn, List.cons_append, List.nil_append, List.mem_cons, SAct.connect.injEq, reduceCtorEq,
    List.not_mem_nil, or_false] at h
  rcases h with ⟨-, rfl, rfl⟩ | ⟨-, rfl, rfl⟩ <;> decide

theorem demo_short : NothingTooLong demoFmt (sessions demoSetup demo) := by
  rw [demo_acts]
  have hall : ∀ i ∈ List.range 8, ∀ s ∈ [(11 : Int), 12], (match (brun (codecs demoFmt) (demoActs.take i)).conns s with
      | none => true
      | some k => (k.up ++ k.down).all (·.length < 100)) = true := by decide +kernel
  intro pre hp s k hk w hw
  have hpre : pre = demoActs.take pre.length := List.prefix_iff_eq_take.1 hp
  have hlen : pre.length < 8 := by have := hp.length_le; simp [demoActs] at this; omega
  by_cases hs : s = 11 ∨ s = 12
  · have := hall pre.length (List.mem_range.2 hlen) s (by simpa using hs)
    rw [← hpre, hk] at this
    have := List.all_eq_true.1 this w hw
    simp only [decide_eq_true_eq] at this
    omega
  · rw [brun_absent] at hk
    · cases hk
    · intro d hd e
      have := hp.subset hd
      simp only [demoActs, List.mem_cons, Act.join.injEq, reduceCtorEq, List.not_mem_nil, or_false] at this
      rcases this with rfl | rfl
      · exact hs (.inr e.symm)
      · exact hs (.inl e.symm)

theorem demo_sends : SendsCommon demo := by
  intro c m h
  simp only [demo, comeIn, List.cons_append, List.nil_append, List.mem_cons, SAct.send.injEq, reduceCtorEq,
    List.not_mem_nil, or_false, false_or] at h
  rcases h with ⟨-, rfl⟩ | ⟨-, rfl⟩
  all_goals
    refine ⟨by simp [Valid, IdOk, PyInt.val], ?_⟩
    simp [Message.marshal, payloadTail, PyInt.toValue, Fits, FitsList, FitsDict, commonLimits, Subscribe.TYPE, Publish.TYPE]
    try decide

theorem demo_good : FreshRequestsB (codecs demoFmt) pubSub (sessions demoSetup demo) ∧
    GoodClientsB (codecs demoFmt) (sessions demoSetup demo) := by
  have hf := fun K h => fresh_to_bytes common_dataSet (fun s => wire_common (demoFmt s)) (sessions demoSetup demo)
    (sends_data demo_sends) (by rw [demo_acts]; decide) K (fresh_of_freshB objects K ((sessions demoSetup demo).map arriving) h)
  rw [demo_acts] at *
  refine ⟨hf _ (by decide), hf _ (by decide), ?_, ?_, distinct_of_nodup (by decide)⟩
  · intro s m h
    simp [demoActs] at h
  · intro pre s m post e
    have : Act.send s (.error m) ∈ demoActs := by rw [e]; simp
    simp [demoActs] at this

/-- The first client has been let in, and it has a whole frame: the EVENT, which its session will accept. -/
example : ∃ l calls x rest m, (srun demoSetup demo).links 0 = some l ∧ l.client = .session calls ∧ calls.length = 2 ∧
    readOne l.downHas = some (x, rest) ∧ WAMPSession.outcome l.config.format.wire calls (.receive x.payload) = .ok (.msg m) := by
  have h : ∃ l calls x rest, (srun demoSetup demo).links 0 = some l ∧ l.client = .session calls ∧ calls.length = 2 ∧
      readOne l.downHas = some (x, rest) := by
    have : (match (srun demoSetup demo).links 0 with
      | none => false
      | some l => match l.client with
        | .session calls => decide (calls.length = 2 ∧ (readOne l.downHas).isSome = true)
        | _ => false) = true := by decide +kernel
    split at this
    · cases this
    · rename_i l hl
      split at this
      · rename_i calls hcl
        obtain ⟨h1, h2⟩ := of_decide_eq_true this
        obtain ⟨⟨x, rest⟩, h3⟩ := Option.isSome_iff_exists.1 h2
        exact ⟨l, calls, x, rest, hl, hcl, h1, h3⟩
      · cases this
  obtain ⟨l, calls, x, rest, h1, h2, h3, h4⟩ := h
  obtain ⟨m, -, h5⟩ := C120_client_reads demoFmt demoSetup demo demo_consistent demo_short demo_sends (by decide) demo_good.1 demo_good.2
    0 l calls h1 h2 x rest h4
  exact ⟨l, calls, x, rest, m, h1, h2, h3, h4, h5⟩

/-- The first client receives the EVENT; the second publishes again, and the router has the whole frame. -/
def demo' : List SAct := demo ++ [.hear 0, .send 1 (.publish ⟨.int 2, "a", none, none, []⟩), .carryUp 1 100]

def demoActs' : List Act := demoActs ++ [.deliver 11, .send 12 (.publish ⟨.int 2, "a", none, none, []⟩)]

theorem demo_acts' : sessions demoSetup demo' = demoActs' := by decide +kernel

theorem demo_consistent' : Consistent demoFmt demo' := by
  intro c cfg sid h
  rcases List.mem_append.1 h with h | h
  · exact demo_consistent c cfg sid h
  · simp at h

theorem demo_short' : NothingTooLong demoFmt (sessions demoSetup demo') := by
  rw [demo_acts']
  have hall : ∀ i ∈ List.range 10, ∀ s ∈ [(11 : Int), 12], (match (brun (codecs demoFmt) (demoActs'.take i)).conns s with
      | none => true
      | some k => (k.up ++ k.down).all (·.length < 100)) = true := by decide +kernel
  intro pre hp s k hk w hw
  have hpre : pre = demoActs'.take pre.length := List.prefix_iff_eq_take.1 hp
  have hlen : pre.length < 10 := by have := hp.length_le; simp [demoActs', demoActs] at this; omega
  by_cases hs : s = 11 ∨ s = 12
  · have := hall pre.length (List.mem_range.2 hlen) s (by simpa using hs)
    rw [← hpre, hk] at this
    have := List.all_eq_true.1 this w hw
    simp only [decide_eq_true_eq] at this
    omega
  · rw [brun_absent] at hk
    · cases hk
    · intro d hd e
      have := hp.subset hd
      simp only [demoActs', demoActs, List.cons_append, List.nil_append, List.mem_cons, Act.join.injEq, reduceCtorEq, List.not_mem_nil,
        or_false] at this
      rcases this with rfl | rfl
      · exact hs (.inr e.symm)
      · exact hs (.inl e.symm)

theorem demo_sends' : SendsCommon demo' := by
  intro c m h
  rcases List.mem_append.1 h with h | h
  · exact demo_sends c m h
  · simp only [List.mem_cons, SAct.send.injEq, reduceCtorEq, List.not_mem_nil, or_false, false_or] at h
    obtain ⟨-, rfl⟩ := h
    refine ⟨by simp [Valid, IdOk, PyInt.val], ?_⟩
    simp [Message.marshal, payloadTail, PyInt.toValue, Fits, FitsList, FitsDict, commonLimits, Publish.TYPE]
    try decide

theorem demo_good' : FreshRequestsB (codecs demoFmt) pubSub (sessions demoSetup demo') ∧
    GoodClientsB (codecs demoFmt) (sessions demoSetup demo') := by
  have hf := fun K h => fresh_to_bytes common_dataSet (fun s => wire_common (demoFmt s)) (sessions demoSetup demo')
    (sends_data demo_sends') (by rw [demo_acts']; decide) K (fresh_of_freshB objects K ((sessions demoSetup demo').map arriving) h)
  rw [demo_acts'] at *
  refine ⟨hf _ (by decide), hf _ (by decide), ?_, ?_, distinct_of_nodup (by decide)⟩
  · intro s m h
    simp [demoActs', demoActs] at h
  · intro pre s m post e
    have : Act.send s (.error m) ∈ demoActs' := by rw [e]; simp
    simp [demoActs', demoActs] at this

/-- Nothing is on its way to the first client, whose subscription the broker knows: so it has been granted. -/
example : ∃ l calls i, (srun demoSetup demo').links 0 = some l ∧ l.client = .session calls ∧
    (⟨11, "a", i⟩ : Pub.Holding) ∈ (Pub.view (Broker.trace (srun demoSetup demo').broker)).held ∧
    Granted l.config.format.wire (WAMPSession.trace l.config.format.wire calls) .subscribe i := by
  have h : ∃ l calls, (srun demoSetup demo').links 0 = some l ∧ l.client = .session calls ∧ l.downHas = [] ∧ l.down = [] ∧
      l.router = .attached l.config.format 11 := by
    have : (match (srun demoSetup demo').links 0 with
      | none => false
      | some l => match l.client, l.router with
        | .session _, .attached _ s => decide (l.downHas = [] ∧ l.down = [] ∧ s = 11)
        | _, _ => false) = true := by decide +kernel
    split at this
    · cases this
    · rename_i l hl
      split at this
      · rename_i calls f s hcl hr
        obtain ⟨h1, h2, rfl⟩ := of_decide_eq_true this
        obtain ⟨s', -, h3, -⟩ := session_partner demo_consistent' demo_short' hl hcl
        rw [hr] at h3
        cases h3
        exact ⟨l, calls, hl, hcl, h1, h2, hr⟩
      · cases this
  obtain ⟨l, calls, h1, h2, h3, h4, h5⟩ := h
  obtain ⟨s, h6, h7⟩ := C120_agreement demoFmt demoSetup demo' demo_consistent' demo_short' demo_sends' (by decide) demo_good'.1 demo_good'.2
    0 l calls h1 h2 h3 h4
  rw [h5] at h6
  cases h6
  have h8 : (⟨11, "a", 1⟩ : Pub.Holding) ∈ (Pub.view (Broker.trace (srun demoSetup demo').broker)).held := by decide +kernel
  exact ⟨l, calls, 1, h1, h2, h8, (h7 1).1.2 ⟨_, h8⟩⟩

/-- The router has a whole frame from the second client, and reads from it what was asked for. -/
example : ∃ l x rest c m, (srun demoSetup demo').links 1 = some l ∧ readOne l.upHas = some (x, rest) ∧ .send c m ∈ demo' ∧
    Format.msgpack.wire.deserialize x.payload = .ok (received m) := by
  have h : ∃ l x rest, (srun demoSetup demo').links 1 = some l ∧ l.router = .attached .msgpack 12 ∧ readOne l.upHas = some (x, rest) := by
    have : (match (srun demoSetup demo').links 1 with
      | none => false
      | some l => match l.router with
        | .attached .msgpack s => decide (s = 12 ∧ (readOne l.upHas).isSome = true)
        | _ => false) = true := by decide +kernel
    split at this
    · cases this
    · rename_i l hl
      split at this
      · rename_i s hr
        obtain ⟨rfl, h2⟩ := of_decide_eq_true this
        obtain ⟨⟨x, rest⟩, h3⟩ := Option.isSome_iff_exists.1 h2
        exact ⟨l, x, rest, hl, hr, h3⟩
      · cases this
  obtain ⟨l, x, rest, h1, h2, h3⟩ := h
  obtain ⟨c, m, h4, h5⟩ := C120_router_reads demoFmt demoSetup demo' demo_consistent' demo_short' demo_sends' (by decide) 1 l .msgpack 12 h1 h2
    x rest h3
  exact ⟨l, x, rest, c, m, h1, h3, h4, h5⟩

end Wamp.Spec.Stack
