import Verif.Proofs.Sharing
import Verif.Props.Auth

/-!
# Dict objects held by more than one Python object, C83–C84

`after cr (pre ++ op :: post)` is the state of all objects after any operations `pre`, then `op`, then any operations `post`.
-/

namespace Wamp.Sharing
open Wamp

variable (cr : Crypto)

/-- The content of the dict passed to a constructor: a new empty one when none is passed. -/
def given (s : Store) : Option Addr → PyDict
  | none => []
  | some a => s.deref a

/-- A dict with the entry that announces a payload serializer, if there is one. -/
def announcing (d : PyDict) : Option Int → PyDict
  | none => d
  | some n => PyDict.set d "x_payload_serializer" (.int n)

/-! ## C83 -/

/-- Full statement: whatever happens later, a message answers with the options it was built with, plus its own payload
serializer.  This holds when the messages that hold the same dict object have the same payload serializer and no
cryptosign client holds it.  Without that it is false (`C83_false`). -/
theorem C83_options_partial (pre post : List Op) (o : Option Addr) (ser : Option Int) (m : Msg)
    (hp : Possible cr (pre ++ .msg o ser :: post))
    (hm : (after cr (pre ++ .msg o ser :: post)).msgs[(after cr pre).msgs.length]? = some m)
    (same : ∀ m' ∈ (after cr (pre ++ .msg o ser :: post)).msgs, m'.options = m.options → m'.serializer = ser)
    (noClient : ∀ c ∈ (after cr (pre ++ .msg o ser :: post)).clients, c.authExtra ≠ m.options) :
    answer (after cr (pre ++ .msg o ser :: post)) (after cr pre).msgs.length =
      some (announcing (given (after cr pre) o) ser) := by
  have ho : ∀ a, o = some a → a < (after cr pre).dicts.length := hp pre _ post rfl
  clear hp
  generalize hs : after cr pre = s at *
  -- the invariant
  suffices key : m = ⟨(s.orNew o).2, ser⟩ ∧ m.options < (after cr (pre ++ .msg o ser :: post)).dicts.length ∧
      ((after cr (pre ++ .msg o ser :: post)).deref m.options = given s o ∨
       ∃ n, ser = some n ∧ (after cr (pre ++ .msg o ser :: post)).deref m.options =
        PyDict.set (given s o) "x_payload_serializer" (.int n)) by
    obtain ⟨k1, k2, k3⟩ := key
    unfold answer
    rw [hm]
    have hser : m.serializer = ser := by rw [k1]
    generalize after cr (pre ++ .msg o ser :: post) = t at *
    cases hn : ser with
    | none =>
      rw [hn] at hser
      simp only [Option.map_some, Store.readOptions, hser]
      rcases k3 with k3 | ⟨n, h, _⟩
      · rw [k3]; rfl
      · rw [hn] at h; cases h
    | some n =>
      rw [hn] at hser
      simp only [Option.map_some, Store.readOptions, hser]
      rw [deref_write _ _ _ _ k2, if_pos rfl]
      rcases k3 with k3 | ⟨n', h, k3⟩
      · rw [k3]; rfl
      · rw [hn] at h; cases h
        rw [k3, set_set]; rfl
  induction post using snoc_induction with
  | nil =>
    have e : after cr (pre ++ [.msg o ser]) = s.newMsg o ser := by rw [after_snoc, hs]; rfl
    rw [e] at hm ⊢
    simp only [Store.newMsg, orNew_msgs, List.getElem?_concat_length, Option.some.injEq] at hm
    subst hm
    refine ⟨rfl, ?_, .inl ?_⟩
    · cases o with
      | none => simp [Store.newMsg, Store.orNew, Store.alloc]
      | some a => simpa [Store.newMsg, Store.orNew] using ho a rfl
    · cases o with
      | none => simp [Store.newMsg, Store.orNew, Store.alloc, Store.deref, given]
      | some a => rfl
  | snoc post op ih =>
    have e : pre ++ .msg o ser :: (post ++ [op]) = (pre ++ .msg o ser :: post) ++ [op] := by simp
    rw [e, after_snoc] at hm same noClient ⊢
    -- the message is already there
    have hm' : (after cr (pre ++ .msg o ser :: post)).msgs[s.msgs.length]? = some m := by
      have : ∃ m', (after cr (pre ++ .msg o ser :: post)).msgs[s.msgs.length]? = some m' := by
        clear ih hm same noClient e
        induction post using snoc_induction with
        | nil =>
          have e : after cr (pre ++ [.msg o ser]) = s.newMsg o ser := by rw [after_snoc, hs]; rfl
          rw [e]
          exact ⟨⟨(s.orNew o).2, ser⟩, by simp [Store.newMsg, orNew_msgs]⟩
        | snoc post op ih =>
          obtain ⟨m', h⟩ := ih
          have e : pre ++ .msg o ser :: (post ++ [op]) = (pre ++ .msg o ser :: post) ++ [op] := by simp
          rw [e, after_snoc]
          exact ⟨m', msg_stays cr _ _ _ _ h⟩
      obtain ⟨m', h⟩ := this
      rw [h, ← hm, msg_stays cr _ op _ _ h]
    obtain ⟨k1, k2, k3⟩ := ih (hm := hm') (same := fun m' h => same m' (mem_msgs cr _ _ _ h)) (noClient := fun c h => noClient c (mem_clients cr _ _ _ h))
    refine ⟨k1, Nat.lt_of_lt_of_le k2 (step_length cr _ _), ?_⟩
    rcases step_deref cr _ op m.options k2 with d | ⟨m', n, h1, h2, h3, d⟩ | ⟨c, h1, h2, _⟩
    · rw [d]; exact k3
    · have hser : ser = some n := by rw [← same m' (mem_msgs cr _ _ _ h1) h2, h3]
      refine .inr ⟨n, hser, ?_⟩
      rw [d]
      rcases k3 with k3 | ⟨n', h, k3⟩
      · rw [k3]
      · rw [k3, set_set]
    · exact absurd h2 (noClient c h1)

/-- So in that case the messages of the rest of the model, which hold their options by value, answer the same. -/
theorem C83_messages_by_value_partial (pre post : List Op) (o : Option Addr) (ser : Option Int) (m : Msg)
    (hp : Possible cr (pre ++ .msg o ser :: post))
    (hm : (after cr (pre ++ .msg o ser :: post)).msgs[(after cr pre).msgs.length]? = some m)
    (same : ∀ m' ∈ (after cr (pre ++ .msg o ser :: post)).msgs, m'.options = m.options → m'.serializer = ser)
    (noClient : ∀ c ∈ (after cr (pre ++ .msg o ser :: post)).clients, c.authExtra ≠ m.options)
    (call : Call) (inv : Invocation) (y : Yield) (res : Result)
    (h1 : call.options_ = given (after cr pre) o ∧ call.serializer = ser)
    (h2 : inv.details_ = given (after cr pre) o ∧ inv.serializer = ser)
    (h3 : y.options_ = given (after cr pre) o ∧ y.serializer = ser)
    (h4 : res.details_ = given (after cr pre) o ∧ res.serializer = ser) :
    answer (after cr (pre ++ .msg o ser :: post)) (after cr pre).msgs.length = some call.options ∧
    answer (after cr (pre ++ .msg o ser :: post)) (after cr pre).msgs.length = some inv.details ∧
    answer (after cr (pre ++ .msg o ser :: post)) (after cr pre).msgs.length = some y.options ∧
    answer (after cr (pre ++ .msg o ser :: post)) (after cr pre).msgs.length = some res.details := by
  rw [C83_options_partial cr pre post o ser m hp hm same noClient]
  simp only [Call.options, Invocation.details, Yield.options, Result.details, withSerializer, announcing, h1.1, h1.2, h2.1, h2.2, h3.1,
    h3.2, h4.1, h4.2]
  cases ser <;> simp

/-- A message built without options has its own dict: as long as no later object is given that dict, nothing changes what it
answers. -/
theorem C83_own_dict (pre post : List Op) (ser : Option Int) (hp : Possible cr (pre ++ .msg none ser :: post))
    (fresh : ∀ op ∈ post, op.passes ≠ some (after cr pre).dicts.length) :
    answer (after cr (pre ++ .msg none ser :: post)) (after cr pre).msgs.length = some (announcing [] ser) := by
  have hlt := held_lt cr (Possible.left cr hp)
  have inv : ∀ post, (∀ op ∈ post, op.passes ≠ some (after cr pre).dicts.length) →
      (after cr (pre ++ .msg none ser :: post)).msgs[(after cr pre).msgs.length]? = some ⟨(after cr pre).dicts.length, ser⟩ ∧
      (after cr pre).dicts.length < (after cr (pre ++ .msg none ser :: post)).dicts.length ∧
      (∀ m' ∈ (after cr (pre ++ .msg none ser :: post)).msgs, m'.options = (after cr pre).dicts.length → m'.serializer = ser) ∧
      (∀ c ∈ (after cr (pre ++ .msg none ser :: post)).clients, c.authExtra ≠ (after cr pre).dicts.length) := by
    intro post
    generalize hs : after cr pre = s at *
    induction post using snoc_induction with
    | nil =>
      intro _
      have e : after cr (pre ++ [.msg none ser]) = s.newMsg none ser := by rw [after_snoc, hs]; rfl
      rw [e]
      refine ⟨by simp [Store.newMsg, Store.orNew, Store.alloc], by simp [Store.newMsg, Store.orNew, Store.alloc], ?_, ?_⟩
      · intro m' h ho
        simp only [Store.newMsg, Store.orNew, Store.alloc, List.mem_append, List.mem_singleton] at h
        rcases h with h | rfl
        · exact absurd ho (Nat.ne_of_lt (hlt.1 m' h))
        · rfl
      · intro c h
        exact Nat.ne_of_lt (hlt.2 c (by simpa [Store.newMsg, Store.orNew, Store.alloc] using h))
    | snoc post op ih =>
      intro fresh
      have e : pre ++ .msg none ser :: (post ++ [op]) = (pre ++ .msg none ser :: post) ++ [op] := by simp
      rw [e, after_snoc]
      obtain ⟨i1, i2, i3, i4⟩ := ih fun op h => fresh op (by simp [h])
      have hf := fresh op (by simp)
      generalize after cr (pre ++ .msg none ser :: post) = t at *
      refine ⟨msg_stays cr _ _ _ _ i1, Nat.lt_of_lt_of_le i2 (step_length cr _ _), ?_, ?_⟩
      · intro m' h ho
        cases op with
        | dict d => exact i3 m' h ho
        | msg o ser' =>
          simp only [step, Store.newMsg, orNew_msgs, List.mem_append, List.mem_singleton] at h
          rcases h with h | rfl
          · exact i3 m' h ho
          · cases o with
            | none => exact absurd ho.symm (Nat.ne_of_lt i2)
            | some a => simp only [Store.orNew] at ho; simp [Op.passes, ho] at hf
        | read i =>
          simp only [step] at h
          split at h
          · rw [readOptions_msgs] at h; exact i3 m' h ho
          · exact i3 m' h ho
        | client o k =>
          simp only [step] at h
          refine i3 m' ?_ ho
          rcases newClient_cases cr t o k with e | ⟨seed, _, _, e⟩ <;> rw [e] at h
          · rwa [orNew_msgs] at h
          · rw [← orNew_msgs t o]
            revert h
            simp only
            split <;> exact id
      · intro c h
        cases op with
        | dict d => exact i4 c h
        | msg o ser' =>
          refine i4 c ?_
          simpa [step, Store.newMsg, orNew_clients] using h
        | read i =>
          simp only [step] at h
          split at h
          · rw [readOptions_clients] at h; exact i4 c h
          · exact i4 c h
        | client o k =>
          simp only [step] at h
          rcases newClient_cases cr t o k with e | ⟨seed, _, _, e⟩ <;> rw [e] at h
          · rw [orNew_clients] at h; exact i4 c h
          · simp only [List.mem_append, List.mem_singleton] at h
            rcases h with h | rfl
            · exact i4 c h
            · cases o with
              | none => exact Nat.ne_of_gt i2
              | some a => simp only [Store.orNew]; rintro rfl; exact hf rfl
  obtain ⟨i1, _, i3, i4⟩ := inv post fresh
  exact C83_options_partial cr pre post none ser _ hp i1 i3 i4

/-- Two calls share their options dict, one of them has a payload serializer.  As soon as that one is read or marshalled,
the other, which has ordinary arguments, announces a payload serializer too. -/
theorem C83_false :
    answer (after cr [.dict [], .msg (some 0) none, .msg (some 0) (some 1)]) 0 = some [] ∧
    answer (after cr [.dict [], .msg (some 0) none, .msg (some 0) (some 1), .read 1]) 0 =
      some [(.str "x_payload_serializer", .int 1)] := by
  constructor <;> rfl

/-- Two calls share their options dict and have different payload serializers: each reading changes what the other's
marshalled list contains. -/
theorem C83_false_serializers (a b : Int) :
    answer (after cr [.dict [], .msg (some 0) (some a), .msg (some 0) (some b), .read 0]) 0 =
      some [(.str "x_payload_serializer", .int a)] ∧
    (after cr [.dict [], .msg (some 0) (some a), .msg (some 0) (some b), .read 0, .read 1]).deref 0 =
      [(.str "x_payload_serializer", .int b)] := by
  constructor <;> rfl

/-! ## C84 -/

/-- Full statement: a cryptosign client announces the public key of its own private key.  What it announces, for ever, is the
`pubkey` entry the dict had at construction, and its own key if there was none. -/
theorem C84_announced_partial (pre post : List Op) (o : Option Addr) (k : String) (seed : Bytes)
    (hk : unhexlify k = .ok seed) (hl : seed.length = 32) (hp : Possible cr (pre ++ .client o k :: post)) :
    ∃ extra, announced (after cr (pre ++ .client o k :: post)) (after cr pre).clients.length = some extra ∧
      PyDict.get? extra "pubkey" =
        some ((PyDict.get? (given (after cr pre) o) "pubkey").getD (.str (hexlify (cr.publicKey seed)))) := by
  have ho : ∀ a, o = some a → a < (after cr pre).dicts.length := hp pre _ post rfl
  clear hp
  generalize hs : after cr pre = s at *
  suffices key : ∃ c, (after cr (pre ++ .client o k :: post)).clients[s.clients.length]? = some c ∧
      c.authExtra < (after cr (pre ++ .client o k :: post)).dicts.length ∧
      PyDict.get? ((after cr (pre ++ .client o k :: post)).deref c.authExtra) "pubkey" =
        some ((PyDict.get? (given s o) "pubkey").getD (.str (hexlify (cr.publicKey seed)))) by
    obtain ⟨c, h1, _, h2⟩ := key
    exact ⟨_, by unfold announced; rw [h1]; rfl, h2⟩
  induction post using snoc_induction with
  | nil =>
    have e : after cr (pre ++ [.client o k]) = s.newClient cr o k := by rw [after_snoc, hs]; rfl
    rw [e]
    have hd : (s.orNew o).1.deref (s.orNew o).2 = given s o := by
      cases o with
      | none => simp [Store.orNew, Store.alloc, Store.deref, given]
      | some a => rfl
    have hlt : (s.orNew o).2 < (s.orNew o).1.dicts.length := by
      cases o with
      | none => simp [Store.orNew, Store.alloc]
      | some a => exact ho a rfl
    have hnew : s.newClient cr o k =
        { (if (PyDict.get? (given s o) "pubkey").isSome then (s.orNew o).1
           else (s.orNew o).1.write (s.orNew o).2 (PyDict.set (given s o) "pubkey" (.str (hexlify (cr.publicKey seed))))) with
          clients := s.clients ++ [⟨(s.orNew o).2, seed⟩] } := by
      unfold Store.newClient
      simp only [hk, hl, ne_eq, not_true_eq_false, if_false, hd]
      rw [← orNew_clients s o]
      split <;> rfl
    rw [hnew]
    refine ⟨⟨(s.orNew o).2, seed⟩, by simp, ?_, ?_⟩
    · simp only; split <;> simpa [Store.write] using hlt
    · cases hg : PyDict.get? (given s o) "pubkey" with
      | some v =>
        have h2 := congrArg (fun d => PyDict.get? d "pubkey") hd
        simp only [hg] at h2
        exact h2
      | none =>
        have := deref_write (s.orNew o).1 (s.orNew o).2 (s.orNew o).2
          (PyDict.set (given s o) "pubkey" (.str (hexlify (cr.publicKey seed)))) hlt
        rw [if_pos rfl] at this
        have h2 := congrArg (fun d => PyDict.get? d "pubkey") this
        simp only [get?_set, if_true] at h2
        exact h2
  | snoc post op ih =>
    have e : pre ++ .client o k :: (post ++ [op]) = (pre ++ .client o k :: post) ++ [op] := by simp
    rw [e, after_snoc]
    obtain ⟨c, i1, i2, i3⟩ := ih
    refine ⟨c, client_stays cr _ _ _ _ i1, Nat.lt_of_lt_of_le i2 (step_length cr _ _), ?_⟩
    rcases step_deref cr _ op c.authExtra i2 with d | ⟨m', n, h1, h2, h3, d⟩ | ⟨c', h1, h2, hn, d⟩
    · rw [d]; exact i3
    · rw [d, get?_set, if_neg (by decide)]; exact i3
    · rw [hn] at i3; cases i3

/-- A client whose dict has no `pubkey` entry at construction announces its own key for ever, in the text
`generate_cryptosign_keypair` gives. -/
theorem C84_own_key (pre post : List Op) (o : Option Addr) (seed : Bytes) (hl : seed.length = 32)
    (hp : Possible cr (pre ++ .client o (generateCryptosignKeypair cr seed).2 :: post))
    (hd : PyDict.get? (given (after cr pre) o) "pubkey" = none) :
    ∃ extra, announced (after cr (pre ++ .client o (generateCryptosignKeypair cr seed).2 :: post)) (after cr pre).clients.length = some extra ∧
      PyDict.get? extra "pubkey" = some (.str (generateCryptosignKeypair cr seed).1) := by
  obtain ⟨extra, h1, h2⟩ := C84_announced_partial cr pre post o (generateCryptosignKeypair cr seed).2 seed (unhexlify_hexlify _) hl hp
  exact ⟨extra, h1, by rw [h2, hd]; rfl⟩

/-- Two clients built around the same dict object, which had no `pubkey` entry: both announce the key of the first. -/
theorem C84_false (seed seed' : Bytes) (hl : seed.length = 32) (hl' : seed'.length = 32) (d : PyDict)
    (hd : PyDict.get? d "pubkey" = none) :
    ∃ extra, announced (after cr [.dict d, .client (some 0) (hexlify seed), .client (some 0) (hexlify seed')]) 1 = some extra ∧
      PyDict.get? extra "pubkey" = some (.str (hexlify (cr.publicKey seed))) := by
  refine ⟨PyDict.set d "pubkey" (.str (hexlify (cr.publicKey seed))), ?_, by rw [get?_set, if_pos rfl]⟩
  simp [after, step, Store.alloc, Store.newClient, Store.orNew, unhexlify_hexlify, hl, hl', Store.deref, hd, Store.write, get?_set,
    announced]

/-! ## The hypotheses can be met -/

theorem possible_of_check (cr : Crypto) (ops : List Op)
    (h : ∀ i, i < ops.length → ∀ a, (ops[i]?.bind Op.passes) = some a → a < (after cr (ops.take i)).dicts.length) : Possible cr ops := by
  intro pre op post e a ha
  have := h pre.length (by rw [e]; simp) a (by rw [e]; simpa using ha)
  rwa [e, List.take_left] at this

/-- A first call with a payload serializer has been read; then a call without options is made, and more follows. -/
example : Possible toyCrypto ([.dict [], .msg (some 0) (some 1), .read 0] ++ .msg none none :: [.msg (some 0) (some 1), .read 2]) ∧
    (∀ op ∈ [Op.msg (some 0) (some 1), Op.read 2],
      op.passes ≠ some (after toyCrypto [.dict [], .msg (some 0) (some 1), .read 0]).dicts.length) := by
  refine ⟨possible_of_check _ _ ?_, by decide⟩
  intro i hi a ha
  simp only [List.cons_append, List.nil_append, List.length_cons, List.length_nil] at hi
  have : i = 0 ∨ i = 1 ∨ i = 2 ∨ i = 3 ∨ i = 4 ∨ i = 5 := by omega
  rcases this with rfl | rfl | rfl | rfl | rfl | rfl <;> simp [Op.passes] at ha <;> subst ha <;> decide

/-- A client around a dict that a call also uses. -/
example : Possible toyCrypto ([.dict [(.str "x", .int 1)], .msg (some 0) (some 1)] ++
      .client (some 0) (hexlify (List.replicate 32 7)) :: [.read 0]) ∧
    unhexlify (hexlify (List.replicate 32 7)) = .ok (List.replicate 32 7) ∧ (List.replicate 32 (7 : UInt8)).length = 32 ∧
    PyDict.get? (given (after toyCrypto [.dict [(.str "x", .int 1)], .msg (some 0) (some 1)]) (some 0)) "pubkey" = none := by
  refine ⟨possible_of_check _ _ ?_, unhexlify_hexlify _, by decide, by decide⟩
  intro i hi a ha
  simp only [List.cons_append, List.nil_append, List.length_cons, List.length_nil] at hi
  have : i = 0 ∨ i = 1 ∨ i = 2 ∨ i = 3 := by omega
  rcases this with rfl | rfl | rfl | rfl <;> simp [Op.passes] at ha <;> subst ha <;> decide

end Wamp.Sharing
