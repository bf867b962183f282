import Verif.Props.Sharing

/-!
# What a message answers when its dict is shared, exactly: C83

Which entries later operations change, and to what.  The operations are those of `Model/Sharing.lean`.
-/

namespace Wamp.Sharing
open Wamp

variable (cr : Crypto)

/-- The payload serializer that an operation announces in the dict `a`: reading a message around it that has one. -/
def announces (a : Addr) (before : List Op) : Op → Option Int
  | .read i => match (after cr before).msgs[i]? with
    | some m => if m.options = a then m.serializer else none
    | none => none
  | _ => none

/-- The key of the cryptosign client that an operation builds around the dict `a`. -/
def bringsKey (a : Addr) : Op → Option String
  | .client (some b) k => match unhexlify k with
    | .ok seed => if b = a ∧ seed.length = 32 then some (hexlify (cr.publicKey seed)) else none
    | .error _ => none
  | _ => none

/-- The serializer announced last. -/
def lastAnnounced (a : Addr) : List Op → List Op → Option Int
  | _, [] => none
  | before, op :: post => (lastAnnounced a (before ++ [op]) post).or (announces cr a before op)

/-- The key brought first. -/
def firstKey (a : Addr) (post : List Op) : Option String := post.findSome? (bringsKey cr a)

theorem lastAnnounced_snoc (a : Addr) (before post : List Op) (op : Op) :
    lastAnnounced cr a before (post ++ [op]) = (announces cr a (before ++ post) op).or (lastAnnounced cr a before post) := by
  induction post generalizing before with
  | nil => simp [lastAnnounced]
  | cons x post ih =>
    simp only [List.cons_append, lastAnnounced, ih, List.append_assoc, List.nil_append, Option.or_assoc]

theorem firstKey_snoc (a : Addr) (post : List Op) (op : Op) :
    firstKey cr a (post ++ [op]) = (firstKey cr a post).or (bringsKey cr a op) := by
  simp only [firstKey, List.findSome?_append]
  simp [List.findSome?]
  cases bringsKey cr a op <;> rfl

/-- What one operation does to a dict, entry by entry. -/
theorem step_entries (before : List Op) (op : Op) (a : Addr) (h : a < (after cr before).dicts.length) :
    (∀ key, key ≠ "x_payload_serializer" → key ≠ "pubkey" →
      PyDict.get? ((step cr (after cr before) op).deref a) key = PyDict.get? ((after cr before).deref a) key) ∧
    PyDict.get? ((step cr (after cr before) op).deref a) "x_payload_serializer" =
      ((announces cr a before op).map .int).or (PyDict.get? ((after cr before).deref a) "x_payload_serializer") ∧
    PyDict.get? ((step cr (after cr before) op).deref a) "pubkey" =
      (PyDict.get? ((after cr before).deref a) "pubkey").or ((bringsKey cr a op).map .str) := by
  have same : ∀ d : PyDict, announces cr a before op = none → bringsKey cr a op = none → d = (after cr before).deref a →
      (∀ key, key ≠ "x_payload_serializer" → key ≠ "pubkey" → PyDict.get? d key = PyDict.get? ((after cr before).deref a) key) ∧
      PyDict.get? d "x_payload_serializer" =
        ((announces cr a before op).map .int).or (PyDict.get? ((after cr before).deref a) "x_payload_serializer") ∧
      PyDict.get? d "pubkey" =
        (PyDict.get? ((after cr before).deref a) "pubkey").or ((bringsKey cr a op).map .str) := by
    rintro d h1 h2 rfl; rw [h1, h2]; simp
  cases op with
  | dict d => exact same _ rfl rfl (deref_alloc _ d a h)
  | msg o ser => exact same _ rfl rfl (deref_orNew _ o a h)
  | read i =>
    cases hm : (after cr before).msgs[i]? with
    | none => exact same _ (by simp [announces, hm]) rfl (by simp [step, hm])
    | some m =>
      by_cases ha : m.options = a
      · cases hn : m.serializer with
        | none => exact same _ (by simp [announces, hm, hn]) rfl (by simp [step, hm, Store.readOptions, hn])
        | some n =>
          have hd : (step cr (after cr before) (.read i)).deref a =
              PyDict.set ((after cr before).deref a) "x_payload_serializer" (.int n) := by
            simp [step, hm, Store.readOptions, hn, ha, deref_write _ _ _ _ h]
          rw [hd]
          refine ⟨fun key h1 _ => ?_, ?_, ?_⟩
          · rw [get?_set, if_neg (Ne.symm h1)]
          · rw [get?_set, if_pos rfl]; simp [announces, hm, ha, hn]
          · rw [get?_set, if_neg (by decide)]; simp [bringsKey]
      · refine same _ (by simp [announces, hm, ha]) rfl ?_
        simp only [step, hm, Store.readOptions]
        split
        · rfl
        · simp only [Store.write, Store.deref]
          rw [List.getElem?_set_ne ha]
  | client o k =>
    simp only [step]
    unfold Store.newClient
    cases hk : unhexlify k with
    | error e => exact same _ rfl (by cases o <;> simp [bringsKey, hk]) (by simpa using deref_orNew _ o a h)
    | ok seed =>
      by_cases hl : seed.length = 32
      · by_cases ha : o = some a
        · subst ha
          have hb : bringsKey cr a (.client (some a) k) = some (hexlify (cr.publicKey seed)) := by simp [bringsKey, hk, hl]
          rw [hb]
          have hd : (step cr (after cr before) (.client (some a) k)).deref a =
              if (PyDict.get? ((after cr before).deref a) "pubkey").isSome then (after cr before).deref a
              else PyDict.set ((after cr before).deref a) "pubkey" (.str (hexlify (cr.publicKey seed))) := by
            simp only [step, Store.newClient, Store.orNew, hk, hl, ne_eq, not_true_eq_false, if_false]
            have hw := deref_write (after cr before) a a
                (PyDict.set ((after cr before).deref a) "pubkey" (.str (hexlify (cr.publicKey seed)))) h
            rw [if_pos rfl] at hw
            have hb : ∀ (b : Bool) (s t : Store) (l : List Client), ({ (if b then s else t) with clients := l } : Store).deref a =
                if b then s.deref a else t.deref a := by intro b s t l; cases b <;> rfl
            refine (hb _ _ _ _).trans ?_
            rw [hw]
          have hn : (after cr before).newClient cr (some a) k = step cr (after cr before) (.client (some a) k) := rfl
          unfold Store.newClient at hn
          rw [hk] at hn
          rw [hn, hd]
          cases hg : PyDict.get? ((after cr before).deref a) "pubkey" with
          | some v => simp [announces, hg]
          | none =>
            simp only [Option.isSome_none, Bool.false_eq_true, if_false, get?_set]
            refine ⟨fun key _ h2 => if_neg (Ne.symm h2), ?_, by simp⟩
            rw [if_neg (by decide)]; simp [announces]
        · refine same _ rfl ?_ ?_
          · cases o with
            | none => simp [bringsKey]
            | some b => simp only [bringsKey, hk]; rw [if_neg]; rintro ⟨rfl, -⟩; exact ha rfl
          · have hne : ((after cr before).orNew o).2 ≠ a := by
              cases o with
              | none => simp only [Store.orNew, Store.alloc]; exact fun e => Nat.lt_irrefl _ (by rw [← e] at h; exact h)
              | some b => simp only [Store.orNew]; rintro rfl; exact ha rfl
            simp only [hl, ne_eq, not_true_eq_false, if_false]
            rw [← deref_orNew _ o a h]
            split
            · rfl
            · simp only [Store.write, Store.deref]
              rw [List.getElem?_set_ne hne]
      · refine same _ rfl (by cases o <;> simp [bringsKey, hk, hl]) ?_
        simp only [hl, ne_eq, not_false_eq_true, if_true]
        exact deref_orNew _ o a h

/-- What a message answers, exactly.  A message with a payload serializer always announces its own; one without announces
the serializer of the message around the same dict that was read last since, if one was.  Its `pubkey` entry is the one it
was built with, or else the key of the first cryptosign client built around the dict since.  All other entries are those it
was built with. -/
theorem C83_exact (pre post : List Op) (o : Option Addr) (ser : Option Int) (hp : Possible cr (pre ++ .msg o ser :: post)) :
    ∃ m d, (after cr (pre ++ .msg o ser :: post)).msgs[(after cr pre).msgs.length]? = some m ∧
      answer (after cr (pre ++ .msg o ser :: post)) (after cr pre).msgs.length = some d ∧
      (∀ key, key ≠ "x_payload_serializer" → key ≠ "pubkey" → PyDict.get? d key = PyDict.get? (given (after cr pre) o) key) ∧
      PyDict.get? d "x_payload_serializer" =
        ((ser.or (lastAnnounced cr m.options (pre ++ [.msg o ser]) post)).map .int).or
          (PyDict.get? (given (after cr pre) o) "x_payload_serializer") ∧
      PyDict.get? d "pubkey" =
        (PyDict.get? (given (after cr pre) o) "pubkey").or ((firstKey cr m.options post).map .str) := by
  have ho : ∀ a, o = some a → a < (after cr pre).dicts.length := hp pre _ post rfl
  have e0 : pre ++ .msg o ser :: post = (pre ++ [.msg o ser]) ++ post := by simp
  rw [e0]
  clear hp e0
  have key : ∀ post, ∃ m, (after cr ((pre ++ [.msg o ser]) ++ post)).msgs[(after cr pre).msgs.length]? = some m ∧ m.serializer = ser ∧
      m.options < (after cr ((pre ++ [.msg o ser]) ++ post)).dicts.length ∧
      (∀ key, key ≠ "x_payload_serializer" → key ≠ "pubkey" →
        PyDict.get? ((after cr ((pre ++ [.msg o ser]) ++ post)).deref m.options) key = PyDict.get? (given (after cr pre) o) key) ∧
      PyDict.get? ((after cr ((pre ++ [.msg o ser]) ++ post)).deref m.options) "x_payload_serializer" =
        ((lastAnnounced cr m.options (pre ++ [.msg o ser]) post).map .int).or
          (PyDict.get? (given (after cr pre) o) "x_payload_serializer") ∧
      PyDict.get? ((after cr ((pre ++ [.msg o ser]) ++ post)).deref m.options) "pubkey" =
        (PyDict.get? (given (after cr pre) o) "pubkey").or ((firstKey cr m.options post).map .str) := by
    intro post
    induction post using snoc_induction with
    | nil =>
      rw [List.append_nil, after_snoc]
      generalize after cr pre = s at *
      refine ⟨⟨(s.orNew o).2, ser⟩, by simp [step, Store.newMsg, orNew_msgs], rfl, ?_, ?_⟩
      · cases o with
        | none => simp [step, Store.newMsg, Store.orNew, Store.alloc]
        | some a => simpa [step, Store.newMsg, Store.orNew] using ho a rfl
      · have hd : (step cr s (.msg o ser)).deref (s.orNew o).2 = given s o := by
          cases o with
          | none => simp [step, Store.newMsg, Store.orNew, Store.alloc, Store.deref, given]
          | some a => rfl
        simp only [hd]
        exact ⟨fun _ _ _ => trivial, by simp [lastAnnounced], by simp [firstKey]⟩
    | snoc post op ih =>
      obtain ⟨m, h1, h2, h3, h4, h5, h6⟩ := ih
      obtain ⟨g1, g2, g3⟩ := step_entries cr _ op m.options h3
      rw [← List.append_assoc, after_snoc]
      refine ⟨m, msg_stays cr _ _ _ _ h1, h2, Nat.lt_of_lt_of_le h3 (step_length cr _ _), ?_, ?_, ?_⟩
      · intro key k1 k2; rw [g1 key k1 k2, h4 key k1 k2]
      · rw [g2, h5, lastAnnounced_snoc]
        cases announces cr m.options (pre ++ [.msg o ser] ++ post) op <;> simp
      · rw [g3, h6, firstKey_snoc]
        cases firstKey cr m.options post <;> simp
  obtain ⟨m, h1, h2, h3, h4, h5, h6⟩ := key post
  generalize after cr ((pre ++ [.msg o ser]) ++ post) = t at *
  unfold answer
  rw [h1]
  refine ⟨m, _, rfl, rfl, ?_⟩
  simp only [Store.readOptions, h2]
  cases ser with
  | none => simpa using ⟨h4, h5, h6⟩
  | some n =>
    simp only [deref_write _ _ _ _ h3, if_true]
    refine ⟨fun key k1 k2 => by rw [get?_set, if_neg (Ne.symm k1)]; exact h4 key k1 k2, by rw [get?_set, if_pos rfl]; simp, ?_⟩
    rw [get?_set, if_neg (by decide)]; exact h6

/-- A plain call around dict 0; two calls with serializers 1 and 2 around the same dict are read, 2 last; two clients are
built around it. -/
example :
    lastAnnounced toyCrypto 0 [.dict [], .msg (some 0) none]
      [.msg (some 0) (some 1), .msg (some 0) (some 2), .read 1, .read 2, .read 0] = some 2 ∧
    firstKey toyCrypto 0 [.read 0, .client none (hexlify (List.replicate 32 8)), .client (some 0) (hexlify (List.replicate 32 7)),
      .client (some 0) (hexlify (List.replicate 32 8))] = some (hexlify (toyCrypto.publicKey (List.replicate 32 7))) := by
  constructor
  · decide
  · simp only [firstKey, List.findSome?, bringsKey, unhexlify_hexlify]; decide

example : Possible toyCrypto ([.dict []] ++ .msg (some 0) none ::
    [.msg (some 0) (some 1), .msg (some 0) (some 2), .read 1, .read 2, .client (some 0) (hexlify (List.replicate 32 7))]) := by
  refine possible_of_check _ _ ?_
  intro i hi a ha
  simp only [List.cons_append, List.nil_append, List.length_cons, List.length_nil] at hi
  have : i = 0 ∨ i = 1 ∨ i = 2 ∨ i = 3 ∨ i = 4 ∨ i = 5 ∨ i = 6 := by omega
  rcases this with rfl | rfl | rfl | rfl | rfl | rfl | rfl <;> simp [Op.passes] at ha <;> subst ha <;> decide

end Wamp.Sharing
