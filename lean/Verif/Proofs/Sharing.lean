import Verif.Model.Sharing
import Verif.Proofs.Lists

/-! # What the operations on shared dict objects do to the store -/

namespace Wamp.Sharing
open Wamp

theorem set_set (d : PyDict) (k : String) (v w : Value) : PyDict.set (PyDict.set d k v) k w = PyDict.set d k w := by
  induction d with
  | nil => simp [PyDict.set]
  | cons kv rest ih =>
    obtain ⟨a, b⟩ := kv
    cases a <;> simp only [PyDict.set, ih]
    split <;> simp_all [PyDict.set]

theorem get?_set (d : PyDict) (k k' : String) (v : Value) :
    PyDict.get? (PyDict.set d k v) k' = if k = k' then some v else PyDict.get? d k' := by
  induction d with
  | nil => simp [PyDict.set, PyDict.get?]
  | cons kv rest ih =>
    obtain ⟨a, b⟩ := kv
    cases a <;> simp only [PyDict.set, PyDict.get?, ih]
    rename_i s
    by_cases h : s = k
    · subst h; simp [PyDict.get?]; split <;> simp_all
    · rw [if_neg h]
      simp only [PyDict.get?, ih]
      by_cases h' : k = k'
      · subst h'; rw [if_neg h]; simp
      · simp [h']

variable (cr : Crypto)

theorem after_snoc (ops : List Op) (op : Op) : after cr (ops ++ [op]) = step cr (after cr ops) op := by
  simp [after]

/-! ## Dicts keep their address, messages and clients stay -/

theorem deref_write (s : Store) (a b : Addr) (d : PyDict) (h : a < s.dicts.length) :
    (s.write a d).deref b = if a = b then d else s.deref b := by
  simp only [Store.write, Store.deref, List.getElem?_set]
  split <;> simp_all

theorem deref_alloc (s : Store) (d : PyDict) (b : Addr) (h : b < s.dicts.length) : (s.alloc d).1.deref b = s.deref b := by
  simp only [Store.alloc, Store.deref, List.getElem?_append_left h]

theorem deref_orNew (s : Store) (o : Option Addr) (b : Addr) (h : b < s.dicts.length) : (s.orNew o).1.deref b = s.deref b := by
  cases o with
  | none => exact deref_alloc s [] b h
  | some a => rfl

theorem orNew_length (s : Store) (o : Option Addr) : s.dicts.length ≤ (s.orNew o).1.dicts.length := by
  cases o <;> simp [Store.orNew, Store.alloc]
theorem orNew_msgs (s : Store) (o : Option Addr) : (s.orNew o).1.msgs = s.msgs := by cases o <;> rfl
theorem orNew_clients (s : Store) (o : Option Addr) : (s.orNew o).1.clients = s.clients := by cases o <;> rfl

theorem readOptions_length (s : Store) (m : Msg) : (s.readOptions m).1.dicts.length = s.dicts.length := by
  unfold Store.readOptions; split <;> simp [Store.write]
theorem readOptions_msgs (s : Store) (m : Msg) : (s.readOptions m).1.msgs = s.msgs := by
  unfold Store.readOptions; split <;> rfl
theorem readOptions_clients (s : Store) (m : Msg) : (s.readOptions m).1.clients = s.clients := by
  unfold Store.readOptions; split <;> rfl

/-- What a cryptosign client's constructor does, when the private key is accepted. -/
theorem newClient_cases (s : Store) (o : Option Addr) (k : String) :
    s.newClient cr o k = (s.orNew o).1 ∨
    ∃ seed, unhexlify k = .ok seed ∧ seed.length = 32 ∧
      s.newClient cr o k =
        { (if (PyDict.get? ((s.orNew o).1.deref (s.orNew o).2) "pubkey").isSome then (s.orNew o).1
           else (s.orNew o).1.write (s.orNew o).2
             (PyDict.set ((s.orNew o).1.deref (s.orNew o).2) "pubkey" (.str (hexlify (cr.publicKey seed))))) with
          clients := s.clients ++ [⟨(s.orNew o).2, seed⟩] } := by
  unfold Store.newClient
  simp only
  split
  · exact .inl rfl
  · rename_i seed hs
    split
    · exact .inl rfl
    · rename_i hl
      refine .inr ⟨seed, hs, by omega, ?_⟩
      congr 1
      rw [← orNew_clients s o]
      split <;> rfl

theorem step_msgs (s : Store) (op : Op) : ∃ l, (step cr s op).msgs = s.msgs ++ l := by
  cases op with
  | dict d => exact ⟨[], by simp [step, Store.alloc]⟩
  | msg o ser => exact ⟨[⟨(s.orNew o).2, ser⟩], by simp [step, Store.newMsg, orNew_msgs]⟩
  | read i =>
    refine ⟨[], ?_⟩
    simp only [step]
    split <;> simp [readOptions_msgs]
  | client o k =>
    refine ⟨[], ?_⟩
    simp only [step, List.append_nil]
    rcases newClient_cases cr s o k with h | ⟨seed, _, _, h⟩ <;> rw [h]
    · exact orNew_msgs s o
    · simp only
      split <;> simp [Store.write, orNew_msgs]

theorem step_clients (s : Store) (op : Op) : ∃ l, (step cr s op).clients = s.clients ++ l := by
  cases op with
  | dict d => exact ⟨[], by simp [step, Store.alloc]⟩
  | msg o ser => exact ⟨[], by simp [step, Store.newMsg, orNew_clients]⟩
  | read i =>
    refine ⟨[], ?_⟩
    simp only [step]
    split <;> simp [readOptions_clients]
  | client o k =>
    simp only [step]
    rcases newClient_cases cr s o k with h | ⟨seed, _, _, h⟩ <;> rw [h]
    · exact ⟨[], by simp [orNew_clients s o]⟩
    · exact ⟨_, rfl⟩

theorem step_length (s : Store) (op : Op) : s.dicts.length ≤ (step cr s op).dicts.length := by
  cases op with
  | dict d => simp [step, Store.alloc]
  | msg o ser => simpa [step, Store.newMsg] using orNew_length s o
  | read i =>
    simp only [step]
    split
    · exact Nat.le_of_eq (readOptions_length s _).symm
    · exact Nat.le_refl _
  | client o k =>
    simp only [step]
    rcases newClient_cases cr s o k with h | ⟨seed, _, _, h⟩ <;> rw [h]
    · exact orNew_length s o
    · simp only
      split <;> simp [Store.write, orNew_length s o]

/-- The `i`-th message stays the `i`-th message. -/
theorem msg_stays (s : Store) (op : Op) (i : Nat) (m : Msg) (h : s.msgs[i]? = some m) : (step cr s op).msgs[i]? = some m := by
  obtain ⟨l, hl⟩ := step_msgs cr s op
  rw [hl, List.getElem?_append_left (List.getElem?_eq_some_iff.1 h).1, h]
theorem client_stays (s : Store) (op : Op) (i : Nat) (c : Client) (h : s.clients[i]? = some c) :
    (step cr s op).clients[i]? = some c := by
  obtain ⟨l, hl⟩ := step_clients cr s op
  rw [hl, List.getElem?_append_left (List.getElem?_eq_some_iff.1 h).1, h]
theorem mem_msgs (s : Store) (op : Op) (m : Msg) (h : m ∈ s.msgs) : m ∈ (step cr s op).msgs := by
  obtain ⟨l, hl⟩ := step_msgs cr s op
  rw [hl]; exact List.mem_append_left _ h
theorem mem_clients (s : Store) (op : Op) (c : Client) (h : c ∈ s.clients) : c ∈ (step cr s op).clients := by
  obtain ⟨l, hl⟩ := step_clients cr s op
  rw [hl]; exact List.mem_append_left _ h

/-! ## Who can change a dict -/

/-- A dict that exists changes only when a message holding it is read, or a cryptosign client is built around it and it has
no `pubkey` entry. -/
theorem step_deref (s : Store) (op : Op) (a : Addr) (h : a < s.dicts.length) :
    (step cr s op).deref a = s.deref a ∨
    (∃ m n, m ∈ s.msgs ∧ m.options = a ∧ m.serializer = some n ∧
      (step cr s op).deref a = PyDict.set (s.deref a) "x_payload_serializer" (.int n)) ∨
    (∃ c : Client, c ∈ (step cr s op).clients ∧ c.authExtra = a ∧ PyDict.get? (s.deref a) "pubkey" = none ∧
      (step cr s op).deref a = PyDict.set (s.deref a) "pubkey" (.str (hexlify (cr.publicKey c.seed)))) := by
  cases op with
  | dict d => exact .inl (deref_alloc s d a h)
  | msg o ser => exact .inl (deref_orNew s o a h)
  | read i =>
    simp only [step]
    split
    · rename_i m hm
      unfold Store.readOptions
      split
      · exact .inl rfl
      · rename_i n hn
        by_cases ha : m.options = a
        · subst ha
          refine .inr (.inl ⟨m, n, List.mem_of_getElem? hm, rfl, hn, ?_⟩)
          simp [deref_write s _ _ _ h]
        · left
          simp only [Store.write, Store.deref]
          rw [List.getElem?_set_ne ha]
    · exact .inl rfl
  | client o k =>
    simp only [step]
    rcases newClient_cases cr s o k with e | ⟨seed, hk, hl, e⟩ <;> rw [e]
    · exact .inl (deref_orNew s o a h)
    · split
      · exact .inl (deref_orNew s o a h)
      · rename_i hp
        by_cases ha : (s.orNew o).2 = a
        · refine .inr (.inr ⟨⟨(s.orNew o).2, seed⟩, by simp, ha, ?_, ?_⟩)
          · rw [ha, deref_orNew s o a h] at hp
            cases hg : PyDict.get? (s.deref a) "pubkey" with
            | none => rfl
            | some v => rw [hg] at hp; simp at hp
          · have : a < (s.orNew o).1.dicts.length := Nat.lt_of_lt_of_le h (orNew_length s o)
            have hw := deref_write (s.orNew o).1 a a (PyDict.set (s.deref a) "pubkey" (.str (hexlify (cr.publicKey seed)))) this
            rw [if_pos rfl] at hw
            rw [ha, deref_orNew s o a h]
            exact hw
        · left
          have := deref_orNew s o a h
          rw [← this]
          simp only [Store.write, Store.deref]
          rw [List.getElem?_set_ne ha]

/-! ## Programs only pass dicts that exist -/

theorem Possible.init {ops : List Op} {op : Op} (h : Possible cr (ops ++ [op])) :
    Possible cr ops ∧ ∀ a, op.passes = some a → a < (after cr ops).dicts.length :=
  ⟨fun pre op' post e => h pre op' (post ++ [op]) (by rw [e]; simp), h ops op [] rfl⟩

theorem Possible.left {pre post : List Op} (h : Possible cr (pre ++ post)) : Possible cr pre :=
  fun p op q e => h p op (q ++ post) (by rw [e]; simp)

/-- Every holder's dict exists. -/
theorem held_lt {ops : List Op} (h : Possible cr ops) :
    (∀ m ∈ (after cr ops).msgs, m.options < (after cr ops).dicts.length) ∧
    (∀ c ∈ (after cr ops).clients, c.authExtra < (after cr ops).dicts.length) := by
  induction ops using snoc_induction with
  | nil => simp [after]
  | snoc ops op ih =>
    obtain ⟨h0, hp⟩ := Possible.init cr h
    obtain ⟨i1, i2⟩ := ih h0
    have hle := step_length cr (after cr ops) op
    rw [after_snoc]
    generalize after cr ops = s at *
    have j1 : ∀ m ∈ s.msgs, m.options < (step cr s op).dicts.length := fun m hm => Nat.lt_of_lt_of_le (i1 m hm) hle
    have j2 : ∀ c ∈ s.clients, c.authExtra < (step cr s op).dicts.length := fun c hc => Nat.lt_of_lt_of_le (i2 c hc) hle
    have hnew : ∀ o, op.passes = o → (s.orNew o).2 < (s.orNew o).1.dicts.length := by
      intro o e
      cases o with
      | none => simp [Store.orNew, Store.alloc]
      | some a => exact hp a e
    cases op with
    | dict d => exact ⟨j1, j2⟩
    | msg o ser =>
      refine ⟨?_, by simpa [step, Store.newMsg, orNew_clients] using j2⟩
      intro m hm
      simp only [step, Store.newMsg, orNew_msgs, List.mem_append, List.mem_singleton] at hm
      rcases hm with hm | rfl
      · exact j1 m hm
      · exact hnew o rfl
    | read i =>
      simp only [step] at j1 j2 ⊢
      split
      · rename_i m hm
        rw [hm] at j1 j2
        exact ⟨by rw [readOptions_msgs]; exact j1, by rw [readOptions_clients]; exact j2⟩
      · exact ⟨i1, i2⟩
    | client o k =>
      simp only [step] at j1 j2 ⊢
      rcases newClient_cases cr s o k with e | ⟨seed, hk, hl, e⟩ <;> rw [e] at j1 j2 ⊢
      · exact ⟨by rw [orNew_msgs]; exact j1, by rw [orNew_clients]; exact j2⟩
      · refine ⟨?_, ?_⟩
        · intro m hm
          refine j1 m ?_
          rw [← orNew_msgs s o]
          revert hm
          simp only
          split <;> exact id
        · intro c hc
          simp only [List.mem_append, List.mem_singleton] at hc
          rcases hc with hc | rfl
          · exact j2 c hc
          · have := hnew o rfl
            simp only
            split <;> simpa [Store.write] using this

end Wamp.Sharing
