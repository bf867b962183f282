import Verif.Proofs.ByteNet
import Verif.Props.Network
import Verif.Props.NetworkRpc

/-! # C81: the network on bytes is the network on messages -/

namespace Wamp.Spec.Net
open Wamp.Spec.Ses

variable {W : Type} {D : Value → Prop} {cs : Int → Codec W}

/-! ## C81 -/

/-- Whatever the clients' serializers, and whatever is done: the network on bytes does what the network on messages does
with the messages as their receivers see them.  The broker and the dealer are asked the same; the data on its way to
the router and to each client are those messages; and what each application sees of its session is the same. -/
theorem C81_bytes_refine_messages (hD : DataSet D) (hc : ∀ s, Restores (cs s) D) (sched : List Act) (hs : SendsData D sched)
    (hl : sched.length ≤ 2 ^ 53) : Refines cs (brun cs sched) (run objects (sched.map arriving)) := by
  have h := binv_run hD hc sched hs hl
  refine ⟨h.broker, h.dealer, fun s => ?_, fun s kb k h1 h2 => ?_⟩
  · have := h.conn s
    cases h1 : (brun cs sched).conns s <;> cases h2 : (run objects (sched.map arriving)).conns s <;> simp only [h1, h2, OptRel] at this <;>
      simp
  · have := h.conn s
    rw [h1, h2] at this
    exact this.cor

/-- A client on bytes and the corresponding one on messages. -/
theorem partner (hD : DataSet D) (hc : ∀ s, Restores (cs s) D) (sched : List Act) (hs : SendsData D sched)
    (hl : sched.length ≤ 2 ^ 53) (s : Int) :
    (∀ kb, (brun cs sched).conns s = some kb → ∃ k, (run objects (sched.map arriving)).conns s = some k ∧ ConnRel D (cs s) kb k) ∧
    (∀ k, (run objects (sched.map arriving)).conns s = some k → ∃ kb, (brun cs sched).conns s = some kb ∧ ConnRel D (cs s) kb k) := by
  have := (binv_run hD hc sched hs hl).conn s
  cases h1 : (brun cs sched).conns s <;> cases h2 : (run objects (sched.map arriving)).conns s <;> rw [h1, h2] at this
  · exact ⟨fun _ h => (by cases h), fun _ h => (by cases h)⟩
  · cases this
  · cases this
  · exact ⟨fun kb h => by cases h; exact ⟨_, rfl, this⟩, fun k h => by cases h; exact ⟨_, rfl, this⟩⟩

theorem arriving_send {a : Act} {s : Int} {m : Message} (h : arriving a = .send s m) : ∃ m', a = .send s m' ∧ m = received m' := by
  cases a <;> simp only [arriving, Act.send.injEq, reduceCtorEq] at h
  obtain ⟨rfl, rfl⟩ := h
  exact ⟨_, rfl, rfl⟩

theorem arriving_join {a : Act} {d : SessionDetails} (h : arriving a = .join d) : a = .join d := by
  cases a <;> simp only [arriving, Act.join.injEq, reduceCtorEq] at h
  rw [h]

theorem SendsData.prefix {sched pre post : List Act} {x : Act} (hs : SendsData D sched) (e : sched = pre ++ x :: post) :
    SendsData D pre := fun s m h => hs s m (by rw [e]; exact List.mem_append_left _ h)

theorem prefix_length {sched pre post : List Act} {x : Act} (hl : sched.length ≤ 2 ^ 53) (e : sched = pre ++ x :: post) :
    pre.length ≤ 2 ^ 53 := by
  rw [e, List.length_append] at hl; omega

/-- Fresh request ids, on messages. -/
theorem fresh_of_bytes (hD : DataSet D) (hc : ∀ s, Restores (cs s) D) (sched : List Act) (hs : SendsData D sched)
    (hl : sched.length ≤ 2 ^ 53) (K : Ses.Kind → Bool) (hf : FreshRequestsB cs K sched) :
    FreshRequests objects K (sched.map arriving) := by
  intro pre' s m' post' e k hk kd i hr hK
  obtain ⟨pre, r, e1, e2, e3⟩ := List.map_eq_append_iff.1 e
  obtain ⟨a, post, rfl, e4, e5⟩ := List.map_eq_cons_iff.1 e3
  obtain ⟨m, rfl, rfl⟩ := arriving_send e4
  subst e2
  obtain ⟨kb, hkb, hrel⟩ := (partner hD hc pre (hs.prefix e1) (prefix_length hl e1) s).2 k hk
  have := hf pre s m post e1 kb hkb kd i (by rw [← requestOf_received]; exact hr) hK
  rw [← WAMPSession.has_after] at this ⊢
  rw [← hrel.after]; exact this

/-- Good clients, on messages. -/
theorem good_of_bytes (hD : DataSet D) (hc : ∀ s, Restores (cs s) D) (sched : List Act) (hs : SendsData D sched)
    (hl : sched.length ≤ 2 ^ 53) (hg : GoodClientsB cs sched) : GoodClients objects (sched.map arriving) := by
  refine ⟨fresh_of_bytes hD hc sched hs hl _ hg.fresh, ?_, ?_, ?_⟩
  · intro s m h
    obtain ⟨a, h1, h2⟩ := List.mem_map.1 h
    obtain ⟨m', rfl, h3⟩ := arriving_send h2
    cases m' <;> cases h3
    rename_i m'
    exact hg.plain s m' h1
  · intro pre' s m' post' e k hk ht
    obtain ⟨pre, r, e1, e2, e3⟩ := List.map_eq_append_iff.1 e
    obtain ⟨a, post, rfl, e4, e5⟩ := List.map_eq_cons_iff.1 e3
    obtain ⟨m, rfl, h3⟩ := arriving_send e4
    cases m <;> cases h3
    rename_i m
    subst e2
    obtain ⟨kb, hkb, hrel⟩ := (partner hD hc pre (hs.prefix e1) (prefix_length hl e1) s).2 k hk
    have := hg.errors pre s m post e1 kb hkb ht
    rw [← WAMPSession.inv_after] at this ⊢
    rw [← hrel.after]; exact this
  · intro pre' d mid' d' post' e
    obtain ⟨l, r, e1, e2, e3⟩ := List.map_eq_append_iff.1 e
    obtain ⟨pre, l', rfl, e4, e5⟩ := List.map_eq_append_iff.1 e2
    obtain ⟨a, mid, rfl, e6, e7⟩ := List.map_eq_cons_iff.1 e5
    obtain ⟨b, post, rfl, e8, e9⟩ := List.map_eq_cons_iff.1 e3
    rw [arriving_join e6, arriving_join e8] at e1
    exact hg.distinct _ _ _ _ _ e1

/-- What is on its way: to the router, what the client sent; to the client, what the broker or the dealer sent. -/
theorem on_its_way (c : Codec W) (P : Int → Message → Prop) (sched : List Act) (hP : ∀ s m, .send s m ∈ sched → P s m) :
    ∀ s k, (run c sched).conns s = some k → (∀ m ∈ k.up, P s m) ∧ ∀ m ∈ k.down, isPub m = true ∨ isRpc m = true := by
  induction sched using snoc_induction with
  | nil => intro s k h; cases h
  | snoc sched a ih =>
    have ih := ih (fun s m h => hP s m (List.mem_append_left _ h))
    rw [run_snoc]
    generalize run c sched = n at ih ⊢
    have set : ∀ (n : Net W) s0 (k0 : Option (Conn W)),
        (∀ s k, n.conns s = some k → (∀ m ∈ k.up, P s m) ∧ ∀ m ∈ k.down, isPub m = true ∨ isRpc m = true) →
        (∀ k, k0 = some k → (∀ m ∈ k.up, P s0 m) ∧ ∀ m ∈ k.down, isPub m = true ∨ isRpc m = true) →
        ∀ s k, (n.setConn s0 k0).conns s = some k → (∀ m ∈ k.up, P s m) ∧ ∀ m ∈ k.down, isPub m = true ∨ isRpc m = true := by
      intro n s0 k0 h1 h2 s k hk
      simp only [Net.setConn] at hk
      split at hk
      · rename_i e; rw [e]; exact h2 k hk
      · exact h1 s k hk
    have push : ∀ (n : Net W) out,
        (∀ s k, n.conns s = some k → (∀ m ∈ k.up, P s m) ∧ ∀ m ∈ k.down, isPub m = true ∨ isRpc m = true) →
        (∀ x ∈ out, isPub x.2 = true ∨ isRpc x.2 = true) →
        ∀ s k, (n.push out).conns s = some k → (∀ m ∈ k.up, P s m) ∧ ∀ m ∈ k.down, isPub m = true ∨ isRpc m = true := by
      intro n out h1 h2 s k hk
      rw [conns_push, Option.map_eq_some_iff] at hk
      obtain ⟨k0, h3, rfl⟩ := hk
      exact ⟨(h1 s k0 h3).1, fun m hm => (List.mem_append.1 hm).elim ((h1 s k0 h3).2 m) (fun h => h2 _ (mem_inbox.1 h))⟩
    cases a with
    | join d =>
      simp only [Net.step]
      split
      · exact set _ _ _ ih (by intro k h; cases h; exact ⟨fun m hm => (by cases hm), fun m hm => (by cases hm)⟩)
      · exact ih
    | leave s => exact set _ _ _ ih (by intro k h; cases h)
    | send s m =>
      simp only [Net.step]
      split
      · exact ih
      · rename_i k hk
        refine set _ _ _ ih (fun k' h => ?_)
        cases h
        refine ⟨fun m' hm' => ?_, (ih s k hk).2⟩
        simp only at hm'
        split at hm'
        · rcases List.mem_append.1 hm' with h | h
          · exact (ih s k hk).1 m' h
          · rw [List.mem_singleton.1 h]; exact hP s m (List.mem_append_right _ (List.mem_singleton.2 rfl))
        · exact (ih s k hk).1 m' hm'
    | deliver s =>
      simp only [Net.step]
      split
      · exact ih
      · rename_i k hk
        split
        · exact ih
        · rename_i m rest hd
          refine set _ _ _ ih (fun k' h => ?_)
          cases h
          exact ⟨(ih s k hk).1, fun m' hm' => (ih s k hk).2 m' (by rw [hd]; exact List.mem_cons_of_mem _ hm')⟩
    | route s =>
      simp only [Net.step]
      split
      · exact ih
      · rename_i k hk
        split
        · exact ih
        · rename_i m rest hu
          have := set n s (some { k with up := rest }) ih (fun k' h => by
            cases h
            exact ⟨fun m' hm' => (ih s k hk).1 m' (by rw [hu]; exact List.mem_cons_of_mem _ hm'), (ih s k hk).2⟩)
          unfold Net.handle
          split
          · exact push _ _ this (fun x hx => .inl (brokerOut_isPub _ _ x hx))
          · exact push _ _ this (fun x hx => .inr (dealerOut_isRpc _ _ x hx))
          · exact this

/-- No client ever fails on data from the router: whatever data is next in its channel, `receive` returns the message it
carries. -/
theorem C81_client_never_rejects (hD : DataSet D) (hc : ∀ s, Restores (cs s) D) (sched : List Act) (hs : SendsData D sched)
    (hl : sched.length ≤ 2 ^ 53) (hf : FreshRequestsB cs pubSub sched) (hg : GoodClientsB cs sched) (s : Int) (k : BConn W)
    (hk : (brun cs sched).conns s = some k) (w : W) (rest : List W) (hd : k.down = w :: rest) :
    ∃ m, (cs s).deserialize w = .ok m ∧ WAMPSession.outcome (cs s) k.calls (.receive w) = .ok (.msg m) := by
  obtain ⟨k', hk', hrel⟩ := (partner hD hc sched hs hl s).1 k hk
  have hdn := hrel.cor.down
  rw [hd, List.map_cons] at hdn
  cases he : k'.down with
  | nil => rw [he] at hdn; cases hdn
  | cons m ms =>
    rw [he, List.map_cons, List.cons.injEq] at hdn
    have hl' : (sched.map arriving).length ≤ 2 ^ 53 := by rw [List.length_map]; exact hl
    have hacc : WAMPSession.outcome objects k'.calls (.receiveMessage m) = .ok (.msg m) := by
      rcases (on_its_way objects (fun _ _ => True) _ (fun _ _ _ => trivial) s k' hk').2 m (by rw [he]; exact List.mem_cons_self) with h | h
      · exact C67_client_never_rejects objects _ hl' (fresh_of_bytes hD hc sched hs hl _ hf) s k' hk' m ms he h
      · exact C68_client_never_rejects_partial objects _ hl' (good_of_bytes hD hc sched hs hl hg) s k' hk' m ms he h
    refine ⟨m, hdn.1, ?_⟩
    rw [WAMPSession.outcome_incoming objects (m := m) rfl, ← hrel.after] at hacc
    rw [WAMPSession.outcome_incoming (cs s) (m := m) (by simp only [incoming, hdn.1]; rfl)]
    cases hx : ((WAMPSession.after (cs s) k.calls).receiveMessage m).2 with
    | error e => rw [hx] at hacc; cases hacc
    | ok y => rw [hx] at hacc; cases hacc; rfl

/-- The router can read all that clients send: whatever data is next in a client's channel, it deserializes, to a message
the client was asked to send, as receivers see it. -/
theorem C81_router_reads (hD : DataSet D) (hc : ∀ s, Restores (cs s) D) (sched : List Act) (hs : SendsData D sched)
    (hl : sched.length ≤ 2 ^ 53) (s : Int) (k : BConn W) (hk : (brun cs sched).conns s = some k) (w : W) (rest : List W)
    (hu : k.up = w :: rest) :
    ∃ m, .send s m ∈ sched ∧ (cs s).deserialize w = .ok (received m) := by
  obtain ⟨k', hk', hrel⟩ := (partner hD hc sched hs hl s).1 k hk
  have hup := hrel.cor.up
  rw [hu, List.map_cons] at hup
  cases he : k'.up with
  | nil => rw [he] at hup; cases hup
  | cons m ms =>
    rw [he, List.map_cons, List.cons.injEq] at hup
    obtain ⟨m', h1, rfl⟩ := (on_its_way objects (fun s m => ∃ m', .send s m' ∈ sched ∧ m = received m') (sched.map arriving) (by
      intro s m hm
      obtain ⟨a, h1, h2⟩ := List.mem_map.1 hm
      obtain ⟨m', rfl, h3⟩ := arriving_send h2
      exact ⟨m', h1, h3⟩) s k' hk').1 m (by rw [he]; exact List.mem_cons_self)
    exact ⟨m', h1, hup.1⟩

/-- When nothing is on its way to a client, it believes to have the subscriptions the broker lets it have, and the
registrations the dealer lets it have. -/
theorem C81_agreement (hD : DataSet D) (hc : ∀ s, Restores (cs s) D) (sched : List Act) (hs : SendsData D sched)
    (hl : sched.length ≤ 2 ^ 53) (hf : FreshRequestsB cs pubSub sched) (hg : GoodClientsB cs sched) (s : Int) (k : BConn W)
    (hk : (brun cs sched).conns s = some k) (hd : k.down = []) (i : Int) :
    (Granted (cs s) (WAMPSession.trace (cs s) k.calls) .subscribe i ↔
      ∃ t, (⟨s, t, i⟩ : Pub.Holding) ∈ (Pub.view (Broker.trace (brun cs sched).broker)).held) ∧
    (Granted (cs s) (WAMPSession.trace (cs s) k.calls) .register i ↔
      ∃ p, (⟨s, p, i⟩ : Rpc.Reg) ∈ (Rpc.view (Dealer.trace (brun cs sched).dealer)).held) := by
  obtain ⟨k', hk', hrel⟩ := (partner hD hc sched hs hl s).1 k hk
  have hr := C81_bytes_refine_messages hD hc sched hs hl
  have hdn := hrel.cor.down
  rw [hd] at hdn
  have he : k'.down = [] := List.map_eq_nil_iff.1 hdn.symm
  have hl' : (sched.map arriving).length ≤ 2 ^ 53 := by rw [List.length_map]; exact hl
  rw [hr.broker, hr.dealer, ← C67_agreement objects _ hl' (fresh_of_bytes hD hc sched hs hl _ hf) s k' hk' he i,
    ← C68_agreement_partial objects _ hl' (good_of_bytes hD hc sched hs hl hg) s k' hk' he i]
  simp only [← WAMPSession.grants_after, hrel.after, and_self]

/-! ## The hypotheses can be met -/

/-- Fresh request ids, on bytes, from the messages. -/
theorem fresh_to_bytes (hD : DataSet D) (hc : ∀ s, Restores (cs s) D) (sched : List Act) (hs : SendsData D sched)
    (hl : sched.length ≤ 2 ^ 53) (K : Ses.Kind → Bool) (hf : FreshRequests objects K (sched.map arriving)) :
    FreshRequestsB cs K sched := by
  intro pre s m post e kb hkb kd i hr hK
  obtain ⟨k, hk, hrel⟩ := (partner hD hc pre (hs.prefix e) (prefix_length hl e) s).1 kb hkb
  have := hf (pre.map arriving) s (received m) (post.map arriving) (by rw [e]; simp [arriving]) k hk kd i
    (by rw [requestOf_received]; exact hr) hK
  rw [← WAMPSession.has_after] at this ⊢
  rw [hrel.after]; exact this

mutual
/-- A value JSON can carry: no bytes, no objects, finite floats, dicts with distinct string keys. -/
def Json : Value → Prop
  | .none => True
  | .bool _ => True
  | .int _ => True
  | .float f => f.expo ≠ 2047
  | .str _ => True
  | .bytes _ => False
  | .list l => JsonList l
  | .dict d => (d.map (·.1)).Nodup ∧ JsonDict d
  | .obj .. => False
def JsonList : List Value → Prop
  | [] => True
  | v :: l => Json v ∧ JsonList l
def JsonDict : List (Value × Value) → Prop
  | [] => True
  | (k, v) :: d => (∃ s, k = .str s) ∧ Json v ∧ JsonDict d
end

theorem jsonList_iff : ∀ l, JsonList l ↔ ∀ v ∈ l, Json v
  | [] => by simp [JsonList]
  | v :: l => by simp [JsonList, jsonList_iff l]

theorem jsonDict_iff : ∀ d, JsonDict d ↔ ∀ kv ∈ d, (∃ s, kv.1 = .str s) ∧ Json kv.2
  | [] => by simp [JsonDict]
  | (k, v) :: d => by simp [JsonDict, jsonDict_iff d, and_assoc]

/-- The values JSON can carry are such a set: the theorems apply to any serializers that restore them. -/
theorem json_dataSet : DataSet Json := by
  refine ⟨fun _ _ => by trivial, fun _ _ _ => by trivial, by trivial, fun l _ h => ?_, fun d _ h1 h2 => ?_, fun l h => ?_,
    fun d h kv hkv => ?_⟩
  · rw [Json]; exact (jsonList_iff l).2 h
  · rw [Json]; exact ⟨h1, (jsonDict_iff d).2 fun kv hkv => ⟨(h2 kv hkv).1.imp fun _ h => h.1, (h2 kv hkv).2⟩⟩
  · rw [Json] at h; exact (jsonList_iff l).1 h
  · rw [Json] at h; exact ((jsonDict_iff d).1 h.2 kv hkv).2

/-- A serializer that wraps what it carries. -/
def boxed : Codec Value := ⟨fun v => .ok (.list [v]), fun | .list [v] => .ok v | _ => .error (.valueError "")⟩

/-- Client 2 uses another serializer than the others. -/
def mixed (s : Int) : Codec Value := if s = 2 then boxed else objects

theorem mixed_restores (s : Int) : Restores (mixed s) Json := by
  intro v _
  unfold mixed
  split
  · exact ⟨_, rfl, rfl⟩
  · exact ⟨_, rfl, rfl⟩

/-- Client 1 subscribes, client 2 publishes keyword arguments only, client 2 registers, client 1 calls. -/
def demoB : List Act :=
  [joins 1, joins 2, .send 1 (.subscribe ⟨.int 1, "a", []⟩), .route 1, .deliver 1,
   .send 2 (.publish ⟨.int 1, "a", none, some [(.str "k", .int 5)], []⟩), .route 2,
   .send 2 (.register ⟨.int 2, "p", []⟩), .route 2, .deliver 2, .send 1 (callP 1), .route 1]

theorem demoB_data : SendsData Json demoB := by
  intro s m h
  simp only [demoB, joins, callP, List.mem_cons, Act.send.injEq, reduceCtorEq, false_or, List.not_mem_nil, or_false] at h
  rcases h with ⟨rfl, rfl⟩ | ⟨rfl, rfl⟩ | ⟨rfl, rfl⟩ | ⟨rfl, rfl⟩ <;>
    simp [Valid, IdOk, PyInt.val, Message.marshal, payloadTail, Json, JsonList, JsonDict, PyInt.toValue, Call.options, withSerializer]

theorem demoB_good : FreshRequestsB mixed pubSub demoB ∧ GoodClientsB mixed demoB := by
  have hf := fun K h => fresh_to_bytes json_dataSet mixed_restores demoB demoB_data (by decide) K
    (fresh_of_freshB objects K (demoB.map arriving) h)
  refine ⟨hf _ (by decide), hf _ (by decide), ?_, ?_, distinct_of_nodup (by decide)⟩
  · intro s m h
    simp [demoB, joins, callP] at h
    rw [h.2]; rfl
  · intro pre s m post e
    have : Act.send s (.error m) ∈ demoB := by rw [e]; simp
    simp [demoB, joins, callP] at this

/-- Client 1 has the EVENT next in its channel, client 2 the INVOCATION, as its serializer writes it. -/
example : (∃ k w rest, (brun mixed demoB).conns 1 = some k ∧ k.down = w :: rest ∧ objects.deserialize w = .ok (.event
      { subscriptionId := 1, publicationId := 2, args := some [], kwargs := some [(.str "k", .int 5)], details := [] })) ∧
    ∃ k v, (brun mixed demoB).conns 2 = some k ∧ k.down = [.list [v]] ∧ (boxed.deserialize (.list [v])).isOk := by
  exact ⟨⟨_, _, _, rfl, rfl, rfl⟩, _, _, rfl, rfl, rfl⟩

end Wamp.Spec.Net
