import Verif.Spec.Connection
import Verif.Props.RawSocketStream
import Verif.Props.HandshakeFormats

/-! # C102: a RawSocket connection -/

namespace Wamp.Spec
open RawSocket

theorem formatOfType_type (f : Format) : formatOfType f.type = some f := by cases f <;> rfl

/-- What fits a format is written to the stream, and read from it as the same value. -/
theorem wire_restores (f : Format) (v : Value) (h : Fits f.limits v) : ∃ b, f.wire.dumps v = .ok b ∧ f.wire.loads b = .ok v := by
  cases f
  · refine ⟨utf8 (String.ofList (Json.text v)), ?_, ?_⟩
    · simp [Format.wire, Json.payloadCodec, Json.dumpsBytes, Json.dumps_fits _ h, Except.map]
    · exact Json.loadsBytes_text h
  · exact ⟨_, MsgPack.dumps_fits _ h, MsgPack.loads_pack _ h⟩
  · have := Cbor.loads_encode _ h []
    rw [List.append_nil] at this
    exact ⟨_, Cbor.dumps_fits _ h, this⟩

theorem frames_reads : ∀ (n : Nat) (bs : Bytes), bs.length ≤ n → Reads bs (frames n bs).1 (frames n bs).2
  | 0, bs, h => by
    have : bs = [] := List.length_eq_zero_iff.1 (by omega)
    subst this; exact .stop (by decide)
  | n + 1, bs, h => by
    unfold frames
    split
    · rename_i hr; exact .stop hr
    · rename_i x rest hr
      obtain ⟨_, hd, _, h4, e⟩ := readOne_some hr
      exact .more hr (frames_reads n rest (by rw [e] at h; simp at h; omega))

theorem reads_unique {bs : Bytes} {fs fs' : List Frame} {left left' : Bytes} (h : Reads bs fs left) (h' : Reads bs fs' left') :
    fs = fs' ∧ left = left' := by
  obtain ⟨a, b, -, hu⟩ := C78_one_reading bs
  obtain ⟨r1, r2⟩ := hu _ _ h
  obtain ⟨r3, r4⟩ := hu _ _ h'
  exact ⟨r1.trans r3.symm, r2.trans r4.symm⟩

/-- An item that can be sent goes into a frame, and out of it. -/
theorem item_round_trip (f : Format) {size limit : Int} (hs : size ≤ limit) (x : Item) (h : x.Sendable f size) :
    ∃ fr, x.frame f = .ok fr ∧ fr.Fits ∧ itemOf f limit fr = .ok x.arrived := by
  cases x with
  | message m =>
    obtain ⟨hv, hf, hl⟩ := h
    obtain ⟨b, h1, h2⟩ := wire_restores f _ hf
    have hl := hl b h1
    refine ⟨⟨MSG_TYPE_WAMP, b⟩, ?_, ⟨by show (0 : Int) ≤ MSG_TYPE_WAMP ∧ MSG_TYPE_WAMP < 256; decide, hl.2⟩, ?_⟩
    · rw [Item.frame, Codec.serialize, h1]; rfl
    · rw [itemOf, if_neg (by simp only; omega), if_pos rfl, Codec.deserialize]
      simp only [h2]
      show Except.map Item.message (toMessage (.list m.marshal)) = _
      rw [C01_received m hv]; rfl
  | ping b =>
    refine ⟨⟨MSG_TYPE_PING, b⟩, rfl, ⟨by show (0 : Int) ≤ MSG_TYPE_PING ∧ MSG_TYPE_PING < 256; decide, h.2⟩, ?_⟩
    have := h.1
    rw [itemOf, if_neg (by simp only; omega), if_neg (by show ¬ MSG_TYPE_PING = MSG_TYPE_WAMP; decide), if_pos rfl]; rfl
  | pong b =>
    refine ⟨⟨MSG_TYPE_PONG, b⟩, rfl, ⟨by show (0 : Int) ≤ MSG_TYPE_PONG ∧ MSG_TYPE_PONG < 256; decide, h.2⟩, ?_⟩
    have := h.1
    rw [itemOf, if_neg (by simp only; omega), if_neg (by show ¬ MSG_TYPE_PONG = MSG_TYPE_WAMP; decide),
      if_neg (by show ¬ MSG_TYPE_PONG = MSG_TYPE_PING; decide), if_pos rfl]; rfl

theorem items_round_trip (f : Format) {size limit : Int} (hs : size ≤ limit) : ∀ items : List Item, (∀ x ∈ items, x.Sendable f size) →
    ∃ fs, items.mapM (Item.frame f) = .ok fs ∧ (∀ fr ∈ fs, fr.Fits) ∧ fs.mapM (itemOf f limit) = .ok (items.map Item.arrived)
  | [], _ => ⟨[], rfl, by simp, rfl⟩
  | x :: items, h => by
    obtain ⟨fr, h1, h2, h3⟩ := item_round_trip f hs x (h x (by simp))
    obtain ⟨fs, g1, g2, g3⟩ := items_round_trip f hs items fun y hy => h y (by simp [hy])
    refine ⟨fr :: fs, ?_, ?_, ?_⟩
    · rw [List.mapM_cons, h1, g1]; rfl
    · intro y hy
      rcases List.mem_cons.1 hy with rfl | hy
      · exact h2
      · exact g2 y hy
    · rw [List.mapM_cons, h3, g3]; rfl

theorem mapM_prefix {α β : Type} {g : α → Except Exc β} {xs ys : List α} {zs : List β} (h : (xs ++ ys).mapM g = .ok zs) :
    ∃ us vs, xs.mapM g = .ok us ∧ ys.mapM g = .ok vs ∧ zs = us ++ vs := by
  rw [List.mapM_append] at h
  cases h1 : xs.mapM g with
  | error e => rw [h1] at h; cases h
  | ok us =>
    rw [h1] at h
    cases h2 : ys.mapM g with
    | error e => rw [h2] at h; cases h
    | ok vs =>
      rw [h2] at h
      simp only [bind, Except.bind, pure, Except.pure, Except.ok.injEq] at h
      exact ⟨us, vs, rfl, rfl, h.symm⟩

section
variable (f : Format) (limit : Int) (hs body : Bytes) (fs : List Frame) (items : List Item)

/-- What the listener knows after the bytes `p` -/
def Knows (p : Bytes) (l : Listener) : Prop :=
  (p.length < 4 ∧ l = { limit := limit, buffer := p }) ∨
  (4 ≤ p.length ∧ ∃ fs1 left js, Reads (p.drop 4) fs1 left ∧ fs1.mapM (itemOf f limit) = .ok js ∧
    l = { limit := limit, buffer := left, format := some f, heard := js })

variable {f limit hs body fs items} (h4 : hs.length = 4) (hh : ∃ s, receiveHandshake hs = .ok ⟨f.type, s⟩)
  (hfits : ∀ fr ∈ fs, fr.Fits) (hw : writeAll fs = .ok body) (hi : fs.mapM (itemOf f limit) = .ok items)

include hfits hw hi in
/-- The frames at the beginning of the stream hold the first of the items. -/
theorem beginning {p q : Bytes} (hp : body = p ++ q) {fs1 : List Frame} {left : Bytes} (hr : Reads p fs1 left) :
    ∃ js ks, fs1.mapM (itemOf f limit) = .ok js ∧ items = js ++ ks := by
  rw [hp] at hw
  obtain ⟨gs1, gs2, left', e, r1, -⟩ := C78_prefix fs hfits p q hw
  obtain ⟨rfl, -⟩ := reads_unique hr r1
  rw [e] at hi
  obtain ⟨us, vs, h1, -, h3⟩ := mapM_prefix hi
  exact ⟨us, vs, h1, h3⟩

include h4 hh hfits hw hi in
theorem knows_step {p c q : Bytes} (hp : hs ++ body = p ++ (c ++ q)) {l : Listener} (hk : Knows f limit p l) :
    ∃ l', l.hear c = .ok l' ∧ Knows f limit (p ++ c) l' := by
  have hlen : (hs ++ body).length = (p ++ (c ++ q)).length := by rw [hp]
  -- what is there beyond the handshake
  have hbody : 4 ≤ (p ++ c).length → (p ++ c).take 4 = hs ∧ body = (p ++ c).drop 4 ++ q := by
    intro hl
    rw [← List.append_assoc] at hp
    have h1 := congrArg (List.take 4) hp
    have h2 := congrArg (List.drop 4) hp
    rw [List.take_left' h4, List.take_append_of_le_length hl] at h1
    rw [List.drop_left' h4, List.drop_append_of_le_length hl] at h2
    exact ⟨h1.symm, h2⟩
  rcases hk with ⟨hl, rfl⟩ | ⟨hl, fs1, left, js, hr, hm, rfl⟩
  · by_cases hc : (p ++ c).length < 4
    · exact ⟨_, by simp only [Listener.hear]; rw [if_pos hc], .inl ⟨hc, rfl⟩⟩
    · obtain ⟨e1, e2⟩ := hbody (by omega)
      obtain ⟨s, hh⟩ := hh
      have hr := frames_reads ((p ++ c).drop 4).length ((p ++ c).drop 4) (Nat.le_refl _)
      obtain ⟨js, ks, hm, -⟩ := beginning hfits hw hi e2 hr
      refine ⟨{ limit := limit, buffer := _, format := some f, heard := js }, ?_, .inr ⟨by omega, _, _, js, hr, hm, rfl⟩⟩
      simp only [Listener.hear]
      rw [if_neg hc, e1, hh]
      simp only [bind, Except.bind, formatOfType_type]
      rw [Listener.take, hm]; rfl
  · have hlc : 4 ≤ (p ++ c).length := by rw [List.length_append]; omega
    obtain ⟨e1, e2⟩ := hbody hlc
    have hr2 := frames_reads (left ++ c).length (left ++ c) (Nat.le_refl _)
    have hall := C78_chunks _ _ _ _ _ _ hr hr2
    rw [← List.drop_append_of_le_length hl] at hall
    obtain ⟨us, ks, hus, -⟩ := beginning hfits hw hi e2 hall
    obtain ⟨js', vs, h1, h2, rfl⟩ := mapM_prefix hus
    rw [hm] at h1; cases h1
    refine ⟨{ limit := limit, buffer := _, format := some f, heard := js ++ vs }, ?_, .inr ⟨hlc, _, _, _, hall, hus, rfl⟩⟩
    simp only [Listener.hear, Listener.take]
    rw [h2]; rfl

include h4 hh hfits hw hi in
theorem knows_all : ∀ (pieces : List Bytes) (p q : Bytes), hs ++ body = p ++ (pieces.flatten ++ q) → ∀ l, Knows f limit p l →
    ∃ l', pieces.foldlM Listener.hear l = .ok l' ∧ Knows f limit (p ++ pieces.flatten) l'
  | [], p, q, _, l, hk => ⟨l, rfl, by simpa using hk⟩
  | c :: pieces, p, q, hp, l, hk => by
    rw [List.flatten_cons, List.append_assoc] at hp
    obtain ⟨l1, h1, k1⟩ := knows_step h4 hh hfits hw hi hp hk
    obtain ⟨l2, h2, k2⟩ := knows_all pieces (p ++ c) q (by rw [hp]; simp) l1 k1
    refine ⟨l2, ?_, by simpa using k2⟩
    rw [List.foldlM_cons, h1]
    exact h2

end

/-- Every size a handshake can carry is between a power of two and the next. -/
theorem size_range (s : Int) (h : 2 ^ 9 ≤ s ∧ s < 2 ^ 25) : ∃ k : Nat, (9 ≤ k ∧ k ≤ 24) ∧ ((2 : Int) ^ k ≤ s ∧ s < 2 ^ (k + 1)) := by
  have h0 : s.toNat ≠ 0 := by omega
  refine ⟨Nat.log2 s.toNat, ⟨(Nat.le_log2 h0).2 (by omega), ?_⟩, ?_, ?_⟩
  · have := (Nat.log2_lt h0 (k := 25)).2 (by omega); omega
  · have := Nat.log2_self_le h0
    have hc : ((2 ^ Nat.log2 s.toNat : Nat) : Int) = 2 ^ Nat.log2 s.toNat := by norm_cast
    omega
  · have := Nat.lt_log2_self (n := s.toNat)
    have hc : ((2 ^ (Nat.log2 s.toNat + 1) : Nat) : Int) = 2 ^ (Nat.log2 s.toNat + 1) := by norm_cast
    omega

/-- The listener announces a limit.  Whatever the speaker sends within the limit it was told, the listener hears all of it, in order,
however the stream is cut into pieces; and at any moment before, it has heard the beginning. -/
theorem C102_conversation (f : Format) (own limit t : Int) (hl : 2 ^ 9 ≤ limit ∧ limit < 2 ^ 25) (ho : 2 ^ 9 ≤ own ∧ own < 2 ^ 25) :
    ∃ hb told, sendHandshake ⟨t, limit⟩ = .ok hb ∧ receiveHandshake hb = .ok told ∧
      told.maxMsgSize ≤ limit ∧ limit < 2 * told.maxMsgSize ∧
      ∀ items : List Item, (∀ x ∈ items, x.Sendable f told.maxMsgSize) →
        ∃ bytes, speak f own items = .ok bytes ∧
          (∀ pieces : List Bytes, pieces.flatten = bytes →
            pieces.foldlM Listener.hear { limit := limit } =
              .ok { limit := limit, buffer := [], format := some f, heard := items.map Item.arrived }) ∧
          (∀ (pieces : List Bytes) (later : Bytes), pieces.flatten ++ later = bytes →
            ∃ l, pieces.foldlM Listener.hear { limit := limit } = .ok l ∧ l.heard <+: items.map Item.arrived) := by
  obtain ⟨k, hk, hk1, hk2⟩ := size_range limit hl
  obtain ⟨hb, a1, -, a2⟩ := C15_handshake_round_trip t limit k hk ⟨hk1, hk2⟩
  refine ⟨hb, _, a1, a2, hk1, by simp only; rw [Int.pow_succ] at hk2; omega, ?_⟩
  intro items hitems
  obtain ⟨fs, g1, g2, g3⟩ := items_round_trip f hk1 items hitems
  obtain ⟨body, w1, w2⟩ := C78_round_trip fs g2
  obtain ⟨j, hj, hj'⟩ := size_range own ho
  obtain ⟨hs, b1, b2, b3⟩ := C15_handshake_round_trip f.type own j hj hj'
  have b3 : ∃ s, receiveHandshake hs = .ok ⟨f.type, s⟩ := by
    have e : f.type % 16 = f.type := by cases f <;> decide
    rw [e] at b3
    exact ⟨_, b3⟩
  have key := fun pieces q hp => knows_all b2 b3 g2 w1 g3 pieces [] q hp { limit := limit } (.inl ⟨by simp, rfl⟩)
  refine ⟨hs ++ body, by rw [speak, b1, g1]; simp only [bind, Except.bind]; rw [w1], ?_, ?_⟩
  · intro pieces hp
    obtain ⟨l, h1, h2⟩ := key pieces [] (by simp [hp])
    rw [h1]
    rw [List.nil_append, hp] at h2
    rcases h2 with ⟨h, -⟩ | ⟨-, fs1, left, js, r, m, rfl⟩
    · rw [List.length_append] at h; omega
    · rw [List.drop_left' b2] at r
      obtain ⟨rfl, rfl⟩ := reads_unique r w2
      rw [g3] at m; cases m; rfl
  · intro pieces later hp
    obtain ⟨l, h1, h2⟩ := key pieces later (by simp [hp])
    refine ⟨l, h1, ?_⟩
    rw [List.nil_append] at h2
    rcases h2 with ⟨-, rfl⟩ | ⟨hl4, fs1, left, js, r, m, rfl⟩
    · exact List.nil_prefix
    · have e := congrArg (List.drop 4) hp
      rw [List.drop_left' b2, List.drop_append_of_le_length hl4] at e
      obtain ⟨js', ks, h3, h4⟩ := beginning g2 w1 g3 e.symm r
      rw [h3] at m; cases m
      exact ⟨ks, h4.symm⟩

/-- A SUBSCRIBE, the CALL `sample`, a ping and its answer: in each of the three formats, cut after every byte -/
def chat : List Item :=
  [.message (.subscribe { requestId := 1, options := [], topic := "io.topic" }), .message sample, .ping [1, 2, 3], .pong []]

theorem chat_sendable (f : Format) (size : Int) (hs : 350 ≤ size) : ∀ x ∈ chat, x.Sendable f size := by
  have hw : ∀ (m : Message), (match f.wire.serialize m with
      | .ok b => decide (b.length ≤ 350)
      | .error _ => false) = true → ∀ b, f.wire.serialize m = .ok b → (b.length : Int) ≤ size ∧ b.length < 2 ^ 24 := by
    intro m h b hb
    rw [hb] at h
    have := of_decide_eq_true h
    exact ⟨by omega, by omega⟩
  intro x hx
  simp only [chat, List.mem_cons, List.not_mem_nil, or_false] at hx
  rcases hx with rfl | rfl | rfl | rfl
  · exact ⟨by simp [Valid]; decide, by cases f <;> simp [Message.marshal, PyInt.toValue, Fits, FitsList, FitsDict, Format.limits, jsonLimits,
      msgpackLimits, cborLimits] <;> decide, hw _ (by cases f <;> decide +kernel)⟩
  · exact ⟨(sample_fits f).1, (sample_fits f).2, hw _ (by cases f <;> decide +kernel)⟩
  · exact ⟨by simp only [List.length_cons, List.length_nil]; omega, by decide⟩
  · exact ⟨by simp only [List.length_nil]; omega, by decide⟩

example (f : Format) : ∃ bytes, speak f 1000 chat = .ok bytes ∧
    (bytes.map ([·])).foldlM Listener.hear { limit := 700 } =
      .ok { limit := 700, buffer := [], format := some f, heard := chat.map Item.arrived } := by
  obtain ⟨hb, told, -, -, h1, h2, h⟩ := C102_conversation f 1000 700 1 (by decide) (by decide)
  obtain ⟨bytes, g1, g2, -⟩ := h chat (chat_sendable f _ (by omega))
  exact ⟨bytes, g1, g2 _ (by rw [← List.flatMap_def]; simp)⟩

end Wamp.Spec
