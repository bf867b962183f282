import Verif.Spec.Room
import Verif.Proofs.Shortest
import Verif.Proofs.Encodings
import Verif.Proofs.Cbor
import Verif.Proofs.MsgPack

/-! # Helper lemmas about the room a value takes -/

namespace Wamp.Spec.Room

/-! ## CBOR -/

theorem cbor_head (major n : Nat) : (Cbor.head major n).length ≤ 9 := by
  unfold Cbor.head
  repeat' split
  all_goals simp only [List.length_append, be_length]; omega

mutual
theorem cbor_room : ∀ v : Value, Fits commonLimits v → (Cbor.encode v).length ≤ room v
  | .none, _ => by simp [Cbor.encode, room]
  | .bool true, _ => by simp [Cbor.encode, room]
  | .bool false, _ => by simp [Cbor.encode, room]
  | .int n, h => by
    rw [Fits] at h
    have h1 := h.1
    have h2 := h.2
    rw [Cbor.encode, room]
    cases n with
    | ofNat n =>
      have := cbor_head 0 n
      have h3 : n < 2 ^ 64 := by
        have : (Int.ofNat n) = (n : Int) := rfl
        omega
      rw [Cbor.integer, Cbor.magnitude, if_pos h3]; omega
    | negSucc n =>
      have := cbor_head 1 n
      have h3 : n < 2 ^ 64 := by omega
      rw [Cbor.integer, Cbor.magnitude, if_pos h3]; omega
  | .float f, _ => by
    rw [Cbor.encode, room, Cbor.float]
    repeat' split
    all_goals simp [be_length]
  | .str s, _ => by
    have := cbor_head 3 (utf8 s).length
    rw [Cbor.encode, room, List.length_append, utf8_length]
    rw [utf8_length] at this
    omega
  | .bytes b, _ => by
    have := cbor_head 2 b.length
    rw [Cbor.encode, room, List.length_append]
    omega
  | .list l, h => by
    rw [Fits] at h
    have := cbor_head 4 l.length
    have := cbor_roomList l h.2
    rw [Cbor.encode, room, List.length_append]
    omega
  | .dict d, h => by
    rw [Fits] at h
    have := cbor_head 5 d.length
    have := cbor_roomDict d h.2.2
    rw [Cbor.encode, room, List.length_append]
    omega
  | .obj .., h => by rw [Fits] at h; exact h.elim
theorem cbor_roomList : ∀ l : List Value, FitsList commonLimits l → (Cbor.encodeList l).length ≤ roomList l
  | [], _ => by simp [Cbor.encodeList]
  | v :: l, h => by
    rw [FitsList] at h
    have := cbor_room v h.1
    have := cbor_roomList l h.2
    rw [Cbor.encodeList, roomList, List.length_append]
    omega
theorem cbor_roomDict : ∀ d : List (Value × Value), FitsDict commonLimits d → (Cbor.encodeDict d).length ≤ roomDict d
  | [], _ => by simp [Cbor.encodeDict]
  | (k, v) :: d, h => by
    rw [FitsDict] at h
    obtain ⟨⟨s, rfl, hs⟩, h2, h3⟩ := h
    have := cbor_room (.str s) (by rw [Fits]; exact hs)
    have := cbor_room v h2
    have := cbor_roomDict d h3
    rw [Cbor.encodeDict, roomDict, List.length_append, List.length_append]
    omega
end

/-! ## MessagePack -/

theorem mp_int (n : Int) : (MsgPack.packInt n).length ≤ 9 := by
  unfold MsgPack.packInt
  repeat' split
  all_goals simp only [List.length_cons, be_length]; omega

theorem mp_head (n : Nat) : (MsgPack.strHead n).length ≤ 9 ∧ (MsgPack.binHead n).length ≤ 9 ∧ (MsgPack.arrayHead n).length ≤ 9 ∧
    (MsgPack.mapHead n).length ≤ 9 := by
  unfold MsgPack.strHead MsgPack.binHead MsgPack.arrayHead MsgPack.mapHead
  refine ⟨?_, ?_, ?_, ?_⟩
  all_goals repeat' split
  all_goals simp only [List.length_cons, be_length]; omega

mutual
theorem mp_room : ∀ v : Value, Fits commonLimits v → (MsgPack.pack v).length ≤ room v
  | .none, _ => by simp [MsgPack.pack, room]
  | .bool true, _ => by simp [MsgPack.pack, room]
  | .bool false, _ => by simp [MsgPack.pack, room]
  | .int n, _ => by
    have := mp_int n
    rw [MsgPack.pack, room]; omega
  | .float f, _ => by simp [MsgPack.pack, room, be_length]
  | .str s, _ => by
    have := (mp_head (utf8 s).length).1
    rw [MsgPack.pack, room, List.length_append, utf8_length]
    rw [utf8_length] at this
    omega
  | .bytes b, _ => by
    have := (mp_head b.length).2.1
    rw [MsgPack.pack, room, List.length_append]
    omega
  | .list l, h => by
    rw [Fits] at h
    have := (mp_head l.length).2.2.1
    have := mp_roomList l h.2
    rw [MsgPack.pack, room, List.length_append]
    omega
  | .dict d, h => by
    rw [Fits] at h
    have := (mp_head d.length).2.2.2
    have := mp_roomDict d h.2.2
    rw [MsgPack.pack, room, List.length_append]
    omega
  | .obj .., h => by rw [Fits] at h; exact h.elim
theorem mp_roomList : ∀ l : List Value, FitsList commonLimits l → (MsgPack.packList l).length ≤ roomList l
  | [], _ => by simp [MsgPack.packList]
  | v :: l, h => by
    rw [FitsList] at h
    have := mp_room v h.1
    have := mp_roomList l h.2
    rw [MsgPack.packList, roomList, List.length_append]
    omega
theorem mp_roomDict : ∀ d : List (Value × Value), FitsDict commonLimits d → (MsgPack.packDict d).length ≤ roomDict d
  | [], _ => by simp [MsgPack.packDict]
  | (k, v) :: d, h => by
    rw [FitsDict] at h
    obtain ⟨⟨s, rfl, hs⟩, h2, h3⟩ := h
    have := mp_room (.str s) (by rw [Fits]; exact hs)
    have := mp_room v h2
    have := mp_roomDict d h3
    rw [MsgPack.packDict, roomDict, List.length_append, List.length_append]
    omega
end

/-! ## JSON -/

/-- The number of bytes of a text in UTF-8 -/
def weight : List Char → Nat
  | [] => 0
  | c :: l => c.utf8Size + weight l

theorem weight_append (a b : List Char) : weight (a ++ b) = weight a + weight b := by
  induction a with
  | nil => simp [weight]
  | cons c l ih => rw [List.cons_append, weight, weight, ih]; omega

theorem utf8_weight (l : List Char) : (utf8 (String.ofList l)).length = weight l := by
  rw [Hmac.utf8_flatMap, String.toList_ofList]
  induction l with
  | nil => rfl
  | cons c l ih => rw [List.flatMap_cons, List.length_append, ih, weight, String.length_utf8EncodeChar]

theorem ascii_size {c : Char} (h : c.toNat < 128) : c.utf8Size = 1 := by
  rw [← String.length_utf8EncodeChar, Wamp.utf8_ascii h]; rfl

theorem weight_ascii {l : List Char} (h : ∀ c ∈ l, c.toNat < 128) : weight l = l.length := by
  induction l with
  | nil => rfl
  | cons c l ih =>
    rw [weight, ih fun x hx => h x (List.mem_cons_of_mem _ hx), ascii_size (h c List.mem_cons_self), List.length_cons]; omega

theorem decimal_ascii (n : Nat) : ∀ c ∈ Json.decimal n, c.toNat < 128 := by
  intro c hc
  have := Json.decimal_digits n c hc
  simp only [Json.isDigit, Bool.and_eq_true, decide_eq_true_eq] at this
  omega

theorem layout_ascii (ds : List Char) (p : Int) (h : ∀ c ∈ ds, c.toNat < 128) : ∀ c ∈ PyFloat.layout ds p, c.toNat < 128 := by
  have h0 : ∀ n, ∀ c ∈ List.replicate n '0', c.toNat < 128 := by
    intro n c hc; rw [(List.mem_replicate.1 hc).2]; decide
  have ha : ∀ {a b : List Char}, (∀ c ∈ a, c.toNat < 128) → (∀ c ∈ b, c.toNat < 128) → ∀ c ∈ a ++ b, c.toNat < 128 := by
    intro a b h1 h2 c hc
    exact (List.mem_append.1 hc).elim (h1 c) (h2 c)
  have hc : ∀ {x : Char} {b : List Char}, x.toNat < 128 → (∀ c ∈ b, c.toNat < 128) → ∀ c ∈ x :: b, c.toNat < 128 := by
    intro x b h1 h2 c hc
    rcases List.mem_cons.1 hc with rfl | h
    · exact h1
    · exact h2 c h
  have hn : ∀ c ∈ ([] : List Char), c.toNat < 128 := by intro c h; cases h
  have ht : ∀ n, ∀ c ∈ ds.take n, c.toNat < 128 := fun n c hc => h c (List.mem_of_mem_take hc)
  have hd : ∀ n, ∀ c ∈ ds.drop n, c.toNat < 128 := fun n c hc => h c (List.mem_of_mem_drop hc)
  unfold PyFloat.layout
  split
  · split
    · exact hc (by decide) (hc (by decide) (ha (h0 _) h))
    · split
      · exact ha (ha h (h0 _)) (hc (by decide) (hc (by decide) hn))
      · exact ha (ht _) (hc (by decide) (hd _))
  · refine ha (ha (ht _) ?_) (hc (by decide) (hc ?_ ?_))
    · split
      · exact hn
      · exact hc (by decide) (hd _)
    · split <;> decide
    · split
      · exact hc (by decide) (decimal_ascii _)
      · exact decimal_ascii _

theorem float_room (f : PyFloat) : weight (Json.floatText f) ≤ 24 := by
  unfold Json.floatText
  split
  · decide
  · split
    · split <;> decide
    · rename_i h1 h2
      rw [weight_ascii]
      · exact PyFloat.finiteText_length f h2
      · rw [PyFloat.finiteText]
        intro c hc
        rcases List.mem_append.1 hc with h | h
        · split at h
          · rw [List.mem_singleton.1 h]; decide
          · cases h
        · exact layout_ascii _ _ (decimal_ascii _) c h

theorem int_room {n : Int} (h1 : -2 ^ 63 ≤ n) (h2 : n < 2 ^ 64) : weight (Json.integer n) ≤ 20 := by
  cases n with
  | ofNat n =>
    have h3 : n < 10 ^ 20 := by
      have : (Int.ofNat n) = (n : Int) := rfl
      omega
    rw [Json.integer, weight_ascii (decimal_ascii n)]
    exact PyFloat.decimal_short (by omega) h3
  | negSucc n =>
    have h3 : n + 1 < 10 ^ 19 := by omega
    have := PyFloat.decimal_short (k := 19) (by omega) h3
    rw [Json.integer, weight, weight_ascii (decimal_ascii _), ascii_size (by decide)]
    omega

theorem hexDigit_ascii : ∀ n, n < 16 → (Json.hexDigit n).toNat < 128 := by decide

theorem unicode_weight (n : Nat) : weight (Json.unicode n) = 6 := by
  have h : ∀ k, (Json.hexDigit (k % 16)).utf8Size = 1 := fun k => ascii_size (hexDigit_ascii _ (Nat.mod_lt _ (by omega)))
  simp only [Json.unicode, Json.hex4, weight, h]
  rfl

theorem escape_weight (c : Char) : weight (Json.escape c) ≤ 6 * c.utf8Size := by
  have hp := c.utf8Size_pos
  unfold Json.escape
  split
  · have : weight ['\\', '"'] = 2 := by decide
    omega
  split
  · have : weight ['\\', '\\'] = 2 := by decide
    omega
  split
  · have : weight ['\\', 'n'] = 2 := by decide
    omega
  split
  · have : weight ['\\', 'r'] = 2 := by decide
    omega
  split
  · have : weight ['\\', 't'] = 2 := by decide
    omega
  split
  · have : weight ['\\', 'f'] = 2 := by decide
    omega
  split
  · have : weight ['\\', 'b'] = 2 := by decide
    omega
  split
  · simp only [weight]; omega
  split
  · rw [unicode_weight]; omega
  · rw [weight_append, unicode_weight, unicode_weight]
    have : 2 ≤ c.utf8Size := by
      rename_i h'
      simp only [Char.toNat] at h'
      unfold Char.utf8Size
      dsimp only
      split
      · rename_i h1
        have h2 : c.val.toNat ≤ 127 := UInt32.le_iff_toNat_le.1 h1
        omega
      · split <;> (try split) <;> omega
    omega

theorem quote_weight (s : String) : weight (Json.quote s.toList) ≤ 2 + 6 * s.utf8ByteSize := by
  have h : ∀ l : List Char, weight (l.flatMap Json.escape) ≤ 6 * weight l := by
    intro l
    induction l with
    | nil => simp [weight]
    | cons c l ih =>
      have := escape_weight c
      rw [List.flatMap_cons, weight_append, weight]; omega
  have h1 := h s.toList
  have h2 : weight s.toList = s.utf8ByteSize := by
    rw [← utf8_weight, String.ofList_toList, utf8_length]
  have e : ('"' : Char).utf8Size = 1 := by decide
  rw [Json.quote, weight, weight_append, weight, weight, e]
  omega

theorem char_weight (c : Char) (l : List Char) (h : c.toNat < 128) : weight (c :: l) = 1 + weight l := by
  rw [weight, ascii_size h]

mutual
theorem json_room : ∀ v : Value, Fits commonLimits v → weight (Json.text v) ≤ room v
  | .none, _ => by rw [Json.text, room]; decide
  | .bool true, _ => by rw [Json.text, room]; decide
  | .bool false, _ => by rw [Json.text, room]; decide
  | .int n, h => by
    rw [Fits] at h
    rw [Json.text, room]; exact int_room h.1 h.2
  | .float f, _ => by rw [Json.text, room]; exact float_room f
  | .str s, _ => by
    have := quote_weight s
    rw [Json.text, room]; omega
  | .bytes b, h => by rw [Fits] at h; exact h.1.elim
  | .list [], _ => by rw [Json.text, room, roomList]; decide
  | .list (v :: l), h => by
    rw [Fits, FitsList] at h
    have := json_room v h.2.1
    have := json_roomTail l h.2.2
    rw [Json.text, room, roomList, char_weight _ _ (by decide), weight_append]
    omega
  | .dict [], _ => by rw [Json.text, room, roomDict]; decide
  | .dict ((k, v) :: d), h => by
    rw [Fits, FitsDict] at h
    obtain ⟨-, -, ⟨s, rfl, hs⟩, h2, h3⟩ := h
    have := quote_weight s
    have := json_room v h2
    have := json_roomMembers d h3
    rw [Json.text, room, roomDict, room, char_weight _ _ (by decide), weight_append, char_weight _ _ (by decide),
      char_weight _ _ (by decide), weight_append, Json.keyText]
    omega
  | .obj .., h => by rw [Fits] at h; exact h.elim
theorem json_roomTail : ∀ l : List Value, FitsList commonLimits l → weight (Json.textTail l) ≤ 1 + roomList l
  | [], _ => by rw [Json.textTail, roomList]; decide
  | v :: l, h => by
    rw [FitsList] at h
    have := json_room v h.1
    have := json_roomTail l h.2
    rw [Json.textTail, roomList, char_weight _ _ (by decide), char_weight _ _ (by decide), weight_append]
    omega
theorem json_roomMembers : ∀ d : List (Value × Value), FitsDict commonLimits d → weight (Json.textMembers d) ≤ 1 + roomDict d
  | [], _ => by rw [Json.textMembers, roomDict]; decide
  | (k, v) :: d, h => by
    rw [FitsDict] at h
    obtain ⟨⟨s, rfl, hs⟩, h2, h3⟩ := h
    have := quote_weight s
    have := json_room v h2
    have := json_roomMembers d h3
    rw [Json.textMembers, roomDict, room, char_weight _ _ (by decide), char_weight _ _ (by decide), weight_append,
      char_weight _ _ (by decide), char_weight _ _ (by decide), weight_append, Json.keyText]
    omega
end

end Wamp.Spec.Room
