import Verif.Model.RawSocket

/-! # RawSocket properties C13–C16 -/

namespace Wamp.RawSocket

theorem loop_three (a b c : UInt8) : bytesToIntLoop [c, b, a] 0 0 = a.toNat * 65536 + b.toNat * 256 + c.toNat := by
  have ha := a.toNat_lt; have hb := b.toNat_lt; have hc := c.toNat_lt
  simp only [bytesToIntLoop, Nat.zero_or, Nat.shiftLeft_zero, Nat.zero_add]
  rw [Nat.or_comm c.toNat, ← Nat.shiftLeft_add_eq_or_of_lt (by omega)]
  rw [Nat.or_comm, ← Nat.shiftLeft_add_eq_or_of_lt (by simp [Nat.shiftLeft_eq]; omega)]
  simp only [Nat.shiftLeft_eq]; omega

theorem bytesToInt_three (a b c : UInt8) :
    bytesToInt [a, b, c] = a.toNat * 65536 + b.toNat * 256 + c.toNat := by
  simp only [bytesToInt, List.reverse_cons, List.reverse_nil, List.nil_append, List.cons_append, loop_three]
  omega

theorem toByte_ok (x : Int) (h0 : 0 ≤ x) (h1 : x < 256) : ∃ b : UInt8, toByte x = .ok b ∧ (b.toNat : Int) = x := by
  refine ⟨UInt8.ofNat x.toNat, by simp [toByte, h0, h1], ?_⟩
  simp only [UInt8.toNat_ofNat']
  omega

theorem toByte_toNat (b : UInt8) : toByte b.toNat = .ok b := by
  have := b.toNat_lt
  simp [toByte]; omega

theorem toByte_eq_ok {x : Int} {b : UInt8} : toByte x = .ok b ↔ (b.toNat : Int) = x := by
  constructor
  · intro h
    unfold toByte at h
    split at h
    · rename_i hx
      obtain ⟨b', h1, h2⟩ := toByte_ok x hx.1 hx.2
      simp [toByte, hx] at h1
      cases h; rw [h1]; exact h2
    · cases h
  · rintro rfl; exact toByte_toNat b

theorem intToBytes_eq (i : Int) : ∃ a b c : UInt8, intToBytes i = .ok [a, b, c] ∧
    (a.toNat : Int) = i / 65536 % 256 ∧ (b.toNat : Int) = i / 256 % 256 ∧ (c.toNat : Int) = i % 256 := by
  obtain ⟨a, ha, ha'⟩ := toByte_ok (andFF (shr i 16)) (by unfold andFF; omega) (by unfold andFF; omega)
  obtain ⟨b, hb, hb'⟩ := toByte_ok (andFF (shr i 8)) (by unfold andFF; omega) (by unfold andFF; omega)
  obtain ⟨c, hc, hc'⟩ := toByte_ok (andFF i) (by unfold andFF; omega) (by unfold andFF; omega)
  refine ⟨a, b, c, by simp [intToBytes, ha, hb, hc, bind, Except.bind, pure, Except.pure], ?_, ?_, ?_⟩
  · rw [ha']; rfl
  · rw [hb']; rfl
  · rw [hc']; rfl

/-! ## C13 — header round trip -/

/-- The header of kind `k` and length `l` is the four bytes `k, l / 2^16, l / 2^8, l` (big endian), and decodes to the
same kind and length. -/
theorem C13_header_round_trip (k l : Int) (hk : 0 ≤ k ∧ k < 256) (hl : 0 ≤ l ∧ l < 2 ^ 24) :
    ∃ b : List UInt8, (MessageHeader.mk k l).toBytes = .ok b ∧ b.length = 4 ∧
      b.map (fun x => (x.toNat : Int)) = [k, l / 65536, l / 256 % 256, l % 256] ∧
      MessageHeader.fromBytes b = .ok ⟨k, l⟩ := by
  obtain ⟨a, b, c, h, ha, hb, hc⟩ := intToBytes_eq l
  obtain ⟨d, hd, hd'⟩ := toByte_ok k hk.1 hk.2
  refine ⟨[d, a, b, c], ?_, rfl, ?_, ?_⟩
  · simp [MessageHeader.toBytes, h, hd, bind, Except.bind, pure, Except.pure]
  · simp only [List.map, hd', ha, hb, hc]
    have : l / 65536 % 256 = l / 65536 := by omega
    rw [this]
  · simp only [MessageHeader.fromBytes, bytesToInt_three, hd', Except.ok.injEq, MessageHeader.mk.injEq, true_and]
    omega

example : (MessageHeader.mk 1 70000).toBytes = .ok [1, 1, 17, 112] := by decide

/-- Every four bytes decode to a header that encodes to the same four bytes. -/
theorem C13_header_decode_encode (b : List UInt8) (h : b.length = 4) :
    ∃ hd, MessageHeader.fromBytes b = .ok hd ∧ hd.toBytes = .ok b ∧ (0 ≤ hd.kind ∧ hd.kind < 256) ∧
      (0 ≤ hd.length ∧ hd.length < 2 ^ 24) := by
  match b, h with
  | [d, a, b, c], _ =>
    refine ⟨⟨d.toNat, bytesToInt [a, b, c]⟩, rfl, ?_, ?_, ?_⟩
    · obtain ⟨a', b', c', h, ha, hb, hc⟩ := intToBytes_eq (bytesToInt [a, b, c])
      have h1 := a.toNat_lt; have h2 := b.toNat_lt; have h3 := c.toNat_lt
      rw [bytesToInt_three] at ha hb hc
      have e1 : a' = a := UInt8.toNat_inj.1 (by omega)
      have e2 : b' = b := UInt8.toNat_inj.1 (by omega)
      have e3 : c' = c := UInt8.toNat_inj.1 (by omega)
      rw [e1, e2, e3] at h
      simp [MessageHeader.toBytes, h, toByte_toNat, bind, Except.bind, pure, Except.pure]
    · have := d.toNat_lt; simp only; omega
    · have h1 := a.toNat_lt; have h2 := b.toNat_lt; have h3 := c.toNat_lt
      simp only [bytesToInt_three]; omega

example : MessageHeader.fromBytes [2, 0, 1, 3] = .ok ⟨2, 259⟩ := by decide

/-- A kind that is not a byte is refused with `ValueError`. -/
theorem C13_bad_kind (k l : Int) (hk : ¬ (0 ≤ k ∧ k < 256)) : ∃ s, (MessageHeader.mk k l).toBytes = .error (.valueError s) := by
  obtain ⟨a, b, c, h, -⟩ := intToBytes_eq l
  have : toByte k = .error (.valueError "bytes must be in range(0, 256)") := by simp only [toByte, if_neg hk]
  exact ⟨"bytes must be in range(0, 256)", by simp [MessageHeader.toBytes, h, this, bind, Except.bind]⟩

/-! ## C14 — never misreport a length -/

/-- The claim is false: a length of `2^24` is sent as 0. -/
theorem C14_length_false : ¬ ∀ k l : Int, 0 ≤ k ∧ k < 256 → ¬ (0 ≤ l ∧ l < 2 ^ 24) →
    ∃ e, (MessageHeader.mk k l).toBytes = .error e := by
  intro h
  obtain ⟨e, he⟩ := h 0 (2 ^ 24) (by omega) (by omega)
  have : (MessageHeader.mk 0 (2 ^ 24)).toBytes = .ok [0, 0, 0, 0] := by decide
  rw [this] at he; cases he

/-- What is true: for every length at all the peer reads the length modulo `2^24`; so it is right exactly for lengths
that fit.  Missing: a failure for the others. -/
theorem C14_length_partial (k l : Int) (hk : 0 ≤ k ∧ k < 256) :
    ∃ b, (MessageHeader.mk k l).toBytes = .ok b ∧ MessageHeader.fromBytes b = .ok ⟨k, l % 2 ^ 24⟩ ∧
      (MessageHeader.fromBytes b = .ok ⟨k, l⟩ ↔ 0 ≤ l ∧ l < 2 ^ 24) := by
  obtain ⟨a, b, c, h, ha, hb, hc⟩ := intToBytes_eq l
  obtain ⟨d, hd, hd'⟩ := toByte_ok k hk.1 hk.2
  have hf : MessageHeader.fromBytes [d, a, b, c] = .ok ⟨k, l % 2 ^ 24⟩ := by
    simp only [MessageHeader.fromBytes, bytesToInt_three, hd', Except.ok.injEq, MessageHeader.mk.injEq, true_and]
    omega
  refine ⟨[d, a, b, c], ?_, hf, ?_⟩
  · simp [MessageHeader.toBytes, h, hd, bind, Except.bind, pure, Except.pure]
  · rw [hf]; simp only [Except.ok.injEq, MessageHeader.mk.injEq, true_and]; omega

/-! ## C15 — handshake round trip -/

theorem and_15 (n : Nat) : n &&& 15 = n % 16 := Nat.and_two_pow_sub_one_eq_mod n 4
theorem shr_4 (n : Nat) : n >>> 4 = n / 16 := by simp [Nat.shiftRight_eq_div_pow]

theorem sendHandshake_eq (p s : Int) (hs : 0 < s) : sendHandshake ⟨p, s⟩ =
    (toByte (((Nat.log2 s.toNat : Nat) - 9 : Int) * 16 + p % 16)).map fun b => [0x7F, b, 0, 0] := by
  have h1 : toByte MAGIC = .ok 0x7F := by decide
  have h2 : intLog2 s = .ok (Nat.log2 s.toNat : Int) := by simp [intLog2]; omega
  simp only [sendHandshake, h1, h2, bind, Except.bind]
  cases toByte (((Nat.log2 s.toNat : Nat) - 9 : Int) * 16 + p % 16) <;> rfl

/-- For every size from `2^9` up to below `2^25` the handshake is sent and decodes to the low four bits of the protocol
and the largest power of two not above the size. -/
theorem C15_handshake_round_trip (p s : Int) (k : Nat) (hk : 9 ≤ k ∧ k ≤ 24) (hs : 2 ^ k ≤ s ∧ s < 2 ^ (k + 1)) :
    ∃ b, sendHandshake ⟨p, s⟩ = .ok b ∧ b.length = 4 ∧ receiveHandshake b = .ok ⟨p % 16, 2 ^ k⟩ := by
  have hpos : (0 : Int) < s := by
    have : (0 : Int) < 2 ^ k := Int.pow_pos (by decide)
    omega
  have hlog : Nat.log2 s.toNat = k := by
    have h0 : s.toNat ≠ 0 := by omega
    have hc : ((2 ^ k : Nat) : Int) = 2 ^ k := by norm_cast
    have hc' : ((2 ^ (k + 1) : Nat) : Int) = 2 ^ (k + 1) := by norm_cast
    apply Nat.le_antisymm
    · have := (Nat.log2_lt h0 (k := k + 1)).2 (by omega); omega
    · exact (Nat.le_log2 h0).2 (by omega)
  rw [sendHandshake_eq p s hpos, hlog]
  obtain ⟨b, hb, hb'⟩ := toByte_ok (((k : Int) - 9) * 16 + p % 16) (by omega) (by omega)
  refine ⟨[0x7F, b, 0, 0], by rw [hb]; rfl, rfl, ?_⟩
  have h1 : b.toNat &&& 15 = b.toNat % 16 := and_15 _
  have h2 : (b.toNat >>> 4) + 9 = k := by rw [shr_4]; omega
  simp only [receiveHandshake]
  have hm : ¬ (((0x7F : UInt8).toNat : Int) ≠ MAGIC) := by decide
  rw [if_neg hm, if_neg (by simp), h1, h2]
  simp only [Except.ok.injEq, Handshake.mk.injEq]
  refine ⟨by omega, ?_⟩
  rw [Nat.one_shiftLeft]; norm_cast

/-- In particular for a power of two in range and a protocol nibble, protocol and size come back unchanged. -/
theorem C15_handshake_exact (p : Int) (k : Nat) (hp : 0 ≤ p ∧ p < 16) (hk : 9 ≤ k ∧ k ≤ 24) :
    ∃ b, sendHandshake ⟨p, 2 ^ k⟩ = .ok b ∧ receiveHandshake b = .ok ⟨p, 2 ^ k⟩ := by
  obtain ⟨b, h1, -, h2⟩ := C15_handshake_round_trip p (2 ^ k) k hk
    ⟨Int.le_refl _, by rw [Int.pow_succ]; have : (0 : Int) < 2 ^ k := Int.pow_pos (by decide)
                       omega⟩
  exact ⟨b, h1, by rw [h2]; congr 2; omega⟩

/-- Every other size is refused with `ValueError`. -/
theorem C15_other_sizes_fail (p s : Int) (hs : s < 2 ^ 9 ∨ 2 ^ 25 ≤ s) :
    ∃ e, sendHandshake ⟨p, s⟩ = .error (.valueError e) := by
  by_cases h0 : s ≤ 0
  · have h1 : toByte MAGIC = .ok 0x7F := by decide
    refine ⟨"math domain error", ?_⟩
    simp [sendHandshake, h1, intLog2, h0, bind, Except.bind]
  · rw [sendHandshake_eq p s (by omega)]
    have hne : s.toNat ≠ 0 := by omega
    have : ¬ (0 ≤ ((Nat.log2 s.toNat : Nat) - 9 : Int) * 16 + p % 16 ∧
        ((Nat.log2 s.toNat : Nat) - 9 : Int) * 16 + p % 16 < 256) := by
      rcases hs with hs | hs
      · have := (Nat.log2_lt hne (k := 9)).2 (by omega); omega
      · have := (Nat.le_log2 hne (k := 25)).2 (by omega); omega
    exact ⟨_, by simp only [toByte, if_neg this]; rfl⟩

example : sendHandshake ⟨1, 2 ^ 24⟩ = .ok [0x7F, 0xF1, 0, 0] := by decide
example : (9 ≤ 19 ∧ 19 ≤ 24) ∧ ((2 : Int) ^ 19 ≤ 1000000 ∧ (1000000 : Int) < 2 ^ (19 + 1)) := by decide

/-! ## C16 — handshake validation -/

/-- The claim is false: one non-zero reserved byte is let through. -/
theorem C16_validation_false : ¬ ∀ b : List UInt8, (∃ hs, receiveHandshake b = .ok hs) ↔
    ∃ d1 : UInt8, b = [0x7F, d1, 0, 0] := by
  intro h
  obtain ⟨d, hd⟩ := (h [0x7F, 0xF1, 1, 0]).1 ⟨⟨1, 2 ^ 24⟩, by decide⟩
  simp at hd

/-- What is true: exactly the four-byte strings that start with the magic byte and have at least one reserved byte zero
are accepted, everything else raises `ValueError`.  Missing: both reserved bytes zero. -/
theorem C16_validation_partial (b : List UInt8) :
    ((∃ hs, receiveHandshake b = .ok hs) ↔ ∃ d1 d2 d3 : UInt8, b = [0x7F, d1, d2, d3] ∧ (d2 = 0 ∨ d3 = 0)) ∧
    (∀ e, receiveHandshake b = .error e → ∃ s, e = .valueError s) ∧
    (∀ d1, ∃ hs, receiveHandshake [0x7F, d1, 0, 0] = .ok hs) := by
  have hmag : ∀ d : UInt8, (d.toNat : Int) = MAGIC ↔ d = 0x7F := by
    intro d; rw [← UInt8.toNat_inj, show (0x7F : UInt8).toNat = 127 from rfl, MAGIC]; omega
  refine ⟨?_, ?_, fun d1 => ⟨_, by simp [receiveHandshake, MAGIC]; rfl⟩⟩
  · constructor
    · rintro ⟨hs, h⟩
      unfold receiveHandshake at h
      split at h
      · rename_i d0 d1 d2 d3
        split at h
        · cases h
        · rename_i hm
          split at h
          · cases h
          · rename_i hr
            refine ⟨d1, d2, d3, by rw [(hmag d0).1 (by simpa using hm)], ?_⟩
            by_cases h2 : d2 = 0
            · exact .inl h2
            · exact .inr (by by_cases h3 : d3 = 0; exact h3; exact absurd ⟨h2, h3⟩ hr)
      · cases h
    · rintro ⟨d1, d2, d3, rfl, h⟩
      have hr : ¬ (d2 ≠ 0 ∧ d3 ≠ 0) := by rintro ⟨h2, h3⟩; rcases h with h | h <;> contradiction
      refine ⟨⟨(d1.toNat &&& 0x0F : Nat), (1 <<< ((d1.toNat >>> 4) + 9) : Nat)⟩, ?_⟩
      simp only [receiveHandshake]
      rw [if_neg (by simp [MAGIC]), if_neg hr]
  · intro e h
    unfold receiveHandshake at h
    split at h
    · split at h
      · cases h; exact ⟨_, rfl⟩
      · split at h
        · cases h; exact ⟨_, rfl⟩
        · cases h
    · cases h; exact ⟨_, rfl⟩

end Wamp.RawSocket
