import Verif.Proofs.OneReading
import Verif.Props.Formats

/-! # C100: numbers with a fraction -/

namespace Wamp.Spec
set_option exponentiation.threshold 2000

/-! ## Reading JSON -/

/-- A number with a fraction or an exponent, on its own -/
theorem C100_number (n : Numeral) (h : n.fraction ≠ [] ∨ n.expo ≠ none) :
    ∃ r, Json.loads (String.ofList n.text) = .ok (.float r) ∧ ReadAs n r :=
  ⟨_, Json.loads_numeral n h, readAs_nearest n⟩

/-- There is one such double. -/
theorem C100_one_double (n : Numeral) (x y : PyFloat) (hx : ReadAs n x) (hy : ReadAs n y) : x = y := PyFloat.readAs_unique hx hy

/-- The number as the argument of a call -/
theorem C100_argument (n : Numeral) (h : n.fraction ≠ [] ∨ n.expo ≠ none) :
    ∃ r, Json.codec.deserialize (String.ofList ("[48, 1, {}, \"p\", [".toList ++ n.text ++ "]]".toList)) =
      .ok (.call { requestId := 1, procedure := "p", args := some [.float r] }) ∧ ReadAs n r := by
  refine ⟨_, ?_, readAs_nearest n⟩
  have hv : ∀ (k : Nat) (t : List Char), Json.value (k + 1) (n.text ++ (']' :: t)) = _ := fun k t =>
    Json.value_numeral n h (r := ']' :: t) (Json.stop_cons (by decide) t) k
  obtain ⟨_, c, t, e, hs, _⟩ := Json.number_numeral n h (r := []) (by intro c hc; cases hc)
  have hc : c ≠ ']' := by rintro rfl; rcases hs with hs | hs <;> revert hs <;> decide
  have hsk : ∀ u, Json.skip (n.text ++ u) = n.text ++ u := by intro u; rw [e, List.cons_append, Json.skip_cons hs.space]
  generalize hF : Value.float (PyFloat.ofMag n.neg (PyFloat.nearest n.magnitude)) = F at *
  -- the list of arguments
  have h5 : ∀ (k : Nat) (u : List Char), Json.value (k + 2) ('[' :: (n.text ++ (']' :: u))) = .ok (.list [F], u) := by
    intro k u
    have h1 := hv k u
    have h2 := hsk (']' :: u)
    rw [e, List.cons_append] at h1 h2 ⊢
    rw [Json.value.eq_def]
    simp only [show ¬ ('[' = '"') by decide, show ¬ ('[' = '{') by decide, if_false, if_true, h2, hc]
    rw [Json.elements, h1]
    simp only [bind, Except.bind, Json.skip_cons (show Json.isSpace ']' = false by decide)]
    simp
  have step : ∀ (g : List Char → Except Exc (Value × List Char)) (k : Nat) (v : Value) (cs r r' : List Char) (l : List Value),
      g cs = .ok (v, ',' :: ' ' :: r) → Json.skip r = r → Json.elements g k r = .ok (l, r') →
      Json.elements g (k + 1) cs = .ok (v :: l, r') := by
    intro g k v cs r r' l h1 h2 h3
    rw [Json.elements, h1]
    simp only [bind, Except.bind, Json.skip_cons (show Json.isSpace ',' = false by decide)]
    have h4 : Json.skip (' ' :: r) = r := by
      exact h2
    simp only [h4, h3, if_true]
  have hl : Json.loads (String.ofList ("[48, 1, {}, \"p\", [".toList ++ n.text ++ "]]".toList)) =
      .ok (.list [.int 48, .int 1, .dict [], .str "p", .list [F]]) := by
    rw [Json.loads, String.toList_ofList]
    have htl : ("[48, 1, {}, \"p\", [".toList ++ n.text ++ "]]".toList) =
        '[' :: '4' :: '8' :: ',' :: ' ' :: '1' :: ',' :: ' ' :: '{' :: '}' :: ',' :: ' ' :: '"' :: 'p' :: '"' :: ',' :: ' ' :: '[' ::
          (n.text ++ (']' :: [']'])) := by simp
    rw [htl]
    generalize hlen : (('[' :: '4' :: '8' :: ',' :: ' ' :: '1' :: ',' :: ' ' :: '{' :: '}' :: ',' :: ' ' :: '"' :: 'p' :: '"' :: ',' :: ' ' :: '[' ::
          (n.text ++ (']' :: [']'])) : List Char).length) = k
    have hk : ∃ j, k = j + 20 := ⟨n.text.length, by rw [← hlen]; simp⟩
    obtain ⟨j, rfl⟩ := hk
    have hp : ∀ u, Json.value (j + 20) ('"' :: 'p' :: '"' :: u) = .ok (.str "p", u) := by
      intro u
      have ht : Json.text (.str "p") = ['"', 'p', '"'] := by decide
      have := Json.value_text (j + 20) (.str "p") trivial (by rw [ht]; simp) u (by rintro (⟨_, h⟩ | ⟨_, h⟩) <;> cases h)
      rwa [ht] at this
    have hval : Json.value (j + 20 + 1) ('[' :: '4' :: '8' :: ',' :: ' ' :: '1' :: ',' :: ' ' :: '{' :: '}' :: ',' :: ' ' :: '"' :: 'p' :: '"' :: ',' :: ' ' :: '[' ::
          (n.text ++ (']' :: [']']))) = .ok (.list [.int 48, .int 1, .dict [], .str "p", .list [F]], []) := by
      rw [Json.value.eq_def]
      simp only [show ¬ ('[' = '"') by decide, show ¬ ('[' = '{') by decide, if_false, if_true,
        Json.skip_cons (show Json.isSpace '4' = false by decide), show ¬ ('4' = ']') by decide]
      rw [List.length_cons, List.length_cons, List.length_cons, List.length_cons, List.length_cons]
      rw [step _ _ (.int 48) _ _ [] _ rfl rfl (step _ _ (.int 1) _ _ [] _ rfl rfl (step _ _ (.dict []) _ _ [] _ rfl rfl
        (step _ _ (.str "p") _ ('[' :: (n.text ++ [']', ']'])) [] [.list [F]] (hp _) rfl ?_)))]
      · rfl
      · rw [Json.elements, h5]; rfl
    have hsk0 : ∀ t, Json.skip ('[' :: t) = '[' :: t := fun t => Json.skip_cons (by decide) _
    rw [hsk0, hval]
    rfl
  show (do let w ← Json.loads _; toMessage w) = _
  rw [hl]
  rfl

/-- 0.1, and 2^53 + 1, which lies between two doubles -/
example : (⟨false, 0, [1], none⟩ : Numeral).text = "0.1".toList ∧
    (⟨true, 9007199254740993, [], some ⟨true, some true, 0, []⟩⟩ : Numeral).text = "-9007199254740993E-0".toList ∧
    Json.loads "0.1" = .ok (.float ⟨0x3fb999999999999a#64⟩) ∧
    Json.loads "-9007199254740993E-0" = .ok (.float ⟨0xc340000000000000#64⟩) ∧
    Json.loads "1e309" = .ok (.float ⟨0x7ff0000000000000#64⟩) ∧ Json.loads "-1e-400" = .ok (.float ⟨0x8000000000000000#64⟩) := by
  decide +kernel

/-! ## Doubles in the three formats -/

/-- A double is written, and read as the same double, bit for bit: its sign is kept if it is a zero, an infinity is an infinity. -/
theorem C100_restored (f : Format) (x : PyFloat) (h : f ≠ .msgpack → PlainFloat x) :
    ∃ w, f.codec.dumps (.float x) = .ok w ∧ f.codec.loads w = .ok (.float x) := by
  apply C88_restores
  cases f
  · exact h (by decide)
  · trivial
  · exact h (by decide)

/-- A result read in one format and sent in another is the same double. -/
theorem C100_relayed (f g : Format) (x : PyFloat) (h : PlainFloat x) :
    ∃ w w', f.codec.dumps (.float x) = .ok w ∧ (f.codec.loads w).bind g.codec.dumps = .ok w' ∧
      g.codec.loads w' = .ok (.float x) := by
  obtain ⟨w, h1, h2⟩ := C100_restored f x fun _ => h
  obtain ⟨w', h3, h4⟩ := C100_restored g x fun _ => h
  exact ⟨w, w', h1, by rw [h2]; exact h3, h4⟩

/-- Half of the least double above zero is no double; the least double, the largest one, and negative zero -/
example : PlainFloat ⟨1#64⟩ ∧ PlainFloat ⟨0x7fefffffffffffff#64⟩ ∧ PlainFloat ⟨0x8000000000000000#64⟩ ∧
    Json.dumps (.float ⟨1#64⟩) = .ok "5e-324" ∧ Json.dumps (.float ⟨0x7fefffffffffffff#64⟩) = .ok "1.7976931348623157e+308" ∧
    Json.dumps (.float ⟨0x8000000000000000#64⟩) = .ok "-0.0" ∧
    ¬ PlainFloat ⟨0x7ff8000000000001#64⟩ ∧ Json.dumps (.float ⟨0x7ff8000000000001#64⟩) = .ok "NaN" := by
  refine ⟨?_, ?_, ?_, ?_⟩
  · intro h; revert h; decide
  · intro h; revert h; decide
  · intro h; revert h; decide
  · refine ⟨by decide +kernel, by decide +kernel, by decide +kernel, ?_, by decide +kernel⟩
    intro h
    exact absurd (h (by decide)) (by decide)

/-! ## Shorter floats -/

/-- A float of 32 bits, which other programs may send, is read as the double of the same value (MessagePack). -/
theorem C100_msgpack_single (n : Nat) (hn : n < 2 ^ 32) (h : ShortFinite 8 23 n) :
    ∃ r, MsgPack.loads (0xca :: be 4 n) = .ok (.float r) ∧ IsFinite r ∧ real r = shortReal 8 23 n ∧ r.sign = decide (2 ^ 31 ≤ n) := by
  obtain ⟨r, h1, h2, h3, h4⟩ := PyFloat.widen_real (eb := 8) (fb := 23) (by norm_num) (by norm_num) (by norm_num) h
  refine ⟨r, ?_, h2, h3, by rw [h4, decide_eq_decide]; omega⟩
  have ht := takeNat_be MsgPack.incomplete (k := 4) (n := n) (by omega) []
  rw [List.append_nil] at ht
  have hu : MsgPack.unpack ((0xca :: be 4 n).length + 1) (0xca :: be 4 n) = .ok (.float r, []) := by
    show MsgPack.withNum 4 MsgPack.unpackFloat (be 4 n) = _
    rw [MsgPack.withNum, ht]
    show MsgPack.unpackFloat n [] = _
    rw [MsgPack.unpackFloat, h1]
  rw [MsgPack.loads, hu]; rfl

/-- So is one of 32 bits in CBOR, -/
theorem C100_cbor_single (n : Nat) (hn : n < 2 ^ 32) (h : ShortFinite 8 23 n) :
    ∃ r, Cbor.loads (0xfa :: be 4 n) = .ok (.float r) ∧ IsFinite r ∧ real r = shortReal 8 23 n ∧ r.sign = decide (2 ^ 31 ≤ n) := by
  obtain ⟨r, h1, h2, h3, h4⟩ := PyFloat.widen_real (eb := 8) (fb := 23) (by norm_num) (by norm_num) (by norm_num) h
  refine ⟨r, ?_, h2, h3, by rw [h4, decide_eq_decide]; omega⟩
  have ht := takeNat_be Cbor.eof (k := 4) (n := n) (by omega) []
  rw [List.append_nil] at ht
  have hu : Cbor.decode ((0xfa :: be 4 n).length + 1) (0xfa :: be 4 n) = .ok (.float r, []) := by
    show (do let (n, r) ← takeNat Cbor.eof 4 (be 4 n); Cbor.decodeShort 8 23 n r) = _
    rw [ht]
    show Cbor.decodeShort 8 23 n [] = _
    rw [Cbor.decodeShort, h1]
  rw [Cbor.loads, hu]; rfl

/-- and one of 16 bits. -/
theorem C100_cbor_half (n : Nat) (hn : n < 2 ^ 16) (h : ShortFinite 5 10 n) :
    ∃ r, Cbor.loads (0xf9 :: be 2 n) = .ok (.float r) ∧ IsFinite r ∧ real r = shortReal 5 10 n ∧ r.sign = decide (2 ^ 15 ≤ n) := by
  obtain ⟨r, h1, h2, h3, h4⟩ := PyFloat.widen_real (eb := 5) (fb := 10) (by norm_num) (by norm_num) (by norm_num) h
  refine ⟨r, ?_, h2, h3, by rw [h4, decide_eq_decide]; omega⟩
  have ht := takeNat_be Cbor.eof (k := 2) (n := n) (by omega) []
  rw [List.append_nil] at ht
  have hu : Cbor.decode ((0xf9 :: be 2 n).length + 1) (0xf9 :: be 2 n) = .ok (.float r, []) := by
    show (do let (n, r) ← takeNat Cbor.eof 2 (be 2 n); Cbor.decodeShort 5 10 n r) = _
    rw [ht]
    show Cbor.decodeShort 5 10 n [] = _
    rw [Cbor.decodeShort, h1]
  rw [Cbor.loads, hu]; rfl

/-- 1.5 in 16 and in 32 bits -/
example : ShortFinite 5 10 0x3e00 ∧ shortReal 5 10 0x3e00 = 3 / 2 ∧ ShortFinite 8 23 0x3fc00000 ∧ shortReal 8 23 0x3fc00000 = 3 / 2 ∧
    Cbor.loads [0xf9, 0x3e, 0] = .ok (.float ⟨0x3ff8000000000000#64⟩) ∧
    MsgPack.loads [0xca, 0x3f, 0xc0, 0, 0] = .ok (.float ⟨0x3ff8000000000000#64⟩) := by
  refine ⟨by unfold ShortFinite; norm_num, by unfold shortReal; norm_num, by unfold ShortFinite; norm_num, by unfold shortReal; norm_num, ?_⟩
  decide +kernel

end Wamp.Spec
