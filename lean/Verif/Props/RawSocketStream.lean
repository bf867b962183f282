import Verif.Spec.Frames
import Verif.Props.RawSocket

/-! # RawSocket streams: C78 -/

namespace Wamp.RawSocket

/-- One message read, seen as a split of the stream. -/
theorem readOne_some {bs : List UInt8} {f : Frame} {rest : List UInt8} (h : readOne bs = some (f, rest)) :
    f.Fits ∧ ∃ hd, (MessageHeader.mk f.kind f.payload.length).toBytes = .ok hd ∧ hd.length = 4 ∧ bs = hd ++ f.payload ++ rest := by
  unfold readOne at h
  split at h
  · cases h
  · rename_i h4
    have hlen : (bs.take 4).length = 4 := by rw [List.length_take]; omega
    obtain ⟨hd, h1, h2, h3, h5⟩ := C13_header_decode_encode _ hlen
    rw [h1] at h
    simp only at h
    split at h
    · cases h
    · rename_i hl
      simp only [Option.some.injEq, Prod.mk.injEq] at h
      obtain ⟨rfl, rfl⟩ := h
      have hn : ((bs.drop 4).take hd.length.toNat).length = hd.length.toNat := by rw [List.length_take]; omega
      have hi : ((hd.length.toNat : Nat) : Int) = hd.length := by omega
      refine ⟨⟨h3, by simp only [hn]; omega⟩, bs.take 4, ?_, hlen, ?_⟩
      · simp only [hn, hi]; exact h2
      · rw [List.append_assoc, List.take_append_drop, List.take_append_drop]

theorem readOne_append {f : Frame} (hf : f.Fits) {hd : List UInt8}
    (hh : (MessageHeader.mk f.kind f.payload.length).toBytes = .ok hd) (rest : List UInt8) :
    readOne (hd ++ f.payload ++ rest) = some (f, rest) := by
  obtain ⟨b, h1, h2, -, h3⟩ := C13_header_round_trip f.kind f.payload.length hf.1 ⟨by omega, by have := hf.2; omega⟩
  rw [hh] at h1; cases h1
  have e : hd ++ f.payload ++ rest = hd ++ (f.payload ++ rest) := List.append_assoc ..
  have t : (hd ++ (f.payload ++ rest)).take 4 = hd := List.take_left' h2
  have d : (hd ++ (f.payload ++ rest)).drop 4 = f.payload ++ rest := List.drop_left' h2
  unfold readOne
  rw [e, t, d, h3]
  rw [if_neg (by rw [List.length_append]; omega)]
  simp only [Int.toNat_natCast]
  rw [if_neg (by rw [List.length_append]; omega), List.take_left, List.drop_left]

/-- What was written is read: the messages come back unchanged, in order, and nothing is left. -/
theorem C78_round_trip (fs : List Frame) (h : ∀ f ∈ fs, f.Fits) : ∃ bs, writeAll fs = .ok bs ∧ Reads bs fs [] := by
  induction fs with
  | nil => exact ⟨[], rfl, .stop (by decide)⟩
  | cons f fs ih =>
    obtain ⟨bs, h1, h2⟩ := ih fun g hg => h g (List.mem_cons_of_mem _ hg)
    have hf := h f (List.mem_cons_self ..)
    obtain ⟨hd, g1, -⟩ := C13_header_round_trip f.kind f.payload.length hf.1 ⟨by omega, by have := hf.2; omega⟩
    refine ⟨hd ++ f.payload ++ bs, ?_, .more (readOne_append hf g1 bs) h2⟩
    simp only [writeAll, g1, h1, bind, Except.bind, pure, Except.pure]

/-- Every stream has a reading, and only one. -/
theorem C78_one_reading (bs : List UInt8) : ∃ fs left, Reads bs fs left ∧ ∀ fs' left', Reads bs fs' left' → fs' = fs ∧ left' = left := by
  suffices H : ∀ n (bs : List UInt8), bs.length ≤ n → ∃ fs left, Reads bs fs left from by
    obtain ⟨fs, left, h⟩ := H _ bs (Nat.le_refl _)
    refine ⟨fs, left, h, ?_⟩
    clear H
    induction h with
    | stop h => intro fs' left' h'; cases h' with
      | stop => exact ⟨rfl, rfl⟩
      | more g => rw [h] at g; cases g
    | more h _ ih => intro fs' left' h'; cases h' with
      | stop g => rw [h] at g; cases g
      | more g1 g2 =>
        rw [h] at g1; cases g1
        obtain ⟨rfl, rfl⟩ := ih _ _ g2
        exact ⟨rfl, rfl⟩
  intro n
  induction n with
  | zero =>
    intro bs h
    refine ⟨[], bs, .stop ?_⟩
    rw [List.length_eq_zero_iff.1 (by omega : bs.length = 0)]; decide
  | succ n ih =>
    intro bs h
    cases hr : readOne bs with
    | none => exact ⟨[], bs, .stop hr⟩
    | some x =>
      obtain ⟨f, rest⟩ := x
      obtain ⟨-, hd, -, h4, e⟩ := readOne_some hr
      have : bs.length = 4 + f.payload.length + rest.length := by rw [e]; simp [h4]; omega
      obtain ⟨fs, left, hh⟩ := ih rest (by omega)
      exact ⟨f :: fs, left, .more hr hh⟩

/-- Reading loses nothing: what was read, written again, followed by what is left, is the stream. -/
theorem C78_nothing_lost (bs : List UInt8) (fs : List Frame) (left : List UInt8) (h : Reads bs fs left) :
    (∀ f ∈ fs, f.Fits) ∧ ∃ w, writeAll fs = .ok w ∧ bs = w ++ left := by
  induction h with
  | stop => exact ⟨by simp, [], rfl, rfl⟩
  | @more bs f rest fs left h _ ih =>
    obtain ⟨i1, w, i2, i3⟩ := ih
    obtain ⟨hf, hd, g1, -, g2⟩ := readOne_some h
    refine ⟨by simpa using ⟨hf, i1⟩, hd ++ f.payload ++ w, ?_, by rw [g2, i3]; simp⟩
    simp only [writeAll, g1, i2, bind, Except.bind, pure, Except.pure]

/-- It does not matter how the stream is cut: reading a first part, then what was left with a second part, gives what
reading everything at once gives. -/
theorem C78_chunks (p q : List UInt8) (fs fs' : List Frame) (left left' : List UInt8) (h : Reads p fs left)
    (h' : Reads (left ++ q) fs' left') : Reads (p ++ q) (fs ++ fs') left' := by
  induction h with
  | stop => exact h'
  | more h _ ih =>
    obtain ⟨hf, hd, g1, -, g2⟩ := readOne_some h
    refine .more ?_ (ih h')
    rw [g2, List.append_assoc]
    exact readOne_append hf g1 _

/-- So after any part of a stream has arrived, the messages read are the first of those written, and the rest of the stream
gives the others. -/
theorem C78_prefix (fs : List Frame) (h : ∀ f ∈ fs, f.Fits) (p q : List UInt8) (hw : writeAll fs = .ok (p ++ q)) :
    ∃ fs1 fs2 left, fs = fs1 ++ fs2 ∧ Reads p fs1 left ∧ Reads (left ++ q) fs2 [] := by
  obtain ⟨bs, h1, h2⟩ := C78_round_trip fs h
  rw [hw] at h1; cases h1
  obtain ⟨fs1, left, g1, -⟩ := C78_one_reading p
  obtain ⟨fs2, left2, g2, -⟩ := C78_one_reading (left ++ q)
  have := C78_chunks p q fs1 fs2 left left2 g1 g2
  obtain ⟨a, b, -, hu⟩ := C78_one_reading (p ++ q)
  obtain ⟨r1, r2⟩ := hu _ _ this
  obtain ⟨r3, r4⟩ := hu _ _ h2
  refine ⟨fs1, fs2, left, by rw [r3, ← r1], g1, ?_⟩
  rw [show left2 = [] from r2.trans r4.symm] at g2; exact g2

/-- Two messages, cut in the middle of the second. -/
example : writeAll [⟨0, [5, 6]⟩, ⟨1, [7]⟩] = .ok ([0, 0, 0, 2, 5, 6, 1, 0] ++ [0, 1, 7]) ∧
    (∀ f ∈ [(⟨0, [5, 6]⟩ : Frame), ⟨1, [7]⟩], f.Fits) ∧ Reads [0, 0, 0, 2, 5, 6, 1, 0] [⟨0, [5, 6]⟩] [1, 0] := by
  refine ⟨by decide, ?_, .more (rest := [1, 0]) (by decide) (.stop (by decide))⟩
  intro f hf
  simp only [List.mem_cons, List.not_mem_nil, or_false] at hf
  rcases hf with rfl | rfl <;> exact ⟨by decide, by decide⟩

end Wamp.RawSocket
