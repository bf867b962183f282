import Verif.Proofs.Rfc4648

/-! # What `base64.b64decode` reads, exactly -/

namespace Wamp
open Spec

theorem letters64_append (a b : List Char) : letters64 (a ++ b) = letters64 a ++ letters64 b := List.filter_append ..

theorem letters64_letter (t : List Char) {c : Char} (h : c ∈ alphabet64) : letters64 (t ++ [c]) = letters64 t ++ [c] := by
  rw [letters64_append]; simp [letters64, h]

theorem letters64_other (t : List Char) {c : Char} (h : c ∉ alphabet64) : letters64 (t ++ [c]) = letters64 t := by
  rw [letters64_append]; simp [letters64, h]

theorem padding64_letter (t : List Char) {c : Char} (h : c ∈ alphabet64) : padding64 (t ++ [c]) = 0 := by
  simp [padding64, h]

theorem padding64_other (t : List Char) {c : Char} (h : c ∉ alphabet64) :
    padding64 (t ++ [c]) = padding64 t + if c = '=' then 1 else 0 := by
  simp [padding64, h, List.count_cons]

theorem filledUp_letter (t : List Char) {c : Char} (h : c ∈ alphabet64) : ¬ FilledUp (t ++ [c]) := by
  rintro ⟨-, h2⟩
  rw [padding64_letter t h] at h2
  omega

theorem filledUp_foreign (t : List Char) {c : Char} (h : c ∉ alphabet64) (hc : c ≠ '=') : FilledUp (t ++ [c]) ↔ FilledUp t := by
  rw [FilledUp, FilledUp, letters64_other t h, padding64_other t h, if_neg hc]; rfl

theorem filledUp_pad (t : List Char) : FilledUp (t ++ ['=']) ↔
    2 ≤ (letters64 t).length % 4 ∧ 4 ≤ (letters64 t).length % 4 + (padding64 t + 1) := by
  rw [FilledUp, letters64_other t (by decide), padding64_other t (by decide), if_pos rfl]

/-- What is read of `cs` when `seen` has been read -/
def ReadsTo (seen cs used rest : List Char) : Prop :=
  cs = used ++ rest ∧ (∀ u v, used = u ++ v → v ≠ [] → ¬ FilledUp (seen ++ u)) ∧
    (FilledUp (seen ++ used) ∨ rest = [] ∧ (letters64 (seen ++ used)).length % 4 = 0)

theorem ReadsTo.cons {seen cs used rest : List Char} {c : Char} (hs : ¬ FilledUp seen) (h : ReadsTo (seen ++ [c]) cs used rest) :
    ReadsTo seen (c :: cs) (c :: used) rest := by
  obtain ⟨h1, h2, h3⟩ := h
  refine ⟨by rw [h1]; rfl, ?_, by simpa using h3⟩
  intro u v e hv
  cases u with
  | nil => rw [List.append_nil]; exact hs
  | cons d u =>
    simp only [List.cons_append, List.cons.injEq] at e
    obtain ⟨rfl, e⟩ := e
    have := h2 u v e hv
    rwa [List.append_assoc] at this

theorem ReadsTo.tail {seen cs used rest : List Char} {c d : Char} (h : ReadsTo seen (c :: cs) (d :: used) rest) :
    d = c ∧ ReadsTo (seen ++ [c]) cs used rest := by
  obtain ⟨h1, h2, h3⟩ := h
  simp only [List.cons_append, List.cons.injEq] at h1
  obtain ⟨rfl, h1⟩ := h1
  refine ⟨rfl, h1, ?_, by simpa using h3⟩
  intro u v e hv
  rw [List.append_assoc]
  exact h2 (c :: u) v (by rw [e]; rfl) hv

theorem b64loop_exact (cs seen : List Char) (q l p : Nat) (b : Bytes) (hq : q = (letters64 seen).length % 4)
    (hp : 2 ≤ q → p = padding64 seen) (hn : ¬ FilledUp seen) (hl : l < 2 ^ b64carry q) (h : b64loop cs q l p = .ok b) :
    ∃ used rest fill B, ReadsTo seen cs used rest ∧
      Stands alphabet64 6 (letters64 used) B ∧ natBits (b64carry q) l ++ B = bits b ++ fill ∧ fill.length < 6 := by
  have hq4 : q < 4 := by omega
  induction cs generalizing seen q l p b with
  | nil =>
    unfold b64loop at h
    split at h
    · rename_i hq0
      cases h
      refine ⟨[], [], [], [], ⟨rfl, ?_, .inr ⟨rfl, by rw [List.append_nil, ← hq, hq0]⟩⟩, .nil, by rw [hq0]; rfl, by decide⟩
      intro u v e hv
      exact absurd (List.append_eq_nil_iff.1 e.symm).2 hv
    · cases h
  | cons c cs ih =>
    unfold b64loop at h
    -- a character that is not a letter
    have skip : ∀ p, c ∉ alphabet64 → (2 ≤ q → p = padding64 (seen ++ [c])) → ¬ FilledUp (seen ++ [c]) →
        b64loop cs q l p = .ok b →
        ∃ used rest fill B, ReadsTo seen (c :: cs) used rest ∧
          Stands alphabet64 6 (letters64 used) B ∧ natBits (b64carry q) l ++ B = bits b ++ fill ∧ fill.length < 6 := by
      intro p hc hp' hn' h
      obtain ⟨used, rest, fill, B, h1, h3, h4, h5⟩ := ih (seen ++ [c]) q l p b (by rw [letters64_other _ hc]; exact hq) hp' hn' hl h hq4
      refine ⟨c :: used, rest, fill, B, h1.cons hn, ?_, h4, h5⟩
      rw [letters64, List.filter_cons_of_neg (by simpa using hc)]; exact h3
    split at h
    · rename_i hc; subst hc
      have hnl : '=' ∉ alphabet64 := by decide
      split at h
      · rename_i hq2
        have hp2 := hp hq2
        split at h
        · rename_i hfull
          cases h
          refine ⟨['='], cs, natBits (b64carry q) l, [], ⟨rfl, ?_, .inl ((filledUp_pad seen).2 ⟨by omega, by omega⟩)⟩, ?_, by simp [bits], ?_⟩
          · intro u v e hv
            cases u with
            | nil => rw [List.append_nil]; exact hn
            | cons d u =>
              simp only [List.cons_append, List.cons.injEq] at e
              exact absurd (List.append_eq_nil_iff.1 e.2.symm).2 hv
          · rw [letters64, List.filter_cons_of_neg (by decide)]; exact .nil
          · rw [length_natBits]
            clear hq hp ih skip hp2 hfull hl
            match q, hq2, hq4 with
            | 2, _, _ => decide
            | 3, _, _ => decide
        · rename_i hfull
          refine skip (p + 1) hnl (fun _ => by rw [padding64_other _ hnl, if_pos rfl, hp2]) ?_ h
          rw [filledUp_pad]; omega
      · rename_i hq2
        refine skip p hnl (fun h => absurd h hq2) ?_ h
        rw [filledUp_pad]; omega
    · rename_i hc
      cases hv : b64Val c with
      | none =>
        rw [hv] at h
        have hnl := b64Val_none.1 hv
        refine skip p hnl (fun h => by rw [padding64_other _ hnl, if_neg hc]; exact hp h) ?_ h
        rw [filledUp_foreign _ hnl hc]; exact hn
      | some v =>
        rw [hv] at h
        obtain ⟨hs, hv64⟩ := b64Val_some hv
        have hmem : c ∈ alphabet64 := List.mem_of_getElem? hs
        have hlen : (letters64 (seen ++ [c])).length = (letters64 seen).length + 1 := by rw [letters64_letter _ hmem]; simp
        have fin : ∀ q' l' bs, q' = (q + 1) % 4 → l' < 2 ^ b64carry q' → b64loop cs q' l' 0 = .ok bs →
            (∀ B fill, natBits (b64carry q') l' ++ B = bits bs ++ fill →
              natBits (b64carry q) l ++ (natBits 6 v ++ B) = bits b ++ fill) →
            ∃ used rest fill B, ReadsTo seen (c :: cs) used rest ∧
              Stands alphabet64 6 (letters64 used) B ∧ natBits (b64carry q) l ++ B = bits b ++ fill ∧ fill.length < 6 := by
          intro q' l' bs hq' hl' h hb
          obtain ⟨used, rest, fill, B, h1, h3, h4, h5⟩ := ih (seen ++ [c]) q' l' 0 bs (by rw [hlen]; omega)
            (fun _ => (padding64_letter _ hmem).symm) (filledUp_letter _ hmem) hl' h (by omega)
          refine ⟨c :: used, rest, fill, _, h1.cons hn, ?_, hb B fill h4, h5⟩
          rw [letters64, List.filter_cons_of_pos (by simpa using hmem)]; exact .cons hs h3
        have split8 : ∀ (q' l' x : Nat), (b64loop cs q' l' 0).map (UInt8.ofNat x :: ·) = .ok b →
            ∃ bs, b64loop cs q' l' 0 = .ok bs ∧ b = UInt8.ofNat x :: bs := by
          intro q' l' x h
          cases hb : b64loop cs q' l' 0 with
          | error e => rw [hb] at h; cases h
          | ok bs => rw [hb] at h; cases h; exact ⟨bs, rfl, rfl⟩
        clear hq hp ih skip
        match q, hq4 with
        | 0, _ =>
          refine fin 1 v b rfl hv64 h ?_
          intro B fill e
          simp only [b64carry, natBits] at *
          have : l = 0 := by simp at hl; exact hl
          simpa using e
        | 1, _ =>
          obtain ⟨bs, h1, h2⟩ := split8 _ _ _ h
          have hl' : l < 64 := hl
          refine fin 2 (v % 16) bs rfl (by show v % 16 < 16; omega) h1 ?_
          intro B fill e
          have e1 : natBits 8 (l * 4 + v / 16) = natBits 6 l ++ natBits 2 (v / 16) := natBits_add 6 2 l (v / 16) (by omega)
          have e2 := natBits_add 2 4 (v / 16) (v % 16) (by omega)
          rw [show v / 16 * 2 ^ 4 + v % 16 = v by omega] at e2
          simp only [b64carry] at e ⊢
          rw [h2, bits_cons, UInt8.toNat_ofNat', Nat.mod_eq_of_lt (by omega), e1, List.append_assoc, ← e, e2]
          simp only [List.append_assoc]
        | 2, _ =>
          obtain ⟨bs, h1, h2⟩ := split8 _ _ _ h
          have hl' : l < 16 := hl
          refine fin 3 (v % 4) bs rfl (by show v % 4 < 4; omega) h1 ?_
          intro B fill e
          have e1 : natBits 8 (l * 16 + v / 4) = natBits 4 l ++ natBits 4 (v / 4) := natBits_add 4 4 l (v / 4) (by omega)
          have e2 := natBits_add 4 2 (v / 4) (v % 4) (by omega)
          rw [show v / 4 * 2 ^ 2 + v % 4 = v by omega] at e2
          simp only [b64carry] at e ⊢
          rw [h2, bits_cons, UInt8.toNat_ofNat', Nat.mod_eq_of_lt (by omega), e1, List.append_assoc, ← e, e2]
          simp only [List.append_assoc]
        | 3, _ =>
          obtain ⟨bs, h1, h2⟩ := split8 _ _ _ h
          have hl' : l < 4 := hl
          refine fin 0 0 bs rfl (by decide) h1 ?_
          intro B fill e
          have e1 : natBits 8 (l * 64 + v) = natBits 2 l ++ natBits 6 v := natBits_add 2 6 l v (by omega)
          simp only [b64carry, natBits, List.nil_append] at e
          simp only [b64carry]
          rw [h2, bits_cons, UInt8.toNat_ofNat', Nat.mod_eq_of_lt (by omega), e1, List.append_assoc, ← e]
          simp only [List.append_assoc]

theorem b64loop_total (cs seen used rest : List Char) (q l p : Nat) (hq : q = (letters64 seen).length % 4)
    (hp : 2 ≤ q → p = padding64 seen) (hn : ¬ FilledUp seen) (h : ReadsTo seen cs used rest) :
    ∃ b, b64loop cs q l p = .ok b := by
  induction cs generalizing seen q l p used with
  | nil =>
    obtain ⟨h1, -, h3⟩ := h
    obtain ⟨rfl, rfl⟩ := List.append_eq_nil_iff.1 h1.symm
    rw [List.append_nil] at h3
    rcases h3 with h3 | h3
    · exact absurd h3 hn
    · exact ⟨[], by unfold b64loop; rw [if_pos (hq.trans h3.2)]⟩
  | cons c cs ih =>
    cases used with
    | nil =>
      obtain ⟨h1, -, h3⟩ := h
      rw [List.append_nil] at h3
      rcases h3 with h3 | h3
      · exact absurd h3 hn
      · rw [h3.1] at h1; cases h1
    | cons d used =>
      have hfull := h.1
      obtain ⟨rfl, ht⟩ := h.tail
      unfold b64loop
      split
      · rename_i hc; subst hc
        have hnl : '=' ∉ alphabet64 := by decide
        split
        · rename_i hq2
          have hp2 := hp hq2
          split
          · exact ⟨[], rfl⟩
          · refine ih (seen ++ ['=']) used q l (p + 1) (by rw [letters64_other _ hnl]; exact hq)
              (fun _ => by rw [padding64_other _ hnl, if_pos rfl, hp2]) ?_ ht
            rw [filledUp_pad]; omega
        · rename_i hq2
          refine ih (seen ++ ['=']) used q l p (by rw [letters64_other _ hnl]; exact hq) (fun h => absurd h hq2) ?_ ht
          rw [filledUp_pad]; omega
      · rename_i hc
        cases hv : b64Val d with
        | none =>
          have hnl := b64Val_none.1 hv
          refine ih (seen ++ [d]) used q l p (by rw [letters64_other _ hnl]; exact hq)
            (fun h => by rw [padding64_other _ hnl, if_neg hc]; exact hp h) ?_ ht
          rw [filledUp_foreign _ hnl hc]; exact hn
        | some v =>
          obtain ⟨hs, hv64⟩ := b64Val_some hv
          have hmem : d ∈ alphabet64 := List.mem_of_getElem? hs
          have hlen : (letters64 (seen ++ [d])).length = (letters64 seen).length + 1 := by rw [letters64_letter _ hmem]; simp
          have go : ∀ q' l', q' = (q + 1) % 4 → ∃ b, b64loop cs q' l' 0 = .ok b := by
            intro q' l' hq'
            exact ih (seen ++ [d]) used q' l' 0 (by rw [hlen]; omega) (fun _ => (padding64_letter _ hmem).symm) (filledUp_letter _ hmem) ht
          have hq4 : q < 4 := by omega
          clear hq hp ih
          match q, hq4 with
          | 0, _ => exact go 1 v rfl
          | 1, _ => obtain ⟨b, e⟩ := go 2 (v % 16) rfl; exact ⟨_, by simp only [e]; rfl⟩
          | 2, _ => obtain ⟨b, e⟩ := go 3 (v % 4) rfl; exact ⟨_, by simp only [e]; rfl⟩
          | 3, _ => obtain ⟨b, e⟩ := go 0 0 rfl; exact ⟨_, by simp only [e]; rfl⟩

/-- There is one place to stop. -/
theorem ReadsTo.unique {cs used rest used' rest' : List Char} (h : ReadsTo [] cs used rest) (h' : ReadsTo [] cs used' rest') :
    used = used' := by
  have key : ∀ {used rest used' rest' : List Char}, ReadsTo [] cs used rest → ReadsTo [] cs used' rest' → used.length < used'.length → False := by
    intro used rest used' rest' h h' hlt
    obtain ⟨h1, h2, h3⟩ := h
    obtain ⟨g1, g2, g3⟩ := h'
    have e : used' = used ++ used'.drop used.length := by
      have := congrArg (List.take used'.length) (h1.symm.trans g1)
      rw [List.take_left, List.take_append] at this
      rw [← this, List.take_of_length_le (by omega)]
      simp
    have hne : used'.drop used.length ≠ [] := by
      intro h0
      have := congrArg List.length h0
      simp at this; omega
    rcases h3 with h3 | h3
    · exact g2 used _ e hne h3
    · have := congrArg List.length (h1.symm.trans g1)
      rw [h3.1] at this
      simp at this; omega
  have l1 : ¬ used.length < used'.length := fun hl => key h h' hl
  have l2 : ¬ used'.length < used.length := fun hl => key h' h hl
  exact (List.append_inj (h.1.symm.trans h'.1) (by omega)).1

theorem Stands.same {al : List Char} (hal : al.Nodup) {k : Nat} {t : List Char} {b b' : List Bool} (h : Stands al k t b)
    (h' : Stands al k t b') : b = b' := by
  induction h generalizing b' with
  | nil => cases h'; rfl
  | cons hi ht ih =>
    cases h' with
    | cons hj ht' =>
      rename_i i c t b j b''
      have hij : i = j := by
        obtain ⟨h1, e1⟩ := List.getElem?_eq_some_iff.1 hi
        obtain ⟨h2, e2⟩ := List.getElem?_eq_some_iff.1 hj
        exact (List.getElem_inj hal).1 (e1.trans e2.symm)
      rw [hij, ih ht']

/-- `base64.b64decode` reads exactly the texts of `Base64Read`. -/
theorem b64loop_iff (cs : List Char) (b : Bytes) : b64loop cs 0 0 0 = .ok b ↔ Base64Read cs b := by
  have hn : ¬ FilledUp [] := by rintro ⟨h, -⟩; simp [letters64] at h
  constructor
  · intro h
    obtain ⟨used, rest, fill, B, h1, h3, h4, h5⟩ := b64loop_exact cs [] 0 0 0 b rfl (by omega) hn (by decide) h
    simp only [b64carry, natBits, List.nil_append] at h4
    exact ⟨used, rest, fill, h1.1, by simpa using h1.2.1, by simpa using h1.2.2, h4 ▸ h3, h5⟩
  · rintro ⟨used, rest, fill, h1, h2, h3, h4, h5⟩
    have hr : ReadsTo [] cs used rest := ⟨h1, by simpa using h2, by simpa using h3⟩
    obtain ⟨b', hb⟩ := b64loop_total cs [] used rest 0 0 0 rfl (by omega) hn hr
    obtain ⟨used', rest', fill', B, g1, g3, g4, g5⟩ := b64loop_exact cs [] 0 0 0 b' rfl (by omega) hn (by decide) hb
    simp only [b64carry, natBits, List.nil_append] at g4
    have e := hr.unique g1
    subst e
    have e2 := Stands.same (by decide) h4 (g4 ▸ g3)
    have hlen := congrArg List.length e2
    simp only [List.length_append, length_bits] at hlen
    have := (List.append_inj e2 (by rw [length_bits, length_bits]; omega)).1
    rw [hb, bits_inj _ _ this]

theorem b64decode_iff (t : String) (b : Bytes) : b64decode t = .ok b ↔ isAscii t = true ∧ Base64Read t.toList b := by
  unfold b64decode
  split
  · rename_i h; rw [b64loop_iff, and_iff_right h]
  · rename_i h
    exact ⟨fun e => (by cases e), fun e => absurd e.1 h⟩

end Wamp
