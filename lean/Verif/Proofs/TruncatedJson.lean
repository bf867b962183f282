import Verif.Proofs.Json

/-! # More text after what `json.loads` read changes nothing, unless it continues a number -/

namespace Wamp.Json
open Wamp.Spec

theorem skip_append {r : List Char} (h : skip r ≠ []) (x : List Char) : skip (r ++ x) = skip r ++ x := by
  induction r with
  | nil => exact absurd rfl h
  | cons c r ih =>
    unfold skip at h ih ⊢
    rw [List.cons_append, List.dropWhile_cons, List.dropWhile_cons]
    rw [List.dropWhile_cons] at h
    split
    · rename_i hc
      rw [if_pos hc] at h
      exact ih h
    · rfl

/-- Skip white space, then match the next character. -/
theorem skip_cons_append {r t : List Char} {c : Char} (h : skip r = c :: t) (x : List Char) : skip (r ++ x) = c :: (t ++ x) := by
  rw [skip_append (by rw [h]; simp), h]; rfl

theorem units_append (x : List Char) : ∀ n (cs : List Char), cs.length ≤ n → ∀ us r, units cs = some (us, r) →
    units (cs ++ x) = some (us, r ++ x) := by
  intro n
  induction n with
  | zero =>
    intro cs hl us r h
    rw [List.length_eq_zero_iff.1 (Nat.le_zero.1 hl)] at h
    cases h
  | succ n ih =>
    intro cs hl us r h
    cases cs with
    | nil => cases h
    | cons c cs =>
      rw [units.eq_def] at h
      rw [List.cons_append, units.eq_def]
      simp only [List.length_cons] at hl h ⊢
      split
      · rename_i hc
        rw [if_pos hc] at h
        cases h; rfl
      rename_i hc
      rw [if_neg hc] at h
      split
      · rename_i hb
        rw [if_pos hb] at h
        cases cs with
        | nil => cases h
        | cons e cs =>
          simp only [List.length_cons] at hl
          simp only [List.cons_append] at h ⊢
          split
          · rename_i he
            rw [if_pos he] at h
            match cs, h with
            | a :: b :: c :: d :: cs, h =>
              simp only [List.length_cons] at hl
              simp only [List.cons_append] at h ⊢
              cases hu : units cs with
              | none => rw [hu] at h; cases hh : hexVal4 a b c d <;> rw [hh] at h <;> cases h
              | some y =>
                obtain ⟨us', r'⟩ := y
                rw [hu] at h
                rw [ih cs (by omega) us' r' hu]
                cases hh : hexVal4 a b c d <;> rw [hh] at h <;> cases h
                rfl
          · rename_i he
            rw [if_neg he] at h
            cases hu : units cs with
            | none => rw [hu] at h; cases hh : unescape e <;> rw [hh] at h <;> cases h
            | some y =>
              obtain ⟨us', r'⟩ := y
              rw [hu] at h
              rw [ih cs (by omega) us' r' hu]
              cases hh : unescape e <;> rw [hh] at h <;> cases h
              rfl
      · rename_i hb
        rw [if_neg hb] at h
        split
        · rename_i h32
          rw [if_pos h32] at h
          cases h
        · rename_i h32
          rw [if_neg h32] at h
          cases hu : units cs with
          | none => rw [hu] at h; cases h
          | some y =>
            obtain ⟨us', r'⟩ := y
            rw [hu] at h
            rw [ih cs (by omega) us' r' hu]
            cases h
            rfl

theorem string_append {cs r : List Char} {s : String} (h : string cs = .ok (s, r)) (x : List Char) : string (cs ++ x) = .ok (s, r ++ x) := by
  unfold string at h ⊢
  cases hu : units cs with
  | none => rw [hu] at h; cases h
  | some y =>
    obtain ⟨us, r'⟩ := y
    rw [hu] at h
    rw [units_append x cs.length cs (by omega) us r' hu]
    simp only at h ⊢
    cases hj : join us with
    | none => rw [hj] at h; cases h
    | some t => rw [hj] at h; cases h; rfl

theorem while_append (x : List Char) : ∀ l : List Char, l.dropWhile isDigit ≠ [] →
    (l ++ x).takeWhile isDigit = l.takeWhile isDigit ∧ (l ++ x).dropWhile isDigit = l.dropWhile isDigit ++ x := by
  intro l
  induction l with
  | nil => intro h; exact absurd rfl h
  | cons d l ih =>
    intro h
    rw [List.cons_append, List.takeWhile_cons, List.takeWhile_cons, List.dropWhile_cons, List.dropWhile_cons]
    rw [List.dropWhile_cons] at h
    split
    · rename_i hd; rw [if_pos hd] at h; exact ⟨by rw [(ih h).1], (ih h).2⟩
    · exact ⟨rfl, rfl⟩

theorem natural_append {cs r : List Char} {n : Nat} (h : natural cs = some (n, r)) (hr : r ≠ []) (x : List Char) :
    natural (cs ++ x) = some (n, r ++ x) := by
  cases cs with
  | nil => cases h
  | cons c cs =>
    unfold natural at h
    rw [List.cons_append]
    unfold natural
    simp only at h ⊢
    split
    · rename_i hc; rw [if_pos hc] at h; cases h; rfl
    · rename_i hc
      rw [if_neg hc] at h
      split
      · rename_i hd
        rw [if_pos hd] at h
        simp only [Option.some.injEq, Prod.mk.injEq] at h
        obtain ⟨rfl, rfl⟩ := h
        obtain ⟨k1, k2⟩ := while_append x _ hr
        rw [List.cons_append] at k1 k2
        rw [k1, k2]
      · rename_i hd
        rw [if_neg hd] at h
        cases h

/-- Something follows that does not continue a number. -/
def Ends (r : List Char) : Prop := ∃ c t, r = c :: t ∧ c ≠ '.' ∧ c ≠ 'e' ∧ c ≠ 'E'

theorem Ends.ne {r : List Char} (h : Ends r) : r ≠ [] := by
  obtain ⟨c, t, rfl, _⟩ := h; simp

theorem fraction_append {cs : List Char} (h : (fraction cs).2 ≠ []) (h' : (fraction cs).1 = [] → (fraction cs).2.head? ≠ some '.') (x : List Char) :
    fraction (cs ++ x) = ((fraction cs).1, (fraction cs).2 ++ x) := by
  cases cs with
  | nil => exact absurd rfl h
  | cons c r =>
    rw [List.cons_append]
    simp only [fraction] at h h' ⊢
    by_cases hc : c = '.' ∧ List.takeWhile isDigit r ≠ []
    · rw [if_pos hc] at h h' ⊢
      obtain ⟨k1, k2⟩ := while_append x r h
      rw [k1, k2, if_pos hc]
    · rw [if_neg hc] at h h' ⊢
      have : c ≠ '.' := by
        intro e; exact h' rfl (by rw [e]; rfl)
      rw [if_neg fun e => this e.1]
      rfl

theorem sign_append {r : List Char} (h : (sign r).2 ≠ []) (x : List Char) : sign (r ++ x) = ((sign r).1, (sign r).2 ++ x) := by
  cases r with
  | nil => exact absurd rfl h
  | cons c r =>
    rw [List.cons_append]
    simp only [sign] at h ⊢
    repeat' split
    all_goals rfl

theorem exponent_append {cs : List Char} (h : Ends (exponent cs).2) (x : List Char) : exponent (cs ++ x) = ((exponent cs).1, (exponent cs).2 ++ x) := by
  cases cs with
  | nil => exact absurd rfl h.ne
  | cons c r =>
    rw [List.cons_append]
    simp only [exponent] at h ⊢
    by_cases hc : (c = 'e' ∨ c = 'E') ∧ List.takeWhile isDigit (sign r).2 ≠ []
    · rw [if_pos hc] at h ⊢
      have hs : (sign r).2 ≠ [] := by
        intro e; rw [e] at hc; exact hc.2 rfl
      obtain ⟨k1, k2⟩ := while_append x _ h.ne
      rw [sign_append hs]
      simp only
      rw [k1, k2, if_pos hc]
    · rw [if_neg hc] at h ⊢
      obtain ⟨d, t, e, _, h2, h3⟩ := h
      obtain ⟨rfl, rfl⟩ := List.cons.inj e
      rw [if_neg]
      · rfl
      · rintro ⟨e | e, _⟩
        · exact h2 e
        · exact h3 e

theorem exponent_nonempty {cs : List Char} (h : (exponent cs).2 ≠ []) : cs ≠ [] := by
  rintro rfl; exact h rfl

theorem numberRest_snd (b : Bool) (n : Nat) (cs : List Char) : (numberRest b n cs).2 = (exponent (fraction cs).2).2 := by
  unfold numberRest; simp only; split <;> rfl

theorem exponent_head {cs : List Char} (h : Ends (exponent cs).2) : cs.head? ≠ some '.' := by
  cases cs with
  | nil => simp
  | cons c r =>
    simp only [exponent] at h
    intro e
    have e : c = '.' := by simpa using e
    subst e
    rw [if_neg (by simp)] at h
    obtain ⟨d, t, e, h1, _⟩ := h
    exact h1 (List.cons.inj e).1.symm

theorem numberRest_append (b : Bool) (n : Nat) {cs : List Char} (h : Ends (numberRest b n cs).2) (x : List Char) :
    numberRest b n (cs ++ x) = ((numberRest b n cs).1, (numberRest b n cs).2 ++ x) := by
  rw [numberRest_snd] at h ⊢
  have h1 := fraction_append (exponent_nonempty h.ne) (fun _ => exponent_head h) x
  have h2 := exponent_append h x
  unfold numberRest
  simp only
  rw [h1]
  simp only
  rw [h2]
  simp only
  split <;> rfl

theorem number_append {cs r : List Char} {v : Value} (h : number cs = .ok (v, r)) (hr : Ends r) (x : List Char) :
    number (cs ++ x) = .ok (v, r ++ x) := by
  have key : ∀ (b : Bool) (cs : List Char), (match natural cs with
      | none => decodeError
      | some (n, rest) => .ok (numberRest b n rest)) = (.ok (v, r) : Except Exc (Value × List Char)) →
      (match natural (cs ++ x) with
      | none => decodeError
      | some (n, rest) => .ok (numberRest b n rest)) = (.ok (v, r ++ x) : Except Exc (Value × List Char)) := by
    intro b cs h
    cases hn : natural cs with
    | none => rw [hn] at h; cases h
    | some y =>
      obtain ⟨n, rest⟩ := y
      rw [hn] at h
      simp only [Except.ok.injEq] at h
      have hE : Ends (numberRest b n rest).2 := by rw [h]; exact hr
      have hrest : rest ≠ [] := by
        rintro rfl; exact hE.ne (by rw [numberRest_snd]; rfl)
      rw [natural_append hn hrest x]
      simp only [numberRest_append b n hE x, h]
  cases cs with
  | nil => cases h
  | cons c cs =>
    rw [List.cons_append]
    by_cases hc : c = '-'
    · subst hc; rw [number_neg] at h ⊢; exact key true cs h
    · rw [number_pos hc] at h ⊢; exact key false (c :: cs) h

/-- What `g` reads, `g'` reads with more behind, unless that might continue a number. -/
def ExtJ (g g' : List Char → Except Exc (Value × List Char)) : Prop :=
  ∀ cs v r x, g cs = .ok (v, r) → (Ends r ∨ ((∀ n, v ≠ .int n) ∧ ∀ f, v ≠ .float f)) → g' (cs ++ x) = .ok (v, r ++ x)

theorem ends_skip {r t : List Char} {c : Char} (h : skip r = c :: t) (hc : c = ',' ∨ c = ']' ∨ c = '}') : Ends r := by
  cases r with
  | nil => cases h
  | cons d r =>
    refine ⟨d, r, rfl, ?_⟩
    rw [skip, List.dropWhile_cons] at h
    split at h
    · rename_i hd
      simp only [isSpace, Bool.or_eq_true, decide_eq_true_eq] at hd
      rcases hd with ((rfl | rfl) | rfl) | rfl <;> decide
    · obtain ⟨rfl, _⟩ := List.cons.inj h
      rcases hc with rfl | rfl | rfl <;> decide

theorem elements_append {g g' : List Char → Except Exc (Value × List Char)} (hg : ExtJ g g')
    (hnil : ∃ e, g [] = .error e) : ∀ n n', n ≤ n' → ∀ cs l r x,
    elements g n cs = .ok (l, r) → elements g' n' (cs ++ x) = .ok (l, r ++ x)
  | 0, _, _, cs, l, r, x, h => by cases h
  | n + 1, n' + 1, hn, cs, l, r, x, h => by
    rw [elements] at h ⊢
    cases hv : g cs with
    | error e => rw [hv] at h; cases h
    | ok y =>
      obtain ⟨v, r'⟩ := y
      rw [hv] at h
      simp only [bind, Except.bind] at h ⊢
      cases hs : skip r' with
      | nil => rw [hs] at h; cases h
      | cons c t =>
        rw [hs] at h
        simp only at h
        have hr' : Ends r' := by
          refine ends_skip hs ?_
          by_cases h1 : c = ','
          · exact .inl h1
          · by_cases h2 : c = ']'
            · exact .inr (.inl h2)
            · rw [if_neg h1, if_neg h2] at h; cases h
        rw [hg cs v r' x hv (.inl hr')]
        simp only [skip_cons_append hs]
        split
        · rename_i hc
          rw [if_pos hc] at h
          cases he : elements g n (skip t) with
          | error e => rw [he] at h; cases h
          | ok z =>
            obtain ⟨l', r''⟩ := z
            rw [he] at h
            have ht : skip t ≠ [] := by
              intro e
              rw [e] at he
              cases n with
              | zero => cases he
              | succ n =>
                obtain ⟨e, hnil⟩ := hnil
                rw [elements, hnil] at he
                cases he
            rw [skip_append ht, elements_append hg hnil n n' (by omega) (skip t) l' r'' x he]
            cases h; rfl
        · rename_i hc
          rw [if_neg hc] at h
          split
          · rename_i hb; rw [if_pos hb] at h; cases h; rfl
          · rename_i hb; rw [if_neg hb] at h; cases h

theorem members_append {g g' : List Char → Except Exc (Value × List Char)} (hg : ExtJ g g') (hnil : ∃ e, g [] = .error e) :
    ∀ n n', n ≤ n' → ∀ cs l r x, members g n cs = .ok (l, r) → members g' n' (cs ++ x) = .ok (l, r ++ x)
  | 0, _, _, cs, l, r, x, h => by cases h
  | n + 1, n' + 1, hn, [], l, r, x, h => by rw [members] at h; cases h
  | n + 1, n' + 1, hn, q :: cs, l, r, x, h => by
    rw [members.eq_def] at h
    rw [List.cons_append, members.eq_def]
    simp only at h ⊢
    by_cases hq : ¬ q = '"'
    · rw [if_neg hq] at h; cases h
    have hq := Decidable.of_not_not hq
    rw [if_pos hq] at h ⊢
    cases hk : string cs with
    | error e => rw [hk] at h; cases h
    | ok y =>
      obtain ⟨k, r1⟩ := y
      rw [hk] at h
      rw [string_append hk x]
      simp only [bind, Except.bind] at h ⊢
      cases hs : skip r1 with
      | nil => rw [hs] at h; cases h
      | cons c t =>
        rw [hs] at h
        simp only [skip_cons_append hs] at h ⊢
        by_cases hc : ¬ c = ':'
        · rw [if_neg hc] at h; cases h
        have hc := Decidable.of_not_not hc
        rw [if_pos hc] at h ⊢
        cases hv : g (skip t) with
        | error e => rw [hv] at h; cases h
        | ok z =>
          obtain ⟨v, r2⟩ := z
          rw [hv] at h
          have ht : skip t ≠ [] := by
            intro e
            obtain ⟨e', hnil⟩ := hnil
            rw [e, hnil] at hv; cases hv
          simp only at h
          cases hs2 : skip r2 with
          | nil => rw [hs2] at h; cases h
          | cons c2 t2 =>
            rw [hs2] at h
            simp only at h
            have hr2 : Ends r2 := by
              refine ends_skip hs2 ?_
              by_cases h1 : c2 = ','
              · exact .inl h1
              · by_cases h2 : c2 = '}'
                · exact .inr (.inr h2)
                · rw [if_neg h1, if_neg h2] at h; cases h
            rw [skip_append ht, hg (skip t) v r2 x hv (.inl hr2)]
            simp only [skip_cons_append hs2]
            split
            · rename_i hc2
              rw [if_pos hc2] at h
              cases hm : members g n (skip t2) with
              | error e => rw [hm] at h; cases h
              | ok w =>
                obtain ⟨l', r3⟩ := w
                rw [hm] at h
                have ht2 : skip t2 ≠ [] := by
                  intro e
                  rw [e] at hm
                  cases n with
                  | zero => cases hm
                  | succ n => rw [members] at hm; cases hm
                rw [skip_append ht2, members_append hg hnil n n' (by omega) (skip t2) l' r3 x hm]
                cases h; rfl
            · rename_i hc2
              rw [if_neg hc2] at h
              split
              · rename_i hb; rw [if_pos hb] at h; cases h; rfl
              · rename_i hb; rw [if_neg hb] at h; cases h

theorem value_nil : ∀ f, ∃ e, value f [] = .error e
  | 0 => ⟨_, rfl⟩
  | _ + 1 => ⟨_, rfl⟩

theorem number_kind {cs r : List Char} {v : Value} (h : number cs = .ok (v, r)) : (∃ n, v = .int n) ∨ ∃ f, v = .float f := by
  unfold number at h
  split at h
  · cases h
  · rename_i n rest _
    simp only [Except.ok.injEq] at h
    unfold numberRest at h
    simp only at h
    split at h
    · cases h; exact .inl ⟨_, rfl⟩
    · cases h; exact .inr ⟨_, rfl⟩

theorem value_append : ∀ f f', f ≤ f' → ExtJ (value f) (value f')
  | 0, _, _, cs, v, r, x, h, _ => by cases h
  | f + 1, f' + 1, hf, [], v, r, x, h, _ => by cases h
  | f + 1, f' + 1, hf, c :: cs, v, r, x, h, hr => by
    have ih := value_append f f' (by omega)
    rw [value.eq_def] at h
    rw [List.cons_append, value.eq_def]
    simp only at h ⊢
    split
    · rename_i hc
      rw [if_pos hc] at h
      cases hk : string cs with
      | error e => rw [hk] at h; cases h
      | ok y =>
        rw [hk] at h
        rw [string_append hk x]
        cases h; rfl
    rename_i hc
    rw [if_neg hc] at h
    split
    · rename_i hc
      rw [if_pos hc] at h
      cases hs : skip cs with
      | nil => rw [hs] at h; cases h
      | cons c t =>
        rw [hs] at h
        simp only [skip_cons_append hs] at h ⊢
        split
        · rename_i hb; rw [if_pos hb] at h; cases h; rfl
        · rename_i hb
          rw [if_neg hb] at h
          cases hm : members (value f) (cs.length + 1) (c :: t) with
          | error e => rw [hm] at h; cases h
          | ok y =>
            rw [hm] at h
            have := members_append ih (value_nil f) (cs.length + 1) ((cs ++ x).length + 1) (by simp) (c :: t) y.1 y.2 x hm
            rw [List.cons_append] at this
            rw [this]
            cases h; rfl
    rename_i hc
    rw [if_neg hc] at h
    split
    · rename_i hc
      rw [if_pos hc] at h
      cases hs : skip cs with
      | nil => rw [hs] at h; cases h
      | cons c t =>
        rw [hs] at h
        simp only [skip_cons_append hs] at h ⊢
        split
        · rename_i hb; rw [if_pos hb] at h; cases h; rfl
        · rename_i hb
          rw [if_neg hb] at h
          cases hm : elements (value f) (cs.length + 1) (c :: t) with
          | error e => rw [hm] at h; cases h
          | ok y =>
            rw [hm] at h
            have := elements_append ih (value_nil f) (cs.length + 1) ((cs ++ x).length + 1) (by simp) (c :: t) y.1 y.2 x hm
            rw [List.cons_append] at this
            rw [this]
            cases h; rfl
    rename_i hc
    rw [if_neg hc] at h
    split
    · rename_i hc
      rw [if_pos hc] at h
      split at h
      · cases h; rfl
      · cases h
    rename_i hc
    rw [if_neg hc] at h
    split
    · rename_i hc
      rw [if_pos hc] at h
      split at h
      · cases h; rfl
      · cases h
    rename_i hc
    rw [if_neg hc] at h
    split
    · rename_i hc
      rw [if_pos hc] at h
      split at h
      · cases h; rfl
      · cases h
    rename_i hc
    rw [if_neg hc] at h
    have num : ∀ c, number (c :: cs) = .ok (v, r) → number (c :: (cs ++ x)) = .ok (v, r ++ x) := by
      intro c h
      rw [← List.cons_append]
      refine number_append h ?_ x
      rcases hr with hr | hr
      · exact hr
      · rcases number_kind h with ⟨n, e⟩ | ⟨n, e⟩
        · exact absurd e (hr.1 n)
        · exact absurd e (hr.2 n)
    split
    · rename_i hc
      rw [if_pos hc] at h
      split at h
      · cases h; rfl
      · cases h
    rename_i hc
    rw [if_neg hc] at h
    split
    · rename_i hc
      rw [if_pos hc] at h
      split at h
      · cases h; rfl
      · cases h
    rename_i hc
    rw [if_neg hc] at h
    split
    · rename_i hc
      rw [if_pos hc] at h
      split at h
      · cases h; rfl
      · rw [num c h]
        split
        · rename_i e
          rw [hc, number_neg] at h
          cases cs with
          | nil => cases h
          | cons d cs =>
            rw [List.cons_append] at e
            rw [(List.cons.inj e).1, natural, if_neg (by decide), if_neg (by decide)] at h
            cases h
        · rfl
    rename_i hc
    rw [if_neg hc] at h
    exact num c h

theorem value_bracket {f : Nat} {cs r : List Char} {v : Value} (h : value f ('[' :: cs) = .ok (v, r))   : (∀ n, v ≠ .int n) ∧ ∀ f, v ≠ .float f := by
  cases f with
  | zero => cases h
  | succ f =>
    rw [value.eq_def] at h
    simp only [if_neg (show ('[' : Char) ≠ '"' by decide), if_neg (show ('[' : Char) ≠ '{' by decide), if_true] at h
    split at h
    · cases h
    · split at h
      · cases h; simp
      · cases hm : elements (value f) (cs.length + 1) _ with
        | error e => rw [hm] at h; cases h
        | ok y => rw [hm] at h; cases h; simp

theorem text_list (l : List Value) : ∃ t, text (.list l) = '[' :: t := by
  cases l <;> rw [text] <;> exact ⟨_, rfl⟩

/-- A part of a list is not a value. -/
theorem loads_prefix {b x : List Char} {l : List Value} (h : Fits jsonLimits (.list l)) (he : text (.list l) = b ++ x) (hx : x ≠ []) :
    ∃ e, loads (String.ofList b) = .error e := by
  cases hb : loads (String.ofList b) with
  | error e => exact ⟨e, rfl⟩
  | ok w =>
    exfalso
    unfold loads at hb
    rw [String.toList_ofList] at hb
    cases b with
    | nil => cases hb
    | cons c b =>
      obtain ⟨t, ht⟩ := text_list l
      have hc : c = '[' := by
        rw [ht, List.cons_append, List.cons.injEq] at he; exact he.1.symm
      subst hc
      rw [skip_cons (by decide)] at hb
      cases hu : value (('[' :: b).length + 1) ('[' :: b) with
      | error e => rw [hu] at hb; cases hb
      | ok y =>
        obtain ⟨u, r⟩ := y
        have h1 := value_append _ ((('[' :: b) ++ x).length + 1) (by simp) ('[' :: b) u r x hu (.inr (value_bracket hu))
        have h2 := value_text ((('[' :: b) ++ x).length + 1) (.list l) h (by rw [he]; omega) [] (by simp)
        rw [List.append_nil, he, h1] at h2
        simp only [Except.ok.injEq, Prod.mk.injEq, List.append_eq_nil_iff] at h2
        exact hx h2.2.2

end Wamp.Json
