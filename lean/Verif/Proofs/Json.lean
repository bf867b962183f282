import Verif.Proofs.Formats
import Verif.Proofs.Float

/-! # `json.loads` restores what `json.dumps` wrote -/

namespace Wamp.Json
open Wamp.Spec

/-! ## Strings -/

theorem hexVal_digit : ∀ n, n < 16 → hexVal (hexDigit n) = some n := by decide

theorem hexVal4_hex4 {n : Nat} (h : n < 0x10000) :
    hexVal4 (hexDigit (n / 4096 % 16)) (hexDigit (n / 256 % 16)) (hexDigit (n / 16 % 16)) (hexDigit (n % 16)) = some n := by
  unfold hexVal4
  rw [hexVal_digit _ (by omega), hexVal_digit _ (by omega), hexVal_digit _ (by omega), hexVal_digit _ (by omega)]
  show some _ = _
  congr 1
  omega

/-- The code units of a character -/
def codeUnits (c : Char) : List Nat :=
  if c.toNat < 0x10000 then [c.toNat] else [0xd800 + (c.toNat - 0x10000) / 1024, 0xdc00 + (c.toNat - 0x10000) % 1024]

theorem units_unicode {n : Nat} (h : n < 0x10000) (r : List Char) :
    units (unicode n ++ r) = (units r).map fun x => (n :: x.1, x.2) := by
  show units ('\\' :: 'u' :: _ :: _ :: _ :: _ :: r) = _
  rw [units]
  simp only [show ('\\' : Char) ≠ '"' by decide, if_false, if_true, hexVal4_hex4 h]
  cases units r <;> rfl

theorem units_simple {e : Char} {n : Nat} (he : e ≠ 'u') (h : unescape e = some n) (r : List Char) :
    units ('\\' :: e :: r) = (units r).map fun x => (n :: x.1, x.2) := by
  rw [units.eq_def]
  simp only [show ('\\' : Char) ≠ '"' by decide, if_false, if_true, he, h]
  cases units r <;> rfl

theorem char_lt (c : Char) : c.toNat < 0xd800 ∨ (0xdfff < c.toNat ∧ c.toNat < 0x110000) := c.valid

theorem units_escape (c : Char) (r : List Char) : units (escape c ++ r) = (units r).map fun x => (codeUnits c ++ x.1, x.2) := by
  have hc := char_lt c
  unfold escape
  split
  · subst c; exact units_simple (by decide) rfl r
  split
  · subst c; exact units_simple (by decide) rfl r
  split
  · subst c; exact units_simple (by decide) rfl r
  split
  · subst c; exact units_simple (by decide) rfl r
  split
  · subst c; exact units_simple (by decide) rfl r
  split
  · rename_i h
    rw [codeUnits, if_pos (by omega), h]
    exact units_simple (by decide) rfl r
  split
  · rename_i h
    rw [codeUnits, if_pos (by omega), h]
    exact units_simple (by decide) rfl r
  split
  · rename_i h1 h2 _ _ _ _ _ h
    rw [codeUnits, if_pos (by omega)]
    show units (c :: r) = _
    rw [units.eq_def]
    simp only
    rw [if_neg h1, if_neg h2, if_neg (by omega)]
    cases units r <;> rfl
  split
  · rename_i h
    rw [codeUnits, if_pos h]; exact units_unicode h r
  · rename_i h
    rw [codeUnits, if_neg h, List.append_assoc, units_unicode (by omega), units_unicode (by omega)]
    cases units r <;> rfl

theorem units_quoted : ∀ (s r : List Char), units (s.flatMap escape ++ '"' :: r) = some (s.flatMap codeUnits, r)
  | [], r => by rw [List.flatMap_nil, List.nil_append, units.eq_def]; simp
  | c :: s, r => by
    rw [List.flatMap_cons, List.append_assoc, units_escape, units_quoted s r]; rfl

theorem join_units (c : Char) (us : List Nat) : join (codeUnits c ++ us) = (join us).map (c :: ·) := by
  have hc := char_lt c
  unfold codeUnits
  split
  · show join (c.toNat :: us) = _
    rw [join.eq_def]
    simp only
    rw [if_neg (by omega), if_neg (by omega), Char.ofNat_toNat]
  · show join (_ :: _ :: us) = _
    rw [join.eq_def]
    simp only
    rw [if_pos (by omega), if_pos (by omega)]
    have : 0x10000 + (0xd800 + (c.toNat - 0x10000) / 1024 - 0xd800) * 1024 + (0xdc00 + (c.toNat - 0x10000) % 1024 - 0xdc00) = c.toNat := by omega
    rw [this, Char.ofNat_toNat]

theorem join_flatMap : ∀ s : List Char, join (s.flatMap codeUnits) = some s
  | [] => rfl
  | c :: s => by rw [List.flatMap_cons, join_units, join_flatMap s]; rfl

theorem string_quoted (s : String) (r : List Char) : string (s.toList.flatMap escape ++ '"' :: r) = .ok (s, r) := by
  rw [string, units_quoted]
  simp only [join_flatMap, String.ofList_toList]

theorem quote_append (s r : List Char) : quote s ++ r = '"' :: (s.flatMap escape ++ '"' :: r) := by simp [quote]

/-! ## Numbers -/

/-- The text does not continue a number. -/
def Stop (r : List Char) : Prop := ∀ c, r.head? = some c → isDigit c = false ∧ c ≠ '.' ∧ c ≠ 'e' ∧ c ≠ 'E'

theorem digit_char : ∀ n, n < 10 → (Char.ofNat (48 + n)).toNat = 48 + n := by decide

theorem isDigit_digit {n : Nat} (h : n < 10) : isDigit (Char.ofNat (48 + n)) = true := by
  simp only [isDigit, digit_char n h, Bool.and_eq_true, decide_eq_true_eq]; omega

theorem digits_enough : ∀ (k n : Nat), n < k → digits k n = decimal n
  | 0, n, h => by omega
  | k + 1, n, h => by
    simp only [decimal, digits]
    split
    · rfl
    · rw [digits_enough k (n / 10) (by omega), digits_enough n (n / 10) (by omega)]
theorem decimal_eq (n : Nat) :
    decimal n = if n < 10 then [Char.ofNat (48 + n)] else decimal (n / 10) ++ [Char.ofNat (48 + n % 10)] := by
  conv => lhs; simp only [decimal, digits]
  split
  · rfl
  · rw [digits_enough n (n / 10) (by omega)]
theorem decimal_digits (n : Nat) : ∀ c ∈ decimal n, isDigit c = true := by
  induction n using Nat.strongRecOn with
  | _ n ih =>
    rw [decimal_eq]
    split
    · intro c hc
      rw [List.mem_singleton] at hc
      rw [hc]; exact isDigit_digit (by assumption)
    · intro c hc
      rw [List.mem_append, List.mem_singleton] at hc
      rcases hc with hc | hc
      · exact ih (n / 10) (by omega) c hc
      · rw [hc]; exact isDigit_digit (by omega)

theorem digitsVal_snoc (ds : List Char) (c : Char) : digitsVal (ds ++ [c]) = digitsVal ds * 10 + (c.toNat - 48) := by
  simp [digitsVal]

theorem digitsVal_decimal (n : Nat) : digitsVal (decimal n) = n := by
  induction n using Nat.strongRecOn with
  | _ n ih =>
    rw [decimal_eq]
    split
    · simp only [digitsVal, List.foldl_cons, List.foldl_nil, digit_char n (by assumption)]; omega
    · rw [digitsVal_snoc, ih (n / 10) (by omega), digit_char _ (by omega)]; omega

theorem decimal_cons (n : Nat) : ∃ c t, decimal n = c :: t ∧ (c = '0' → n = 0 ∧ t = []) := by
  induction n using Nat.strongRecOn with
  | _ n ih =>
    rw [decimal_eq]
    split
    · rename_i h
      refine ⟨_, [], rfl, fun e => ⟨?_, rfl⟩⟩
      have := congrArg Char.toNat e
      rw [digit_char n h] at this
      have h0 : ('0' : Char).toNat = 48 := rfl
      omega
    · obtain ⟨c, t, e, h⟩ := ih (n / 10) (by omega)
      refine ⟨c, t ++ [Char.ofNat (48 + n % 10)], by rw [e]; rfl, fun hc => ?_⟩
      have := (h hc).1
      omega

theorem takeWhile_stop {ds r : List Char} (h : ∀ c ∈ ds, isDigit c = true) (hr : Stop r) :
    (ds ++ r).takeWhile isDigit = ds ∧ (ds ++ r).dropWhile isDigit = r := by
  rw [List.takeWhile_append_of_pos h, List.dropWhile_append_of_pos h]
  cases r with
  | nil => simp
  | cons c r =>
    have := (hr c rfl).1
    simp [this]

/-- The text does not start with a digit. -/
def NoDigit (r : List Char) : Prop := ∀ c, r.head? = some c → isDigit c = false

theorem takeWhile_digits {ds r : List Char} (h : ∀ c ∈ ds, isDigit c = true) (hr : NoDigit r) :
    (ds ++ r).takeWhile isDigit = ds ∧ (ds ++ r).dropWhile isDigit = r := by
  rw [List.takeWhile_append_of_pos h, List.dropWhile_append_of_pos h]
  cases r with
  | nil => simp
  | cons c r =>
    have := hr c rfl
    simp [this]

theorem Stop.noDigit {r : List Char} (h : Stop r) : NoDigit r := fun c hc => (h c hc).1

/-- Digits without leading zeros, and what follows -/
theorem natural_digits {c : Char} {t r : List Char} (hd : ∀ x ∈ c :: t, isDigit x = true) (h0 : c = '0' → t = []) (hr : NoDigit r) :
    natural (c :: t ++ r) = some (digitsVal (c :: t), r) := by
  have hs := takeWhile_digits hd hr
  rw [List.cons_append, natural]
  split
  · rename_i hc; rw [h0 hc, hc]; rfl
  · rw [if_pos (hd c (by simp)), ← List.cons_append, hs.1, hs.2]

theorem natural_decimal (n : Nat) (r : List Char) (hr : NoDigit r) : natural (decimal n ++ r) = some (n, r) := by
  obtain ⟨c, t, e, h0⟩ := decimal_cons n
  have hd := decimal_digits n
  have hv := digitsVal_decimal n
  rw [e] at hd hv ⊢
  rw [natural_digits hd (fun hc => (h0 hc).2) hr, hv]

/-- A character a number can start with -/
def startsNumber (c : Char) : Prop := c = '-' ∨ isDigit c = true

theorem fraction_none {r : List Char} (h : ∀ c, r.head? = some c → c ≠ '.') : fraction r = ([], r) := by
  cases r with
  | nil => rfl
  | cons c r => rw [fraction, if_neg fun e => h c rfl e.1]

theorem fraction_some {ds r : List Char} (h0 : ds ≠ []) (hd : ∀ c ∈ ds, isDigit c = true) (hr : NoDigit r) :
    fraction ('.' :: (ds ++ r)) = (ds, r) := by
  have hs := takeWhile_digits hd hr
  rw [fraction, hs.1, hs.2, if_pos ⟨rfl, h0⟩]

theorem exponent_none {r : List Char} (h : ∀ c, r.head? = some c → c ≠ 'e' ∧ c ≠ 'E') : exponent r = (none, r) := by
  cases r with
  | nil => rfl
  | cons c r =>
    rw [exponent, if_neg]
    rintro ⟨e | e, _⟩
    · exact (h c rfl).1 e
    · exact (h c rfl).2 e

theorem exponent_some {neg : Bool} {ds r : List Char} (h0 : ds ≠ []) (hd : ∀ c ∈ ds, isDigit c = true) (hr : NoDigit r) :
    exponent ('e' :: (if neg then '-' else '+') :: (ds ++ r)) = (some (if neg then -(digitsVal ds : Int) else digitsVal ds), r) := by
  have hs := takeWhile_digits hd hr
  have e : sign ((if neg then '-' else '+') :: (ds ++ r)) = (neg, ds ++ r) := by cases neg <;> rfl
  rw [exponent, e]
  simp only
  rw [hs.1, hs.2, if_pos (by simp [h0])]

theorem numberRest_int (neg : Bool) (n : Nat) {r : List Char} (hr : Stop r) :
    numberRest neg n r = (.int (if neg then -(n : Int) else n), r) := by
  unfold numberRest
  rw [fraction_none fun c hc => (hr c hc).2.1]
  simp only
  rw [exponent_none fun c hc => (hr c hc).2.2]
  simp

theorem number_pos {c : Char} (hc : c ≠ '-') (cs : List Char) : number (c :: cs) =
    match natural (c :: cs) with
    | none => decodeError
    | some (n, rest) => .ok (numberRest false n rest) := by
  rw [number.eq_def]; simp only [if_neg hc]; rfl

theorem number_neg (cs : List Char) : number ('-' :: cs) =
    match natural cs with
    | none => decodeError
    | some (n, rest) => .ok (numberRest true n rest) := by
  rw [number.eq_def]; simp only [if_true]; rfl

theorem number_integer (n : Int) (r : List Char) (hr : Stop r) : number (integer n ++ r) = .ok (.int n, r) := by
  cases n with
  | ofNat n =>
    have hn := natural_decimal n r hr.noDigit
    obtain ⟨c, t, e, _⟩ := decimal_cons n
    have hc := decimal_digits n c (by rw [e]; simp)
    have hm : c ≠ '-' := by rintro rfl; exact absurd hc (by decide)
    rw [integer]
    rw [e] at hn ⊢
    rw [List.cons_append] at hn ⊢
    rw [number_pos hm, hn]
    simp only [numberRest_int _ _ hr]
    rfl
  | negSucc n =>
    have hn := natural_decimal (n + 1) r hr.noDigit
    rw [integer, List.cons_append, number_neg, hn]
    simp only [numberRest_int _ _ hr, if_true]
    rfl

/-! ## Floats -/

theorem digitsVal_append (a b : List Char) : digitsVal (a ++ b) = digitsVal a * 10 ^ b.length + digitsVal b := by
  induction b using List.reverseRecOn with
  | nil => simp [digitsVal]
  | append_singleton b c ih =>
    rw [← List.append_assoc, digitsVal_snoc, digitsVal_snoc, ih, List.length_append, List.length_singleton, Nat.pow_succ]
    ring

theorem digitsVal_zeros (n : Nat) : digitsVal (List.replicate n '0') = 0 := by
  induction n with
  | zero => rfl
  | succ n ih => rw [List.replicate_succ', digitsVal_snoc, ih]; rfl

theorem zeros_digits (n : Nat) : ∀ c ∈ List.replicate n '0', isDigit c = true := by
  intro c hc
  rw [List.eq_of_mem_replicate hc]; decide

/-- What `repr` lays out reads as the decimal. -/
theorem natural_layout (neg : Bool) (d : Nat) (x : Int) (h0 : d = 0 → x = 0) (r : List Char) (hr : Stop r) :
    ∃ n rest, natural (PyFloat.layout (decimal d) ((decimal d).length + x) ++ r) = some (n, rest) ∧
      numberRest neg n rest = (.float (PyFloat.ofDecimal neg d x), r) := by
  obtain ⟨c, t, e, hc⟩ := decimal_cons d
  have hd := decimal_digits d
  have hv := digitsVal_decimal d
  have hn := hr.noDigit
  have he : exponent r = (none, r) := exponent_none fun c hc => (hr c hc).2.2
  generalize hds : decimal d = ds at *
  have hlen : ds.length = t.length + 1 := by rw [e]; rfl
  unfold PyFloat.layout
  split
  · split
    · -- 0.000ddd
      rename_i h1 h2
      refine ⟨0, '.' :: (List.replicate (-(ds.length + x : Int)).toNat '0' ++ ds ++ r), rfl, ?_⟩
      unfold numberRest
      rw [fraction_some (by simp [e]) (by
        intro c hc
        rcases List.mem_append.1 hc with hc | hc
        · exact zeros_digits _ c hc
        · exact hd c hc) hn]
      simp only
      rw [he, if_neg (by simp [e]), digitsVal_append, digitsVal_zeros, hv]
      simp only [List.length_append, List.length_replicate, Option.getD_none]
      congr 3
      · omega
      · omega
    · split
      · -- ddd000.0
        rename_i h1 h2 h3
        obtain ⟨k, rfl⟩ := Int.eq_ofNat_of_zero_le (show 0 ≤ x by omega)
        have hk : ((ds.length : Int) + k).toNat - ds.length = k := by omega
        rw [hk]
        refine ⟨d * 10 ^ k, '.' :: (['0'] ++ r), ?_, ?_⟩
        · have := natural_digits (c := c) (t := t ++ List.replicate k '0') (r := '.' :: (['0'] ++ r)) (by
            intro y hy
            rw [← List.cons_append, ← e] at hy
            rcases List.mem_append.1 hy with hy | hy
            · exact hd y hy
            · exact zeros_digits _ y hy) (by
            intro hcz
            obtain ⟨hd0, ht⟩ := hc hcz
            have := h0 hd0
            have : k = 0 := by omega
            rw [ht, this]; rfl) (by intro y hy; cases hy; decide)
          rw [← List.cons_append, ← e, digitsVal_append, hv, digitsVal_zeros, List.length_replicate, Nat.add_zero] at this
          rw [← this]
          simp
        · unfold numberRest
          rw [fraction_some (by simp) (by decide) hn]
          simp only
          rw [he, if_neg (by simp)]
          have := PyFloat.ofDecimal_zero neg d k
          simp only [List.length_singleton, Option.getD_none]
          rw [← this]
          simp [digitsVal]
      · -- d.ddd
        rename_i h1 h2 h3
        obtain ⟨k, hk⟩ : ∃ k : Nat, (ds.length : Int) + x = k := ⟨((ds.length : Int) + x).toNat, by omega⟩
        rw [hk] at h1 h2 h3 ⊢
        rw [Int.toNat_natCast] at h3 ⊢
        obtain ⟨k', rfl⟩ : ∃ k', k = k' + 1 := ⟨k - 1, by omega⟩
        have hsplit := List.take_append_drop (k' + 1) ds
        have htake : ds.take (k' + 1) = c :: t.take k' := by rw [e]; rfl
        have hdl : (ds.drop (k' + 1)).length = ds.length - (k' + 1) := List.length_drop
        refine ⟨digitsVal (ds.take (k' + 1)), '.' :: (ds.drop (k' + 1) ++ r), ?_, ?_⟩
        · have := natural_digits (c := c) (t := t.take k') (r := '.' :: (ds.drop (k' + 1) ++ r)) (by
            intro y hy
            rw [← htake] at hy
            exact hd y (List.mem_of_mem_take hy)) (by
            intro hcz
            rw [(hc hcz).2, List.take_nil]) (by intro y hy; cases hy; decide)
          rw [← htake] at this
          rw [← this]
          simp
        · unfold numberRest
          rw [fraction_some (by intro hnil; rw [hnil] at hdl; simp at hdl; omega) (fun y hy => hd y (List.mem_of_mem_drop hy)) hn]
          simp only
          rw [he, if_neg (by intro h; have := h.1; rw [this] at hdl; simp at hdl; omega), ← digitsVal_append, hsplit, hv]
          simp only [Option.getD_none, hdl]
          congr 3
          omega
  · -- d.ddde+XX
    rename_i h1
    simp only
    have hex : ∀ es : List Char, (es = if ((ds.length : Int) + x - 1).natAbs < 10 then '0' :: decimal ((ds.length : Int) + x - 1).natAbs else decimal ((ds.length : Int) + x - 1).natAbs) →
        es ≠ [] ∧ (∀ c ∈ es, isDigit c = true) ∧ digitsVal es = ((ds.length : Int) + x - 1).natAbs := by
      rintro es rfl
      have hdd := decimal_digits ((ds.length : Int) + x - 1).natAbs
      have hvv := digitsVal_decimal ((ds.length : Int) + x - 1).natAbs
      obtain ⟨c', t', e', _⟩ := decimal_cons ((ds.length : Int) + x - 1).natAbs
      split
      · refine ⟨by simp, ?_, ?_⟩
        · intro y hy
          rcases List.mem_cons.1 hy with rfl | hy
          · decide
          · exact hdd y hy
        · show digitsVal (['0'] ++ decimal ((ds.length : Int) + x - 1).natAbs) = _
          rw [digitsVal_append, hvv, show digitsVal ['0'] = 0 from rfl, Nat.zero_mul, Nat.zero_add]
      · exact ⟨by rw [e']; simp, hdd, hvv⟩
    generalize (if ((ds.length : Int) + x - 1).natAbs < 10 then '0' :: decimal ((ds.length : Int) + x - 1).natAbs else decimal ((ds.length : Int) + x - 1).natAbs) = es at *
    obtain ⟨hes0, hes, hesv⟩ := hex es rfl
    have hexp : exponent ('e' :: (if (ds.length : Int) + x - 1 < 0 then '-' else '+') :: (es ++ r)) = (some ((ds.length : Int) + x - 1), r) := by
      have := exponent_some (neg := decide ((ds.length : Int) + x - 1 < 0)) hes0 hes hn
      simp only [decide_eq_true_eq] at this
      rw [this, hesv]
      congr 2
      split <;> omega
    have htake : ds.take 1 = [c] := by rw [e]; rfl
    have hdrop : ds.drop 1 = t := by rw [e]; rfl
    have hcd : isDigit c = true := hd c (by rw [e]; simp)
    rw [htake, hdrop]
    by_cases hl : ds.length ≤ 1
    · have ht : t = [] := List.eq_nil_of_length_eq_zero (by omega)
      refine ⟨digitsVal [c], 'e' :: (if (ds.length : Int) + x - 1 < 0 then '-' else '+') :: (es ++ r), ?_, ?_⟩
      · rw [← natural_digits (c := c) (t := []) (by intro y hy; rw [List.mem_singleton.1 hy]; exact hcd) (fun _ => rfl) (by intro y hy; cases hy; decide)]
        simp [hl]
      · unfold numberRest
        rw [fraction_none (by intro y hy; cases hy; decide)]
        simp only
        rw [hexp, if_neg (by simp)]
        have : [c] = ds := by rw [e, ht]
        rw [this, hv]
        simp only [digitsVal, List.length_nil, List.foldl_nil, Option.getD_some]
        congr 3
        · omega
        · omega
    · refine ⟨digitsVal [c], '.' :: (t ++ 'e' :: (if (ds.length : Int) + x - 1 < 0 then '-' else '+') :: (es ++ r)), ?_, ?_⟩
      · rw [← natural_digits (c := c) (t := []) (by intro y hy; rw [List.mem_singleton.1 hy]; exact hcd) (fun _ => rfl) (by intro y hy; cases hy; decide)]
        simp [hl]
      · have ht : t ≠ [] := by rintro rfl; simp at hlen; omega
        unfold numberRest
        rw [fraction_some ht (fun y hy => hd y (by rw [e]; simp [hy])) (by intro y hy; cases hy; decide)]
        simp only
        rw [hexp, if_neg (by simp [ht]), ← digitsVal_append]
        have : [c] ++ t = ds := by rw [e]; rfl
        rw [this, hv]
        simp only [Option.getD_some]
        congr 3
        omega

theorem shortest_zero (f : PyFloat) (hf : f.expo ≠ 2047) (h : f.shortest.1 = 0) : f.shortest.2 = 0 := by
  have := PyFloat.nearest_shortest f hf
  rw [h, PyFloat.scale_eq (by norm_num)] at this
  have e : ((0 : Nat) : ℚ) * ((10 : Nat) : ℚ) ^ f.shortest.2 = 0 := by simp
  rw [e, PyFloat.nearest_zero, PyFloat.magBits_eq] at this
  have hm : f.mant = 0 := by
    unfold PyFloat.mant; split <;> omega
  unfold PyFloat.shortest
  rw [if_pos hm]

theorem layout_cons (ds : List Char) (hne : ds ≠ []) (hd : ∀ c ∈ ds, isDigit c = true) (p : Int) :
    ∃ c t, PyFloat.layout ds p = c :: t ∧ isDigit c = true := by
  obtain ⟨c, t, rfl⟩ := List.exists_cons_of_ne_nil hne
  have hc := hd c (by simp)
  unfold PyFloat.layout
  split
  · split
    · exact ⟨_, _, rfl, by decide⟩
    · split
      · exact ⟨_, _, rfl, hc⟩
      · rename_i h1 h2 h3
        obtain ⟨k, hk⟩ : ∃ k, p.toNat = k + 1 := ⟨p.toNat - 1, by omega⟩
        rw [hk]
        exact ⟨_, _, rfl, hc⟩
  · exact ⟨_, _, rfl, hc⟩

theorem number_finite (f : PyFloat) (hf : f.expo ≠ 2047) (r : List Char) (hr : Stop r) :
    number (f.finiteText ++ r) = .ok (.float f, r) ∧ ∃ c t, f.finiteText = c :: t ∧ startsNumber c ∧ (c = '-' → ∃ d u, t = d :: u ∧ isDigit d = true) := by
  obtain ⟨n, rest, h1, h2⟩ := natural_layout f.sign f.shortest.1 f.shortest.2 (shortest_zero f hf) r hr
  rw [PyFloat.ofDecimal_shortest f hf] at h2
  obtain ⟨c', t', e', _⟩ := decimal_cons f.shortest.1
  obtain ⟨c, t, e, hc⟩ := layout_cons (decimal f.shortest.1) (by rw [e']; simp) (decimal_digits _) ((decimal f.shortest.1).length + f.shortest.2)
  have hm : c ≠ '-' := by rintro rfl; exact absurd hc (by decide)
  unfold PyFloat.finiteText
  simp only
  rw [e] at h1 ⊢
  cases hs : f.sign
  · rw [hs] at h2
    simp only [Bool.false_eq_true, if_false, List.nil_append]
    refine ⟨?_, c, t, rfl, .inr hc, fun h => absurd h hm⟩
    rw [List.cons_append] at h1 ⊢
    rw [number_pos hm, h1]
    simp only [h2]
  · rw [hs] at h2
    simp only [if_true, List.singleton_append]
    refine ⟨?_, '-', c :: t, rfl, .inl rfl, fun _ => ⟨c, t, rfl, hc⟩⟩
    rw [List.cons_append, number_neg, h1]
    simp only [h2]

theorem integer_cons (n : Int) : ∃ c t, integer n = c :: t ∧ startsNumber c ∧ (c = '-' → ∃ d u, t = d :: u ∧ isDigit d = true) := by
  cases n with
  | ofNat n =>
    obtain ⟨c, t, e, _⟩ := decimal_cons n
    have hc := decimal_digits n c (by rw [e]; simp)
    exact ⟨c, t, e, .inr hc, by rintro rfl; exact absurd hc (by decide)⟩
  | negSucc n =>
    obtain ⟨c, t, e, _⟩ := decimal_cons (n + 1)
    exact ⟨'-', decimal (n + 1), rfl, .inl rfl, fun _ => ⟨c, t, e, decimal_digits (n + 1) c (by rw [e]; simp)⟩⟩

theorem startsNumber.ne {c : Char} (h : startsNumber c) {d : Char} (h1 : d ≠ '-') (h2 : isDigit d = false) : c ≠ d := by
  rintro rfl
  rcases h with h | h
  · exact h1 h
  · rw [h2] at h; cases h

theorem startsNumber.space {c : Char} (h : startsNumber c) : isSpace c = false := by
  simp [isSpace, h.ne (d := ' ') (by decide) (by decide), h.ne (d := '\t') (by decide) (by decide),
    h.ne (d := '\n') (by decide) (by decide), h.ne (d := '\r') (by decide) (by decide)]

theorem value_number {c : Char} {t : List Char} (h : startsNumber c) (hm : c = '-' → ∃ d u, t = d :: u ∧ isDigit d = true) (f : Nat) :
    value (f + 1) (c :: t) = number (c :: t) := by
  rw [value.eq_def]
  simp only
  rw [if_neg (h.ne (by decide) (by decide)), if_neg (h.ne (by decide) (by decide)), if_neg (h.ne (by decide) (by decide)),
    if_neg (h.ne (by decide) (by decide)), if_neg (h.ne (by decide) (by decide)), if_neg (h.ne (by decide) (by decide)),
    if_neg (h.ne (by decide) (by decide)), if_neg (h.ne (by decide) (by decide))]
  split
  · rename_i hc
    obtain ⟨d, u, rfl, hd⟩ := hm hc
    split
    · rename_i e
      rw [(List.cons.inj e).1] at hd
      exact absurd hd (by decide)
    · rfl
  · rfl

/-- What `json.dumps` writes for a float -/
theorem float_cases (f : PyFloat) (h : PlainFloat f) :
    (f = .nan ∧ floatText f = "NaN".toList) ∨ (f = .posInf ∧ floatText f = "Infinity".toList) ∨
      (f = .negInf ∧ floatText f = "-Infinity".toList) ∨ (f.expo ≠ 2047 ∧ floatText f = f.finiteText) := by
  by_cases hn : f.isNaN = true
  · left
    have := h hn
    subst this
    exact ⟨rfl, rfl⟩
  · right
    by_cases he : f.expo = 2047
    · have hfr : f.frac = 0 := by
        simp [PyFloat.isNaN, he] at hn; exact hn
      have hm := PyFloat.ofMag_magBits f
      rw [PyFloat.magBits_eq, he, hfr] at hm
      cases hs : f.sign
      · left
        rw [hs] at hm
        have : f = .posInf := by rw [← hm]; decide
        subst this
        exact ⟨rfl, by decide⟩
      · right; left
        rw [hs] at hm
        have : f = .negInf := by rw [← hm]; decide
        subst this
        exact ⟨rfl, by decide⟩
    · right; right
      exact ⟨he, by rw [floatText, if_neg hn, if_neg he]⟩

theorem floatText_cons (f : PyFloat) (h : PlainFloat f) : ∃ c t, floatText f = c :: t ∧ isSpace c = false ∧ c ≠ ']' ∧ c ≠ '}' := by
  rcases float_cases f h with ⟨_, e⟩ | ⟨_, e⟩ | ⟨_, e⟩ | ⟨he, e⟩
  · exact ⟨'N', _, e, by decide, by decide, by decide⟩
  · exact ⟨'I', _, e, by decide, by decide, by decide⟩
  · exact ⟨'-', _, e, by decide, by decide, by decide⟩
  · obtain ⟨_, c, t, e', hs, _⟩ := number_finite f he [] (by intro c hc; cases hc)
    exact ⟨c, t, by rw [e, e'], hs.space, hs.ne (by decide) (by decide), hs.ne (by decide) (by decide)⟩

theorem value_float (f : PyFloat) (h : PlainFloat f) (n : Nat) (r : List Char) (hr : Stop r) : value (n + 1) (floatText f ++ r) = .ok (.float f, r) := by
  rcases float_cases f h with ⟨rfl, e⟩ | ⟨rfl, e⟩ | ⟨rfl, e⟩ | ⟨he, e⟩
  · rw [e]; rfl
  · rw [e]; rfl
  · rw [e]; rfl
  · obtain ⟨hn, c, t, e', hs, hm⟩ := number_finite f he r hr
    rw [e]
    rw [e', List.cons_append] at hn ⊢
    rw [value_number hs (fun hc => by obtain ⟨d, u, rfl, hd⟩ := hm hc; exact ⟨d, u ++ r, rfl, hd⟩), hn]

/-! ## Values -/

theorem skip_cons {c : Char} (h : isSpace c = false) (r : List Char) : skip (c :: r) = c :: r := by
  simp [skip, h]

theorem text_cons : ∀ v, Fits jsonLimits v → ∃ c t, text v = c :: t ∧ isSpace c = false ∧ c ≠ ']' ∧ c ≠ '}'
  | .none, _ => ⟨'n', _, by rw [text]; rfl, by decide, by decide, by decide⟩
  | .bool true, _ => ⟨'t', _, by rw [text]; rfl, by decide, by decide, by decide⟩
  | .bool false, _ => ⟨'f', _, by rw [text]; rfl, by decide, by decide, by decide⟩
  | .int n, _ => by
    obtain ⟨c, t, e, h, _⟩ := integer_cons n
    exact ⟨c, t, by rw [text, e], h.space, h.ne (by decide) (by decide), h.ne (by decide) (by decide)⟩
  | .float f, h => by
    rw [Fits] at h; rw [text]; exact floatText_cons f h
  | .bytes _, h => by simp [Fits, jsonLimits] at h
  | .str s, _ => ⟨'"', _, by rw [text]; rfl, by decide, by decide, by decide⟩
  | .list [], _ => ⟨'[', _, by rw [text], by decide, by decide, by decide⟩
  | .list (_ :: _), _ => ⟨'[', _, by rw [text], by decide, by decide, by decide⟩
  | .dict [], _ => ⟨'{', _, by rw [text], by decide, by decide, by decide⟩
  | .dict ((_, _) :: _), _ => ⟨'{', _, by rw [text], by decide, by decide, by decide⟩
  | .obj .., h => by simp [Fits] at h

theorem skip_text {v : Value} (h : Fits jsonLimits v) (r : List Char) : skip (text v ++ r) = text v ++ r := by
  obtain ⟨c, t, e, hs, _⟩ := text_cons v h
  rw [e, List.cons_append, skip_cons hs]

theorem skip_space (r : List Char) : skip (' ' :: r) = skip r := by
  simp [skip, isSpace]

theorem stop_cons {c : Char} (h : isDigit c = false ∧ c ≠ '.' ∧ c ≠ 'e' ∧ c ≠ 'E') (r : List Char) : Stop (c :: r) := by
  intro d hd
  simp at hd
  subst hd; exact h

theorem elements_tail (g : List Char → Except Exc (Value × List Char)) : ∀ (l : List Value) (v : Value) (n : Nat) (r : List Char),
    (∀ w ∈ v :: l, ∀ r, Stop r → g (text w ++ r) = .ok (w, r)) → (∀ w ∈ l, Fits jsonLimits w) → l.length < n →
    elements g n (text v ++ (textTail l ++ r)) = .ok (v :: l, r)
  | [], v, n + 1, r, hg, _, _ => by
    rw [elements, textTail, List.singleton_append, hg v (by simp) _ (stop_cons (by decide) _)]
    simp only [bind, Except.bind, skip_cons (show isSpace ']' = false by decide)]
    simp
  | w :: l, v, n + 1, r, hg, hf, hn => by
    have ih := elements_tail g l w n r (fun x hx => hg x (by simp [List.mem_cons.1 hx])) (fun x hx => hf x (by simp [hx])) (by simpa using hn)
    rw [elements, textTail, List.cons_append, List.cons_append, hg v (by simp) _ (stop_cons (by decide) _)]
    simp only [bind, Except.bind, skip_cons (show isSpace ',' = false by decide), if_true, skip_space, List.append_assoc]
    rw [skip_text (hf w (by simp)), ih]

/-- The pairs of a dict with string keys -/
def strPairs (l : List (String × Value)) : PyDict := l.map fun kv => (.str kv.1, kv.2)

theorem members_tail (g : List Char → Except Exc (Value × List Char)) : ∀ (l : List (String × Value)) (k : String) (v : Value) (n : Nat) (r : List Char),
    (∀ w ∈ (k, v) :: l, ∀ r, Stop r → g (text w.2 ++ r) = .ok (w.2, r)) → (∀ w ∈ (k, v) :: l, Fits jsonLimits w.2) → l.length < n →
    members g n (quote k.toList ++ (':' :: ' ' :: (text v ++ (textMembers (strPairs l) ++ r)))) = .ok ((k, v) :: l, r)
  | [], k, v, n + 1, r, hg, hf, _ => by
    rw [quote_append, members]
    simp only [if_true, string_quoted, bind, Except.bind, skip_cons (show isSpace ':' = false by decide), skip_space,
      skip_text (hf (k, v) (by simp)), strPairs, List.map_nil, textMembers, List.cons_append, List.nil_append]
    rw [hg (k, v) (by simp) _ (stop_cons (by decide) _)]
    simp [skip_cons (show isSpace '}' = false by decide)]
  | (k', w) :: l, k, v, n + 1, r, hg, hf, hn => by
    have ih := members_tail g l k' w n r (fun x hx => hg x (List.mem_cons_of_mem _ hx)) (fun x hx => hf x (List.mem_cons_of_mem _ hx)) (by simpa using hn)
    rw [quote_append, members]
    simp only [strPairs, List.map_cons, textMembers, List.cons_append]
    simp only [if_true, string_quoted, bind, Except.bind, skip_cons (show isSpace ':' = false by decide), skip_space,
      skip_text (hf (k, v) (by simp))]
    rw [hg (k, v) (by simp) _ (stop_cons (by decide) _)]
    simp only [skip_cons (show isSpace ',' = false by decide), if_true, skip_space, keyText, List.append_assoc, List.cons_append]
    rw [← strPairs]
    have hq : ∀ t, skip (quote k'.toList ++ t) = quote k'.toList ++ t := fun t => by
      rw [quote_append, skip_cons (by decide)]
    rw [hq, ih]

theorem set_eq_put : ∀ (d : PyDict) (k : String) (v : Value), d.set k v = d.put (.str k) v
  | [], k, v => rfl
  | (k', w) :: d, k, v => by
    have ih := set_eq_put d k v
    cases k' <;> simp [PyDict.set, PyDict.put, ih]

theorem foldl_set : ∀ (l : List (String × Value)) (d : PyDict),
    l.foldl (fun d kv => PyDict.set d kv.1 kv.2) d = (strPairs l).foldl (fun d kv => d.put kv.1 kv.2) d
  | [], _ => rfl
  | (k, v) :: l, d => by
    rw [List.foldl_cons, strPairs, List.map_cons, List.foldl_cons, ← strPairs, foldl_set l, set_eq_put]

theorem exists_strPairs : ∀ d : PyDict, FitsDict jsonLimits d → ∃ l, d = strPairs l
  | [], _ => ⟨[], rfl⟩
  | (k, v) :: d, h => by
    rw [FitsDict] at h
    obtain ⟨⟨s, rfl, _⟩, _, h3⟩ := h
    obtain ⟨l, rfl⟩ := exists_strPairs d h3
    exact ⟨(s, v) :: l, rfl⟩

theorem textTail_length : ∀ l, l.length < (textTail l).length ∧ ∀ v ∈ l, (text v).length < (textTail l).length
  | [] => by simp [textTail]
  | v :: l => by
    have ih := textTail_length l
    rw [textTail]
    simp only [List.length_cons, List.length_append, List.mem_cons]
    refine ⟨by omega, ?_⟩
    rintro w (rfl | hw)
    · omega
    · have := ih.2 w hw; omega

theorem textMembers_length : ∀ d, d.length < (textMembers d).length ∧ ∀ kv ∈ d, (text kv.2).length < (textMembers d).length
  | [] => by simp [textMembers]
  | (k, v) :: d => by
    have ih := textMembers_length d
    rw [textMembers]
    simp only [List.length_cons, List.length_append, List.mem_cons]
    refine ⟨by omega, ?_⟩
    rintro w (rfl | hw)
    · simp only; omega
    · have := ih.2 w hw; omega

theorem value_text : ∀ (f : Nat) (v : Value), Fits jsonLimits v → (text v).length ≤ f → ∀ r, ((∃ n, v = .int n) ∨ (∃ f, v = .float f) → Stop r) →
    value f (text v ++ r) = .ok (v, r) := by
  intro f
  induction f with
  | zero =>
    intro v hv hl
    obtain ⟨c, t, e, _⟩ := text_cons v hv
    rw [e] at hl
    simp at hl
  | succ f ih =>
    intro v hv hl r hr
    match v, hv, hl with
    | .none, _, _ => rw [text]; rfl
    | .bool true, _, _ => rw [text]; rfl
    | .bool false, _, _ => rw [text]; rfl
    | .int n, _, _ =>
      have hn := number_integer n r (hr (.inl ⟨n, rfl⟩))
      obtain ⟨c, t, e, h, hm⟩ := integer_cons n
      rw [text]
      rw [e, List.cons_append] at hn ⊢
      rw [value_number h (fun hc => by obtain ⟨d, u, rfl, hd⟩ := hm hc; exact ⟨d, u ++ r, rfl, hd⟩), hn]
    | .float x, hv, _ =>
      rw [Fits] at hv
      rw [text, value_float x hv f r (hr (.inr ⟨x, rfl⟩))]
    | .str s, _, _ =>
      rw [text, quote_append, value.eq_def]
      simp only [if_true, string_quoted, bind, Except.bind]
    | .list [], _, _ => rw [text]; rfl
    | .list (v :: l), hv, hl =>
      rw [Fits, FitsList, fitsList_iff] at hv
      rw [text] at hl ⊢
      simp only [List.length_cons, List.length_append] at hl
      have hlen := textTail_length l
      have he := elements_tail (value f) l v ((text v ++ (textTail l ++ r)).length + 1) r
        (by
          intro w hw r hr'
          rcases List.mem_cons.1 hw with rfl | hw
          · exact ih w hv.2.1 (by omega) r fun _ => hr'
          · exact ih w (hv.2.2 w hw) (by have := hlen.2 w hw; omega) r fun _ => hr')
        hv.2.2 (by simp only [List.length_append]; omega)
      obtain ⟨c, t, e, hs, hb, _⟩ := text_cons v hv.2.1
      rw [List.cons_append, List.append_assoc, value.eq_def]
      simp only [if_neg (show ('[' : Char) ≠ '"' by decide), if_neg (show ('[' : Char) ≠ '{' by decide), if_true, skip_text hv.2.1]
      rw [e, List.cons_append] at he ⊢
      simp only [if_neg hb, he, bind, Except.bind]
    | .dict [], _, _ => rw [text]; rfl
    | .dict ((k, v) :: d), hv, hl =>
      rw [Fits] at hv
      have hnd := ofPairs_nodup _ hv.2.1
      have hv' := hv.2.2
      rw [FitsDict] at hv'
      obtain ⟨⟨k, rfl, _⟩, hvv, hd⟩ := hv'
      obtain ⟨l, rfl⟩ := exists_strPairs d hd
      rw [text] at hl ⊢
      rw [fitsDict_iff] at hd
      simp only [List.length_cons, List.length_append] at hl
      have hlen := textMembers_length (strPairs l)
      have hm : ∀ w ∈ l, Fits jsonLimits w.2 ∧ (text w.2).length < (textMembers (strPairs l)).length := fun w hw =>
        have hw' : ((.str w.1, w.2) : Value × Value) ∈ strPairs l := List.mem_map.2 ⟨w, hw, rfl⟩
        ⟨(hd _ hw').2, hlen.2 _ hw'⟩
      have he := members_tail (value f) l k v ((quote k.toList ++ (':' :: ' ' :: (text v ++ (textMembers (strPairs l) ++ r)))).length + 1) r
        (by
          intro w hw r hr'
          rcases List.mem_cons.1 hw with rfl | hw
          · exact ih v hvv (by omega) r fun _ => hr'
          · exact ih w.2 (hm w hw).1 (by have := (hm w hw).2; omega) r fun _ => hr')
        (by
          intro w hw
          rcases List.mem_cons.1 hw with rfl | hw
          · exact hvv
          · exact (hm w hw).1)
        (by
          have : (strPairs l).length = l.length := by simp [strPairs]
          simp only [List.length_append, List.length_cons]; omega)
      have hf := foldl_set ((k, v) :: l) []
      have hp : strPairs ((k, v) :: l) = (.str k, v) :: strPairs l := rfl
      rw [hp] at hf
      rw [PyDict.ofPairs] at hnd
      rw [hnd] at hf
      simp only [List.cons_append, List.append_assoc, keyText]
      rw [value.eq_def]
      simp only [if_neg (show ('{' : Char) ≠ '"' by decide), if_true]
      rw [quote_append] at he ⊢
      rw [skip_cons (by decide)]
      simp only [if_neg (show ('"' : Char) ≠ '}' by decide), he, bind, Except.bind, hf]
    | .bytes _, hv, _ => simp [Fits, jsonLimits] at hv
    | .obj .., hv, _ => simp [Fits] at hv

mutual
theorem writable_fits : ∀ v, Fits jsonLimits v → writable v = .ok ()
  | .none, _ => by rw [writable]
  | .bool _, _ => by rw [writable]
  | .int n, h => by rw [writable]
  | .float _, h => by rw [writable]
  | .str s, h => by rw [writable]
  | .bytes b, h => by simp [Fits, jsonLimits] at h
  | .list l, h => by rw [Fits] at h; rw [writable, writableList_fits l h.2]
  | .dict d, h => by rw [Fits] at h; rw [writable, writableDict_fits d h.2.2]
  | .obj .., h => by simp [Fits] at h
theorem writableList_fits : ∀ l, FitsList jsonLimits l → writableList l = .ok ()
  | [], _ => by rw [writableList]
  | v :: l, h => by rw [FitsList] at h; rw [writableList, writable_fits v h.1, writableList_fits l h.2]; rfl
theorem writableDict_fits : ∀ d, FitsDict jsonLimits d → writableDict d = .ok ()
  | [], _ => by rw [writableDict]
  | (k, v) :: d, h => by
    rw [FitsDict] at h
    obtain ⟨⟨s, rfl, hs⟩, h2, h3⟩ := h
    rw [writableDict, writable_fits v h2, writableDict_fits d h3]; rfl
end

theorem dumps_fits (v : Value) (h : Fits jsonLimits v) : dumps v = .ok (String.ofList (text v)) := by
  rw [dumps, writable_fits v h]; rfl

theorem loads_text (v : Value) (h : Fits jsonLimits v) : loads (String.ofList (text v)) = .ok v := by
  have hv := value_text ((text v).length + 1) v h (by omega) [] (by intro _ c hc; cases hc)
  have hs := skip_text h []
  rw [List.append_nil] at hv hs
  rw [loads, String.toList_ofList, hs, hv]; rfl

/-- A list may be followed by anything: white space is skipped, everything else is refused. -/
theorem loads_list (l : List Value) (h : Fits jsonLimits (.list l)) (x : List Char) :
    loads (String.ofList (text (.list l) ++ x)) = if x.all isSpace then .ok (.list l) else decodeError := by
  have hv := value_text ((text (.list l) ++ x).length + 1) (.list l) h (by simp only [List.length_append]; omega) x (by simp)
  rw [loads, String.toList_ofList, skip_text h, hv]
  show (match skip x with | [] => Except.ok (Value.list l) | _ => decodeError) = _
  have hx : (skip x).isEmpty = x.all isSpace := by
    induction x with
    | nil => rfl
    | cons c x ih =>
      rw [skip, List.dropWhile_cons]
      cases hc : isSpace c
      · simp [hc]
      · simpa [hc, skip] using ih (by
          have := value_text ((text (.list l) ++ x).length + 1) (.list l) h (by simp only [List.length_append]; omega) x (by simp)
          exact this)
  rw [← hx]
  cases skip x <;> rfl

end Wamp.Json
