import Verif.IO.Characters
import Verif.IO.PrintingLemmas
import Mathlib.Data.List.TakeWhile
import Mathlib.Tactic.IntervalCases

/-! # Lemmas on the characters of Summit files -/

namespace Mito.Printing

open Mito.Summit Mito.Numbering

theorem isDigit_digitChar {n : Nat} (h : n < 10) : isDigit (digitChar n) = true := by
  interval_cases n <;> decide

theorem charDigit_digitChar {n : Nat} (h : n < 10) : charDigit (digitChar n) = n := by
  interval_cases n <;> decide

theorem isSpace_digitChar {n : Nat} (h : n < 10) : isSpace (digitChar n) = false := by
  interval_cases n <;> decide

theorem digitChar_ne_minus {n : Nat} (h : n < 10) : digitChar n ≠ '-' := by
  interval_cases n <;> decide

theorem digitsValue_append (a b : List Nat) : digitsValue (a ++ b) = digitsValue a * 10 ^ b.length + digitsValue b := by
  have key : ∀ (b : List Nat) (x : Nat), b.foldl (fun a d => 10 * a + d) x = x * 10 ^ b.length + b.foldl (fun a d => 10 * a + d) 0 := by
    intro b
    induction b with
    | nil => simp
    | cons d b ih =>
      intro x
      rw [List.foldl_cons, ih, List.foldl_cons, ih (10 * 0 + d), List.length_cons, pow_succ]
      ring
  rw [digitsValue, List.foldl_append, key]
  rfl

theorem digitsValue_zeros (k : Nat) : digitsValue (List.replicate k 0) = 0 := by
  induction k with
  | zero => rfl
  | succ k ih => rw [List.replicate_succ', digitsValue_append, ih]; rfl

theorem natDigits_lt (n : Nat) : ∀ d ∈ natDigits n, d < 10 := by
  induction n using Nat.strong_induction_on with
  | _ n ih =>
    rw [natDigits]
    split_ifs with h
    · simpa using h
    · intro d hd
      rw [List.mem_append, List.mem_singleton] at hd
      rcases hd with hd | rfl
      · exact ih _ (by omega) d hd
      · omega

theorem natDigits_ne (n : Nat) : natDigits n ≠ [] := by
  rw [natDigits]
  split_ifs <;> simp

theorem natDigits_value (n : Nat) : digitsValue (natDigits n) = n := by
  induction n using Nat.strong_induction_on with
  | _ n ih =>
    rw [natDigits]
    split_ifs with h
    · simp [digitsValue]
    · rw [digitsValue_append, ih _ (by omega)]
      simp [digitsValue]
      omega

theorem lastDigits_lt (w m : Nat) : ∀ d ∈ lastDigits w m, d < 10 := by
  induction w generalizing m with
  | zero => simp [lastDigits]
  | succ w ih =>
    intro d hd
    rw [lastDigits, List.mem_append, List.mem_singleton] at hd
    rcases hd with hd | rfl
    · exact ih _ d hd
    · omega

theorem lastDigits_length (w m : Nat) : (lastDigits w m).length = w := by
  induction w generalizing m with
  | zero => rfl
  | succ w ih => simp [lastDigits, ih]

theorem lastDigits_value (w m : Nat) (h : m < 10 ^ w) : digitsValue (lastDigits w m) = m := by
  induction w generalizing m with
  | zero => simp at h; simp [h, lastDigits, digitsValue]
  | succ w ih =>
    rw [lastDigits, digitsValue_append, ih _ (by rw [pow_succ] at h; omega)]
    simp [digitsValue]
    omega

theorem stripZeros_spec (f : List Nat) : ∃ k, f = stripZeros f ++ List.replicate k 0 := by
  refine ⟨(f.reverse.takeWhile (· = 0)).length, ?_⟩
  have h := List.takeWhile_append_dropWhile (p := fun x => decide (x = 0)) (l := f.reverse)
  have h2 : f.reverse.takeWhile (fun x => decide (x = 0)) = List.replicate (f.reverse.takeWhile (fun x => decide (x = 0))).length 0 := by
    rw [List.eq_replicate_iff]
    refine ⟨rfl, fun b hb => ?_⟩
    have := List.mem_takeWhile_imp hb
    simpa using this
  have h3 := congrArg List.reverse h
  rw [List.reverse_append, List.reverse_reverse, h2, List.reverse_replicate] at h3
  exact h3.symm

theorem stripZeros_lt {f : List Nat} (h : ∀ d ∈ f, d < 10) : ∀ d ∈ stripZeros f, d < 10 := by
  obtain ⟨k, hk⟩ := stripZeros_spec f
  intro d hd
  exact h d (by rw [hk]; exact List.mem_append_left _ hd)

/-- zeros at the end do not change the value -/
theorem stripZeros_value (i f : List Nat) : (digitsValue (i ++ stripZeros f) : ℚ) / 10 ^ (stripZeros f).length = digitsValue (i ++ f) / 10 ^ f.length := by
  obtain ⟨k, hk⟩ := stripZeros_spec f
  generalize stripZeros f = g at hk
  subst hk
  rw [← List.append_assoc, digitsValue_append (i ++ g), digitsValue_zeros, List.length_append, List.length_replicate, pow_add]
  push_cast
  field_simp
  ring

theorem all_isDigit {l : List Nat} (h : ∀ d ∈ l, d < 10) : ∀ c ∈ l.map digitChar, isDigit c = true := by
  intro c hc
  obtain ⟨d, hd, rfl⟩ := List.mem_map.mp hc
  exact isDigit_digitChar (h d hd)

theorem map_charDigit {l : List Nat} (h : ∀ d ∈ l, d < 10) : (l.map digitChar).map charDigit = l := by
  rw [List.map_map]
  conv_rhs => rw [← List.map_id l]
  exact List.map_congr_left fun d hd => charDigit_digitChar (h d hd)

theorem takeWhile_digits {l : List Nat} (h : ∀ d ∈ l, d < 10) {r : List Char} (hr : ∀ c ∈ r.head?, isDigit c = false) :
    (l.map digitChar ++ r).takeWhile isDigit = l.map digitChar ∧ (l.map digitChar ++ r).dropWhile isDigit = r := by
  rw [List.takeWhile_append_of_pos (all_isDigit h), List.dropWhile_append_of_pos (all_isDigit h)]
  cases r with
  | nil => simp
  | cons c r =>
    have := hr c (by simp)
    simp [this]

/-- a number with a point and an exponent is read -/
theorem parseAbs_format {i f : List Nat} (hi : ∀ d ∈ i, d < 10) (hf : ∀ d ∈ f, d < 10) (hne : i ≠ []) {E : List Char} {k : ℤ}
    (hE : ∀ c ∈ E.head?, isDigit c = false ∧ c ≠ '.') (hk : parseExponent E = some k) :
    parseAbs (formatPoint i f ++ E) = some ((digitsValue (i ++ f) : ℚ) / 10 ^ f.length * (10 : ℚ) ^ k) := by
  have hi' : i.map digitChar ≠ [] := by simpa using hne
  rw [← stripZeros_value i f]
  rw [formatPoint]
  split_ifs with h
  · rw [List.append_nil]
    obtain ⟨t1, t2⟩ := takeWhile_digits hi (r := E) fun c hc => (hE c hc).1
    rw [parseAbs]
    simp only [t1, t2]
    have hm : fractionOf E = [] := by
      cases E with
      | nil => rfl
      | cons c r => simp [fractionOf, (hE c (by simp)).2]
    have hm2 : behindFraction E = E := by
      cases E with
      | nil => rfl
      | cons c r => simp [behindFraction, (hE c (by simp)).2]
    rw [hm, hm2, if_neg hi', hk]
    simp [h, map_charDigit hi, List.map_append]
  · have hs := stripZeros_lt hf
    generalize stripZeros f = g at *
    rw [List.append_assoc, List.cons_append]
    obtain ⟨t1, t2⟩ := takeWhile_digits hi (r := '.' :: (g.map digitChar ++ E)) fun c hc => by
      simp only [List.head?_cons, Option.mem_def, Option.some.injEq] at hc
      subst hc
      decide
    obtain ⟨t3, t4⟩ := takeWhile_digits hs (r := E) fun c hc => (hE c hc).1
    rw [parseAbs]
    simp only [t1, t2, fractionOf, behindFraction, if_true, t3, t4]
    rw [if_neg hi', hk]
    simp only [List.length_map]
    rw [← List.map_append, map_charDigit]
    intro d hd
    rw [List.mem_append] at hd
    exact hd.elim (hi d) (hs d)

theorem parseExponent_format (k : ℤ) : parseExponent (formatExponent k) = some k := by
  have hd : ∀ d ∈ (if k.natAbs < 10 then [0] else []) ++ natDigits k.natAbs, d < 10 := by
    intro d hd
    rw [List.mem_append] at hd
    rcases hd with hd | hd
    · split_ifs at hd <;> simp at hd
      omega
    · exact natDigits_lt _ d hd
  have hv : digitsValue ((if k.natAbs < 10 then [0] else []) ++ natDigits k.natAbs) = k.natAbs := by
    split_ifs
    · rw [digitsValue_append, natDigits_value]
      simp [digitsValue]
    · rw [List.nil_append, natDigits_value]
  have hne : (if k.natAbs < 10 then [0] else []) ++ natDigits k.natAbs ≠ [] := by
    simp [natDigits_ne]
  rw [formatExponent]
  generalize (if k.natAbs < 10 then [0] else []) ++ natDigits k.natAbs = l at *
  rw [parseExponent, if_pos ⟨by simpa using hne, by rw [List.all_eq_true]; exact all_isDigit hd⟩, map_charDigit hd, hv]
  split_ifs with h1 h2 h2
  all_goals first | (congr 1; omega) | simp_all

/-- the digits of the number that is printed -/
theorem mantissa_spec {q : ℚ} (hq : decimal q ≠ 0) :
    mantissa q < 10 ^ 15 ∧ |decimal q| = mantissa q * (10 : ℚ) ^ (Int.log 10 |decimal q| - 14) := by
  have hd := (decimal_nearest q).1
  rw [mantissa]
  generalize decimal q = d at *
  have h1 : (10 : ℚ) ^ Int.log 10 |d| ≤ |d| := by exact_mod_cast Int.zpow_log_le_self (R := ℚ) (b := 10) (by norm_num) (abs_pos.mpr hq)
  have h2 : |d| < (10 : ℚ) ^ (Int.log 10 |d| + 1) := by exact_mod_cast Int.lt_zpow_succ_log_self (R := ℚ) (b := 10) (by norm_num) |d|
  generalize Int.log 10 |d| = k at *
  obtain ⟨n, hn⟩ := hd.multiple (k := k) (by norm_num) (by exact_mod_cast h1)
  have hw : (0 : ℚ) < 10 ^ (k - 14) := zpow_pos (by norm_num) _
  have e : |d| = ((n.natAbs : ℕ) : ℚ) * (10 : ℚ) ^ (k - 14) := by
    rw [hn, abs_mul]
    push_cast
    rw [show k + 1 - 15 = k - 14 by ring, abs_of_pos hw, Nat.cast_natAbs, Int.cast_abs]
  have e2 : (10 : ℚ) ^ (k + 1) = 10 ^ 15 * 10 ^ (k - 14) := by
    rw [← zpow_natCast, ← zpow_add₀ (by norm_num)]
    congr 1
    push_cast
    ring
  have e3 : (|d| / 10 ^ (k - 14)).floor.toNat = n.natAbs := by
    rw [e, mul_div_cancel_right₀ _ hw.ne', ← Int.cast_natCast, Rat.floor_intCast]
    rfl
  rw [e3]
  refine ⟨?_, e⟩
  rw [e, e2] at h2
  have := lt_of_mul_lt_mul_right h2 hw.le
  exact_mod_cast this

/-- the magnitude of a number is read as it was printed -/
theorem parseAbs_formatAbs {q : ℚ} (hq : decimal q ≠ 0) : parseAbs (formatAbs q) = some |decimal q| := by
  obtain ⟨h1, h2⟩ := mantissa_spec hq
  have hv := lastDigits_value 15 _ h1
  have hl := lastDigits_length 15 (mantissa q)
  have hd := lastDigits_lt 15 (mantissa q)
  rw [formatAbs]
  generalize lastDigits 15 (mantissa q) = s at *
  conv_rhs => rw [h2]
  generalize Int.log 10 |decimal q| = k at *
  generalize mantissa q = m at *
  clear h2
  subst hv
  have ht : ∀ n, ∀ d ∈ s.take n, d < 10 := fun n d h => hd d (List.mem_of_mem_take h)
  have hdr : ∀ n, ∀ d ∈ s.drop n, d < 10 := fun n d h => hd d (List.mem_of_mem_drop h)
  have htn : ∀ n, s.take (n + 1) ≠ [] := by
    intro n h
    have := congrArg List.length h
    simp [hl] at this
  have fin : ∀ (j : ℕ) (e : ℤ), e - j = k - 14 →
      (digitsValue s : ℚ) / 10 ^ j * (10 : ℚ) ^ e = digitsValue s * (10 : ℚ) ^ (k - 14) := by
    intro j e he
    rw [← he, zpow_sub₀ (by norm_num), zpow_natCast]
    ring
  split_ifs with ha hb
  · have := parseAbs_format (ht (k.toNat + 1)) (hdr (k.toNat + 1)) (htn _) (E := []) (k := 0) (by simp) rfl
    rw [List.append_nil, List.take_append_drop] at this
    rw [this, fin]
    rw [List.length_drop, hl]
    omega
  · have hz : ∀ d ∈ List.replicate ((-k).toNat - 1) 0 ++ s, d < 10 := by
      intro d h
      rw [List.mem_append] at h
      rcases h with h | h
      · rw [List.eq_of_mem_replicate h]
        norm_num
      · exact hd d h
    have := parseAbs_format (i := [0]) (by simp) hz (by simp) (E := []) (k := 0) (by simp) rfl
    rw [List.append_nil] at this
    have hval : digitsValue ([0] ++ (List.replicate ((-k).toNat - 1) 0 ++ s)) = digitsValue s := by
      rw [digitsValue_append, digitsValue_append, digitsValue_zeros]
      simp [digitsValue]
    rw [this, hval, fin]
    rw [List.length_append, List.length_replicate, hl]
    omega
  · have := parseAbs_format (ht 1) (hdr 1) (htn 0) (E := formatExponent k) (k := k) (by
      intro c hc
      simp only [formatExponent, List.head?_cons, Option.mem_def, Option.some.injEq] at hc
      subst hc
      decide) (parseExponent_format k)
    rw [List.take_append_drop] at this
    rw [this, fin]
    rw [List.length_drop, hl]
    omega

/-! ### signs and integers -/

theorem decimal_zero_iff {q : ℚ} : decimal q = 0 ↔ q = 0 := by
  constructor
  · intro h
    have := decimal_nearest.relative (by norm_num) (by norm_num) q
    rw [h, zero_sub, abs_neg] at this
    norm_num at this
    exact abs_eq_zero.mp (by linarith [abs_nonneg q])
  · rintro rfl
    simp [decimal]

theorem decimal_neg_iff {q : ℚ} : decimal q < 0 ↔ q < 0 := by
  have := decimal_nearest.relative (by norm_num) (by norm_num) q
  norm_num at this
  obtain ⟨a, b⟩ := abs_le.mp this
  constructor
  · intro h
    by_contra hq
    rw [not_lt] at hq
    rw [abs_of_nonneg hq] at a
    linarith
  · intro h
    rw [abs_of_neg h] at b
    linarith

theorem parseNumber_of_ne {c : Char} (h : c ≠ '-') (cs : List Char) : parseNumber (c :: cs) = parseAbs (c :: cs) := by
  rw [parseNumber]
  simp [h]

theorem parseNumber_digits {i : List Nat} (hi : ∀ d ∈ i, d < 10) (hne : i ≠ []) (r : List Char) :
    parseNumber (i.map digitChar ++ r) = parseAbs (i.map digitChar ++ r) := by
  match i, hne with
  | d :: i, _ => exact parseNumber_of_ne (digitChar_ne_minus (hi d (by simp))) _

/-- what is printed starts with a digit -/
theorem formatAbs_digits (q : ℚ) : ∃ i r, (∀ d ∈ i, d < 10) ∧ i ≠ [] ∧ formatAbs q = i.map digitChar ++ r := by
  have hl := lastDigits_length 15 (mantissa q)
  have hd := lastDigits_lt 15 (mantissa q)
  rw [formatAbs]
  generalize lastDigits 15 (mantissa q) = s at *
  have htn : ∀ n, s.take (n + 1) ≠ [] := by
    intro n h
    have := congrArg List.length h
    simp [hl] at this
  have ht : ∀ n, ∀ d ∈ s.take n, d < 10 := fun n d h => hd d (List.mem_of_mem_take h)
  split_ifs
  · exact ⟨_, _, ht _, htn _, rfl⟩
  · exact ⟨[0], _, by simp, by simp, rfl⟩
  · exact ⟨_, _, ht _, htn 0, by rw [formatPoint, List.append_assoc]⟩

/-- a number is read as it was printed -/
theorem parseNumber_format (q : ℚ) : parseNumber (formatDouble q) = some (decimal q) := by
  rw [formatDouble]
  split_ifs with h0 hn
  · rw [decimal_zero_iff.mpr h0]
    decide +kernel
  · have hd : decimal q ≠ 0 := fun h => h0 (decimal_zero_iff.mp h)
    rw [List.singleton_append, parseNumber, parseAbs_formatAbs hd, abs_of_neg (decimal_neg_iff.mpr hn)]
    simp
  · have hd : decimal q ≠ 0 := fun h => h0 (decimal_zero_iff.mp h)
    have h1 : 0 ≤ decimal q := not_lt.mp fun h => hn (decimal_neg_iff.mp h)
    obtain ⟨i, r, a1, a2, a3⟩ := formatAbs_digits q
    rw [List.nil_append, a3, parseNumber_digits a1 a2, ← a3, parseAbs_formatAbs hd, abs_of_nonneg h1]

theorem parseNumber_formatNat (n : Nat) : parseNumber (formatNat n) = some (n : ℚ) := by
  have h := parseAbs_format (natDigits_lt n) (f := []) (by simp) (natDigits_ne n) (E := []) (k := 0) (by simp) rfl
  have e : formatPoint (natDigits n) [] ++ [] = formatNat n := by simp [formatPoint, stripZeros, formatNat]
  rw [e] at h
  have := parseNumber_digits (natDigits_lt n) (natDigits_ne n) []
  rw [List.append_nil] at this
  rw [formatNat, this, ← formatNat, h]
  simp [natDigits_value]

/-! ### words -/

/-- no white space -/
def NoSpace (l : List Char) : Prop := ∀ c ∈ l, isSpace c = false

theorem NoSpace.append {a b : List Char} (ha : NoSpace a) (hb : NoSpace b) : NoSpace (a ++ b) := by
  intro c hc
  rw [List.mem_append] at hc
  exact hc.elim (ha c) (hb c)

theorem NoSpace.cons {c : Char} {l : List Char} (hc : isSpace c = false) (h : NoSpace l) : NoSpace (c :: l) := by
  intro d hd
  rw [List.mem_cons] at hd
  rcases hd with rfl | hd
  · exact hc
  · exact h d hd

theorem NoSpace.digits {l : List Nat} (h : ∀ d ∈ l, d < 10) : NoSpace (l.map digitChar) := by
  intro c hc
  obtain ⟨d, hd, rfl⟩ := List.mem_map.mp hc
  exact isSpace_digitChar (h d hd)

theorem NoSpace.nil : NoSpace [] := by
  intro c hc
  simp at hc

theorem NoSpace.formatNat (n : Nat) : NoSpace (formatNat n) := NoSpace.digits (natDigits_lt n)

theorem NoSpace.formatPoint {i f : List Nat} (hi : ∀ d ∈ i, d < 10) (hf : ∀ d ∈ f, d < 10) : NoSpace (formatPoint i f) := by
  rw [Printing.formatPoint]
  refine (NoSpace.digits hi).append ?_
  split_ifs
  · exact .nil
  · exact .cons (by decide) (NoSpace.digits (stripZeros_lt hf))

theorem NoSpace.formatExponent (k : ℤ) : NoSpace (formatExponent k) := by
  rw [Printing.formatExponent]
  refine .cons (by decide) (.cons (by split_ifs <;> decide) (NoSpace.digits ?_))
  intro d hd
  rw [List.mem_append] at hd
  rcases hd with hd | hd
  · split_ifs at hd <;> simp at hd
    omega
  · exact natDigits_lt _ d hd

theorem NoSpace.formatDouble (q : ℚ) : NoSpace (formatDouble q) := by
  have hd := lastDigits_lt 15 (mantissa q)
  have habs : NoSpace (formatAbs q) := by
    rw [formatAbs]
    generalize lastDigits 15 (mantissa q) = s at *
    have ht : ∀ n, ∀ d ∈ s.take n, d < 10 := fun n d h => hd d (List.mem_of_mem_take h)
    have hdr : ∀ n, ∀ d ∈ s.drop n, d < 10 := fun n d h => hd d (List.mem_of_mem_drop h)
    split_ifs
    · exact NoSpace.formatPoint (ht _) (hdr _)
    · refine NoSpace.formatPoint (by simp) ?_
      intro d h
      rw [List.mem_append] at h
      rcases h with h | h
      · rw [List.eq_of_mem_replicate h]
        norm_num
      · exact hd d h
    · exact (NoSpace.formatPoint (ht _) (hdr _)).append (NoSpace.formatExponent _)
  rw [Printing.formatDouble]
  split_ifs
  · exact .cons (by decide) .nil
  · exact .cons (by decide) habs
  · exact habs

theorem wordsFrom_append {c : Char} (hc : isSpace c = true) (w a r : List Char) : wordsFrom w (a ++ c :: r) = wordsFrom w a ++ words r := by
  induction a generalizing w with
  | nil =>
    simp only [List.nil_append, wordsFrom, hc, if_true, words]
    split_ifs <;> simp
  | cons d a ih =>
    rw [List.cons_append, wordsFrom, wordsFrom]
    split_ifs <;> simp [ih]

theorem words_append {c : Char} (hc : isSpace c = true) (a r : List Char) : words (a ++ c :: r) = words a ++ words r := wordsFrom_append hc [] a r

theorem words_single {a : List Char} (ha : NoSpace a) (hne : a ≠ []) : words a = [a] := by
  have key : ∀ (a w : List Char), NoSpace a → wordsFrom w a = if w ++ a = [] then [] else [w ++ a] := by
    intro a
    induction a with
    | nil => intro w _; simp [wordsFrom]
    | cons c a ih =>
      intro w h
      have hc := h c (by simp)
      rw [wordsFrom, if_neg (by simp [hc]), ih _ fun d hd => h d (by simp [hd])]
      simp
  rw [words, key _ _ ha]
  simp [hne]

theorem tokens_append {c : Char} (hc : isSpace c = true) (a r : List Char) : tokens (a ++ c :: r) = tokens a ++ tokens r := by
  rw [tokens, words_append hc, List.map_append, tokens, tokens]

theorem formatNat_ne (n : Nat) : formatNat n ≠ [] := by
  simp [formatNat, natDigits_ne]

theorem formatDouble_ne (q : ℚ) : formatDouble q ≠ [] := by
  intro h
  have := parseNumber_format q
  rw [h] at this
  simp [parseNumber, parseAbs] at this

theorem tokens_formatNat (n : Nat) : tokens (formatNat n) = [.num n] := by
  rw [tokens, words_single (NoSpace.formatNat n) (formatNat_ne n), List.map_singleton, tokenOf, parseNumber_formatNat]

theorem tokens_formatDouble (q : ℚ) : tokens (formatDouble q) = [.num (decimal q)] := by
  rw [tokens, words_single (NoSpace.formatDouble q) (formatDouble_ne q), List.map_singleton, tokenOf, parseNumber_format]

theorem tokens_nil : tokens [] = [] := rfl

/-- a part of a text that ends with white space -/
def Ended (a : List Char) : Prop := a = [] ∨ ∃ b c, isSpace c = true ∧ a = b ++ [c]

theorem Ended.tokens {a : List Char} (h : Ended a) (r : List Char) : tokens (a ++ r) = tokens a ++ tokens r := by
  rcases h with rfl | ⟨b, c, hc, rfl⟩
  · rw [tokens_nil]
    rfl
  · rw [List.append_assoc, List.singleton_append, tokens_append hc, tokens_append hc, tokens_nil, List.append_nil]

theorem Ended.append {a b : List Char} (ha : Ended a) (hb : Ended b) : Ended (a ++ b) := by
  rcases hb with rfl | ⟨b, c, hc, rfl⟩
  · rwa [List.append_nil]
  · exact .inr ⟨a ++ b, c, hc, by rw [List.append_assoc]⟩

theorem Ended.snoc (a : List Char) {c : Char} (hc : isSpace c = true) : Ended (a ++ [c]) := .inr ⟨a, c, hc, rfl⟩

theorem tokens_snoc (a : List Char) {c : Char} (hc : isSpace c = true) : Printing.tokens (a ++ [c]) = Printing.tokens a := by
  rw [tokens_append hc, tokens_nil, List.append_nil]

theorem Ended.flatMap {α : Type} (l : List α) {f : α → List Char} (h : ∀ x ∈ l, Ended (f x)) :
    Ended (l.flatMap f) ∧ Printing.tokens (l.flatMap f) = l.flatMap fun x => Printing.tokens (f x) := by
  induction l with
  | nil => exact ⟨.inl rfl, rfl⟩
  | cons a l ih =>
    have ha := h a (by simp)
    obtain ⟨i1, i2⟩ := ih fun x hx => h x (by simp [hx])
    rw [List.flatMap_cons, List.flatMap_cons]
    exact ⟨ha.append i1, by rw [ha.tokens, i2]⟩

theorem allSome_map_map {α β γ : Type} (g : α → Option β) (h : β → γ) (l : List α) :
    allSome (l.map fun x => (g x).map h) = (allSome (l.map g)).map (List.map h) := by
  induction l with
  | nil => rfl
  | cons a l ih =>
    rw [List.map_cons, List.map_cons]
    cases g a with
    | none => rfl
    | some b =>
      simp only [Option.map_some, allSome, ih, Option.map_map]
      rfl

end Mito.Printing
