import Verif.IO.Extraction
import Verif.IO.CutLemmas

/-! # Lemmas on `>>` of characters -/

namespace Mito.Printing

open Mito.Summit (Outcome inRange)

/-- the first word of a text -/
theorem words_cons {text w : List Char} {ws : List (List Char)} (h : words text = w :: ws) :
    ∃ r, text.dropWhile isSpace = w ++ r ∧ NoSpace w ∧ w ≠ [] ∧ (∀ c ∈ r.head?, isSpace c = true) ∧ words r = ws := by
  -- a word that was begun
  have key : ∀ (text v w : List Char) (ws : List (List Char)), NoSpace v → v ≠ [] → wordsFrom v text = w :: ws →
      ∃ r, v ++ text = w ++ r ∧ NoSpace w ∧ w ≠ [] ∧ (∀ c ∈ r.head?, isSpace c = true) ∧ words r = ws := by
    intro text
    induction text with
    | nil =>
      intro v w ws hv hne h
      rw [wordsFrom, if_neg hne, List.cons.injEq] at h
      obtain ⟨rfl, rfl⟩ := h
      exact ⟨[], rfl, hv, hne, by simp, rfl⟩
    | cons c text ih =>
      intro v w ws hv hne h
      rw [wordsFrom] at h
      split_ifs at h with hc
      · rw [List.cons.injEq] at h
        obtain ⟨rfl, rfl⟩ := h
        refine ⟨c :: text, rfl, hv, hne, by simpa using hc, ?_⟩
        simp [words, wordsFrom, hc]
      · obtain ⟨r, h1, h2⟩ := ih (v ++ [c]) w ws (hv.append (NoSpace.cons (by simpa using hc) NoSpace.nil)) (by simp) h
        exact ⟨r, by rw [← h1]; simp, h2⟩
  induction text with
  | nil => simp [words, wordsFrom] at h
  | cons c text ih =>
    by_cases hc : isSpace c = true
    · rw [List.dropWhile_cons_of_pos hc]
      refine ih ?_
      rw [words, wordsFrom, if_pos hc, if_pos rfl] at h
      exact h
    · rw [List.dropWhile_cons_of_neg hc]
      rw [words, wordsFrom, if_neg hc] at h
      exact key text [c] w ws (NoSpace.cons (by simpa using hc) NoSpace.nil) (by simp) h

theorem isDigit_of_space {c : Char} (h : isSpace c = true) : isDigit c = false := by
  simp only [isSpace, Bool.or_eq_true, decide_eq_true_eq] at h
  rcases h with rfl | rfl <;> decide

theorem digit_not_sign {n : Nat} (h : n < 10) : digitChar n ≠ '-' ∧ digitChar n ≠ '+' := by
  interval_cases n <;> decide

theorem scanSign_digits {ds : List Nat} (hd : ∀ d ∈ ds, d < 10) (hne : ds ≠ []) (r : List Char) :
    scanSign (ds.map digitChar ++ r) = (false, ds.map digitChar ++ r) := by
  match ds, hne with
  | d :: ds, _ =>
    obtain ⟨h1, h2⟩ := digit_not_sign (hd d (by simp))
    simp [scanSign, h1, h2]

/-- an integer is read -/
theorem readIntChars_word {text : List Char} {n : Nat} {ws : List (List Char)} (h : words text = formatNat n :: ws) (hn : n ≤ intMax) :
    ∃ r, readIntChars ⟨text, false⟩ = ((n : Int), ⟨r, false⟩) ∧ words r = ws := by
  obtain ⟨r, h1, -, -, h4, h5⟩ := words_cons h
  refine ⟨r, ?_, h5⟩
  have hd := natDigits_lt n
  obtain ⟨t1, t2⟩ := takeWhile_digits hd (r := r) fun c hc => isDigit_of_space (h4 c hc)
  rw [formatNat] at h1
  have hne : (natDigits n).map digitChar ≠ [] := by simpa using natDigits_ne n
  simp only [readIntChars, h1, scanSign_digits hd (natDigits_ne n), t1, t2, map_charDigit hd, natDigits_value, if_neg hne, if_pos hn,
    Bool.false_eq_true, if_false]

/-- an integer that is too large is not read -/
theorem readIntChars_large {text : List Char} {n : Nat} {ws : List (List Char)} (h : words text = formatNat n :: ws) (hn : intMax < n) :
    ∃ r, readIntChars ⟨text, false⟩ = ((intMax : Int), ⟨r, true⟩) := by
  obtain ⟨r, h1, -, -, h4, h5⟩ := words_cons h
  refine ⟨r, ?_⟩
  have hd := natDigits_lt n
  obtain ⟨t1, t2⟩ := takeWhile_digits hd (r := r) fun c hc => isDigit_of_space (h4 c hc)
  rw [formatNat] at h1
  have hne : (natDigits n).map digitChar ≠ [] := by simpa using natDigits_ne n
  simp only [readIntChars, h1, scanSign_digits hd (natDigits_ne n), t1, t2, map_charDigit hd, natDigits_value, if_neg hne, if_neg (Nat.not_le.mpr hn),
    Bool.false_eq_true, if_false]

theorem skipChars_word {text w : List Char} {ws : List (List Char)} (h : words text = w :: ws) :
    ∃ r, skipChars ⟨text, false⟩ = ⟨r, false⟩ ∧ words r = ws := by
  obtain ⟨r, h1, h2, h3, h4, h5⟩ := words_cons h
  refine ⟨r, ?_, h5⟩
  have hne : w ++ r ≠ [] := by simp [h3]
  simp only [skipChars, h1, if_neg hne, Bool.false_eq_true, if_false]
  rw [List.dropWhile_append_of_pos (fun c hc => by simp [h2 c hc])]
  cases r with
  | nil => rfl
  | cons c r => rw [List.dropWhile_cons_of_neg (by simp [h4 c (by simp)])]

/-- digits are not taken from behind white space -/
theorem digits_word (w : List Char) {r : List Char} (hr : ∀ c ∈ r.head?, isSpace c = true) :
    (w ++ r).takeWhile isDigit = w.takeWhile isDigit ∧ (w ++ r).dropWhile isDigit = w.dropWhile isDigit ++ r := by
  induction w with
  | nil =>
    cases r with
    | nil => simp
    | cons c r =>
      have := isDigit_of_space (hr c (by simp))
      simp [List.takeWhile_cons, List.dropWhile_cons, this]
  | cons c w ih =>
    by_cases hc : isDigit c = true
    · simp [List.takeWhile_cons, List.dropWhile_cons, hc, ih]
    · simp [List.takeWhile_cons, List.dropWhile_cons, hc]

/-- what `strtod` makes of a word is read from the characters if white space follows -/
theorem scanExponent_word {w r : List Char} {e : ℤ} (h : parseExponent w = some e) (hr : ∀ c ∈ r.head?, isSpace c = true) :
    scanExponent (w ++ r) = (some e, r) := by
  have hsp : ∀ c, isSpace c = true → c ≠ 'e' ∧ c ≠ 'E' := by
    intro c hc
    simp only [isSpace, Bool.or_eq_true, decide_eq_true_eq] at hc
    rcases hc with rfl | rfl <;> decide
  unfold parseExponent at h
  split at h
  · rename_i s cs
    split_ifs at h with h1 h2 h3
    all_goals
      obtain ⟨hne, hall⟩ := h1
      have hall' : ∀ c ∈ cs, isDigit c = true := List.all_eq_true.mp hall
      have ht : (cs ++ r).takeWhile isDigit = cs ∧ (cs ++ r).dropWhile isDigit = r := by
        obtain ⟨a, b⟩ := digits_word cs hr
        rw [a, b, List.takeWhile_eq_self_iff.mpr hall', List.dropWhile_eq_nil_iff.mpr hall']
        simp
      simp only [Option.some.injEq] at h
    · simp only [List.cons_append, scanExponent, scanSign, h2, if_true, ht.1, ht.2, if_neg hne, h, true_or]
    · subst h3
      simp only [List.cons_append, scanExponent, scanSign, h2, if_true, if_false, ht.1, ht.2, if_neg hne, true_or, Bool.false_eq_true, h]
  · simp only [Option.some.injEq] at h
    subst h
    cases r with
    | nil => rfl
    | cons c r =>
      obtain ⟨a, b⟩ := hsp c (hr c (by simp))
      simp [scanExponent, a, b]
  · simp at h

theorem fraction_word {w r : List Char} (hr : ∀ c ∈ r.head?, isSpace c = true) :
    fractionOf (w ++ r) = fractionOf w ∧ behindFraction (w ++ r) = behindFraction w ++ r := by
  cases w with
  | nil =>
    cases r with
    | nil => exact ⟨rfl, rfl⟩
    | cons c r =>
      have hc : c ≠ '.' := by
        have := hr c (by simp)
        rintro rfl
        exact absurd this (by decide)
      simp [fractionOf, behindFraction, hc]
  | cons c w =>
    rw [List.cons_append]
    simp only [fractionOf, behindFraction]
    split_ifs with hc
    · exact digits_word w hr
    · simp

theorem scanSign_abs {w r : List Char} {x : ℚ} (h : parseAbs w = some x) : scanSign (w ++ r) = (false, w ++ r) := by
  cases w with
  | nil => simp [parseAbs] at h
  | cons c w =>
    have : c ≠ '-' ∧ c ≠ '+' := by
      constructor <;>
      · rintro rfl
        rw [parseAbs, List.takeWhile_cons_of_neg (by decide)] at h
        simp at h
    simp [scanSign, this.1, this.2]

theorem parseAbs_word {w r : List Char} {x : ℚ} (h : parseAbs w = some x) (hr : ∀ c ∈ r.head?, isSpace c = true) :
    ∃ e, (w ++ r).takeWhile isDigit ++ fractionOf ((w ++ r).dropWhile isDigit) ≠ [] ∧
      scanExponent (behindFraction ((w ++ r).dropWhile isDigit)) = (some e, r) ∧
      (digitsValue (((w ++ r).takeWhile isDigit ++ fractionOf ((w ++ r).dropWhile isDigit)).map charDigit) : ℚ) /
        10 ^ (fractionOf ((w ++ r).dropWhile isDigit)).length * (10 : ℚ) ^ e = x := by
  rw [parseAbs] at h
  split_ifs at h with hi
  split at h
  · simp at h
  · rename_i e he
    obtain ⟨a, b⟩ := digits_word w hr
    obtain ⟨c, d⟩ := fraction_word (w := w.dropWhile isDigit) hr
    rw [a, b, c, d]
    exact ⟨e, by simp [hi], scanExponent_word he hr, Option.some.inj h⟩

/-- a number is read -/
theorem readDoubleChars_word {text w : List Char} {ws : List (List Char)} {q : ℚ} (h : words text = w :: ws) (hq : parseNumber w = some q) :
    ∃ r, readDoubleChars ⟨text, false⟩ = (q, ⟨r, false⟩) ∧ words r = ws := by
  obtain ⟨r, h1, -, hne, h4, h5⟩ := words_cons h
  refine ⟨r, ?_, h5⟩
  by_cases hm : ∃ v, w = '-' :: v
  · obtain ⟨v, rfl⟩ := hm
    rw [parseNumber, Option.map_eq_some_iff] at hq
    obtain ⟨x, hx, rfl⟩ := hq
    obtain ⟨e, e1, e2, e3⟩ := parseAbs_word hx h4
    have hs : scanSign ('-' :: v ++ r) = (true, v ++ r) := by simp [scanSign]
    simp only [readDoubleChars, h1, hs, e1, e2, e3, Bool.false_eq_true, if_false, if_true]
  · have hp : parseNumber w = parseAbs w := by
      match w, hne with
      | c :: w, _ => exact parseNumber_of_ne (fun hc => hm ⟨w, by rw [hc]⟩) w
    rw [hp] at hq
    obtain ⟨e, e1, e2, e3⟩ := parseAbs_word hq h4
    simp only [readDoubleChars, h1, scanSign_abs hq, e1, e2, e3, Bool.false_eq_true, if_false]

/-- `n` reads in a row -/
theorem manyChars_words {α : Type} {read : CharStream → α × CharStream} (xs : List (α × List (List Char)))
    (h : ∀ x ∈ xs, ∀ text ws, words text = x.2 ++ ws → ∃ r, read ⟨text, false⟩ = (x.1, ⟨r, false⟩) ∧ words r = ws) (text : List Char)
    (ws : List (List Char)) (ht : words text = xs.flatMap (·.2) ++ ws) :
    ∃ r, manyChars read xs.length ⟨text, false⟩ = (xs.map (·.1), ⟨r, false⟩) ∧ words r = ws := by
  induction xs generalizing text with
  | nil => exact ⟨text, rfl, by simpa using ht⟩
  | cons x xs ih =>
    rw [List.flatMap_cons, List.append_assoc] at ht
    obtain ⟨r, h1, h2⟩ := h x (by simp) text _ ht
    obtain ⟨r', h3, h4⟩ := ih (fun y hy => h y (by simp [hy])) r h2
    exact ⟨r', by simp only [List.length_cons, manyChars, h1, h3, List.map_cons], h4⟩

theorem words_flatMap {α : Type} (l : List α) {f : α → List Char} (h : ∀ x ∈ l, Ended (f x)) :
    words (l.flatMap f) = l.flatMap fun x => words (f x) := by
  induction l with
  | nil => rfl
  | cons a l ih => rw [List.flatMap_cons, (h a (by simp)).words, ih fun x hx => h x (by simp [hx]), List.flatMap_cons]

theorem words_snoc (a : List Char) {c : Char} (hc : isSpace c = true) : words (a ++ [c]) = words a := by
  rw [words_append hc, show words [] = [] from rfl, List.append_nil]

/-- the words of a cell -/
def cellWords (type : Nat) (c : List Nat) : List (List Char) := formatNat type :: c.map (fun i => formatNat (i + 1)) ++ [formatNat 1]

theorem elementsChars_words {type V nNodes : Nat} (ht : type ≤ intMax) (hN : nNodes ≤ intMax) (cells : List (List Nat)) (hV : ∀ c ∈ cells, c.length = V)
    (hr : ∀ c ∈ cells, ∀ i ∈ c, i < nNodes) (text : List Char) (hw : words text = cells.flatMap (cellWords type)) :
    ∃ s, elementsChars type V nNodes cells.length ⟨text, false⟩ = some (cells, s) := by
  induction cells generalizing text with
  | nil => exact ⟨_, rfl⟩
  | cons c cells ih =>
    have hc := hV c (by simp)
    have hrc := hr c (by simp)
    rw [List.flatMap_cons, cellWords, List.append_assoc, List.cons_append] at hw
    obtain ⟨r1, a1, a2⟩ := readIntChars_word hw ht
    obtain ⟨r2, b1, b2⟩ := manyChars_words (read := readIntChars) (c.map fun i => (((i + 1 : Nat) : Int), [formatNat (i + 1)]))
      (fun x hx text ws h => by
        obtain ⟨i, hi, rfl⟩ := List.mem_map.mp hx
        exact readIntChars_word h (by have := hrc i hi; omega))
      r1 _ (by
        rw [a2, List.flatMap_map]
        congr 1
        rw [List.flatMap_def, flatten_singles])
    obtain ⟨r3, c1, c2⟩ := skipChars_word b2
    obtain ⟨s, d⟩ := ih (fun c h => hV c (by simp [h])) (fun c h => hr c (by simp [h])) r3 c2
    refine ⟨s, ?_⟩
    rw [List.length_map, hc] at b1
    have hin : inRange nNodes ((c.map fun i : Nat => ((i + 1 : Nat) : Int)).map (· - 1)) = some c := by
      rw [inRange, if_pos]
      · simp [Function.comp_def]
      · rw [List.all_eq_true]
        intro i hi
        simp only [List.map_map, List.mem_map, Function.comp_apply] at hi
        obtain ⟨j, hj, rfl⟩ := hi
        have := hrc j hj
        simp
        omega
    rw [List.map_map] at b1
    simp only [List.length_cons, elementsChars, a1, if_true]
    rw [b1]
    simp only [Function.comp_def, hin, c1, d]

end Mito.Printing
