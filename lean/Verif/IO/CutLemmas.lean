import Verif.IO.CharactersLemmas
import Verif.Props.SummitDamaged
import Verif.Props.Characters

/-! # Lemmas on files that are cut at a character -/

namespace Mito.Summit

variable {D type V : Nat}

/-! ### how many tokens are needed -/

theorem readInt_pos {s : Stream} {x : Int} {s1 : Stream} (h : readInt s = (x, s1)) (hx : x ≠ 0) :
    s.failed = false ∧ s1.failed = false ∧ s.tokens.length = s1.tokens.length + 1 := by
  unfold readInt at h
  split at h
  · simp only [Prod.mk.injEq] at h
    exact absurd h.1.symm hx
  · rename_i hf
    split at h
    · rename_i q r ht
      split at h
      · simp only [Prod.mk.injEq] at h
        obtain ⟨-, rfl⟩ := h
        exact ⟨by simpa using hf, rfl, by rw [ht]; simp⟩
      · simp only [Prod.mk.injEq] at h
        exact absurd h.1.symm hx
    · simp only [Prod.mk.injEq] at h
      exact absurd h.1.symm hx

theorem readInt_le {s : Stream} {x : Int} {s1 : Stream} (h : readInt s = (x, s1)) :
    s1.tokens.length ≤ s.tokens.length ∧ (s1.failed = false → s.failed = false) := by
  unfold readInt at h
  split at h
  · simp only [Prod.mk.injEq] at h
    obtain ⟨-, rfl⟩ := h
    exact ⟨le_rfl, id⟩
  · rename_i hf
    have hf' : s.failed = false := by simpa using hf
    split at h
    · rename_i q r ht
      split at h <;> simp only [Prod.mk.injEq] at h <;> obtain ⟨-, rfl⟩ := h
      · exact ⟨by rw [ht]; simp, fun _ => hf'⟩
      · exact ⟨by rw [ht], fun _ => hf'⟩
    · simp only [Prod.mk.injEq] at h
      obtain ⟨-, rfl⟩ := h
      exact ⟨le_rfl, fun _ => hf'⟩

theorem readInt_pos' {s : Stream} (hx : (readInt s).1 ≠ 0) :
    s.failed = false ∧ (readInt s).2.failed = false ∧ s.tokens.length = (readInt s).2.tokens.length + 1 :=
  readInt_pos (Prod.mk.eta (p := readInt s)).symm hx

theorem readInt_le' (s : Stream) :
    (readInt s).2.tokens.length ≤ s.tokens.length ∧ ((readInt s).2.failed = false → s.failed = false) :=
  readInt_le (Prod.mk.eta (p := readInt s)).symm

theorem readMany_ints {n : Nat} {s : Stream} {ids : List Int} {s' : Stream} (h : readMany readInt n s = (ids, s')) (hp : ∀ i ∈ ids, i ≠ 0)
    (h0 : s.failed = false) : s'.failed = false ∧ s.tokens.length = s'.tokens.length + n := by
  induction n generalizing s ids with
  | zero =>
    simp only [readMany, Prod.mk.injEq] at h
    obtain ⟨-, rfl⟩ := h
    exact ⟨h0, rfl⟩
  | succ n ih =>
    simp only [readMany, Prod.mk.injEq] at h
    obtain ⟨rfl, rfl⟩ := h
    obtain ⟨a1, a2, a3⟩ := readInt_pos' (s := s) (hp _ (by simp))
    obtain ⟨b1, b2⟩ := ih (s := (readInt s).2) (Prod.mk.eta).symm (fun i hi => hp i (by simp [hi])) a2
    exact ⟨b1, by rw [a3, b2]; ring⟩

theorem inRange_ne {n : Nat} {ids : List Int} {c : List Nat} (h : inRange n (ids.map (· - 1)) = some c) : ∀ i ∈ ids, i ≠ 0 := by
  unfold inRange at h
  split at h
  · rename_i hall
    intro i hi
    have := List.all_eq_true.mp hall (i - 1) (List.mem_map.mpr ⟨i, hi, rfl⟩)
    simp at this
    omega
  · simp at h

/-- cells take tokens: a type, the nodes and a label, which may be missing at the last one -/
theorem readElements_tokens (ht : type ≠ 0) {N n : Nat} {s s' : Stream} {cells : List (List Nat)}
    (h : readElements type V N n s = some (cells, s')) (hne : cells ≠ []) :
    s.failed = false ∧ cells.length * (V + 2) ≤ s.tokens.length + 1 := by
  induction n generalizing s cells with
  | zero =>
    simp only [readElements, Option.some.injEq, Prod.mk.injEq] at h
    exact absurd h.1.symm hne
  | succ n ih =>
    rw [readElements] at h
    simp only at h
    split at h
    · rename_i hty
      obtain ⟨a1, a2, a3⟩ := readInt_pos' (s := s) (by rw [hty]; exact_mod_cast ht)
      split at h
      · simp at h
      · rename_i c hr
        split at h
        · simp at h
        · rename_i cs s3 hel
          simp only [Option.some.injEq, Prod.mk.injEq] at h
          obtain ⟨rfl, rfl⟩ := h
          obtain ⟨b1, b2⟩ := readMany_ints (s := (readInt s).2) (Prod.mk.eta).symm (inRange_ne hr) a2
          refine ⟨a1, ?_⟩
          generalize readMany readInt V (readInt s).2 = q at *
          by_cases hcs : cs = []
          · subst hcs
            simp
            omega
          · obtain ⟨c1, c2⟩ := ih hel hcs
            have hsk : q.2.tokens.length = (skip q.2).tokens.length + 1 := by
              unfold skip at c1 ⊢
              rw [if_neg (by simp [b1])] at c1 ⊢
              split at c1
              · rename_i t r hq
                simp [hq]
              · simp at c1
            rw [List.length_cons, Nat.succ_mul]
            omega
    · obtain ⟨c1, c2⟩ := ih h hne
      obtain ⟨d1, d2⟩ := readInt_le' s
      exact ⟨d2 c1, by omega⟩

theorem readNum_tokens {s : Stream} (h : (readNum s).2.failed = false) : s.failed = false ∧ s.tokens.length = (readNum s).2.tokens.length + 1 := by
  unfold readNum at *
  split at h
  · rename_i hf
    simp_all
  · rename_i hf
    split at h
    · rename_i q r ht
      exact ⟨by simpa using hf, by simp [hf, ht]⟩
    · simp at h

theorem readMany_tokens {α : Type} {read : Stream → α × Stream} {d : Nat}
    (hread : ∀ s, (read s).2.failed = false → s.failed = false ∧ s.tokens.length = (read s).2.tokens.length + d) (n : Nat) (s : Stream)
    (h : (readMany read n s).2.failed = false) : s.failed = false ∧ s.tokens.length = (readMany read n s).2.tokens.length + d * n := by
  induction n generalizing s with
  | zero => exact ⟨h, by simp [readMany]⟩
  | succ n ih =>
    simp only [readMany] at h ⊢
    obtain ⟨a1, a2⟩ := ih _ h
    obtain ⟨b1, b2⟩ := hread s a1
    exact ⟨b1, by rw [b2, a2]; ring⟩

/-- a mesh with cells is not read from fewer tokens than are written for it, except for the last label -/
theorem reader_tokens (ht : type ≠ 0) {file : List Token} {nodes : List (List ℚ)} {cells : List (List Nat)}
    (h : reader D type V file = .ok (nodes, cells)) (hne : cells ≠ []) :
    3 + D * nodes.length + cells.length * (V + 2) ≤ file.length := by
  obtain ⟨-, -, rest, rfl⟩ := reader_valid h
  have hneg : ¬ (nodes.length : Int) < 0 := by omega
  simp only [reader, readInt_nat, readInt_one, Int.toNat_natCast, ne_eq, not_true_eq_false, if_false, if_neg hneg] at h
  split at h
  · simp at h
  rename_i cells' s' hel
  have hcs : cells' = cells := by
    split at h
    · simp at h
    split at h
    · simp at h
    simp only [Outcome.ok.injEq, Prod.mk.injEq] at h
    exact h.2
  subst hcs
  obtain ⟨e1, e2⟩ := readElements_tokens ht hel hne
  have hv := (readMany_tokens (fun s hs => readMany_tokens (d := 1) (fun s hs => readNum_tokens hs) D s hs) _ _ e1).2
  simp only [one_mul] at hv
  simp only [List.length_cons]
  omega

/-- what is left of the cells if just the last label is missing -/
theorem reader_without_label (hD0 : 0 < D) (ht : type ≠ 0) {nodes : List (List ℚ)} {read : List (List Nat)} (hne : read ≠ [])
    (h2 : ∀ p ∈ nodes, p.length = D) (h3 : ∀ c ∈ read, c.length = V) (h4 : ∀ c ∈ read, ∀ i ∈ c, i < nodes.length) :
    reader D type V ([.num D, .num nodes.length, .num read.length, .num 1] ++
      ((nodes.flatMap fun p => p.map Token.num) ++ cellTokens type read).take (D * nodes.length + read.length * (V + 2) - 1)) = .ok (nodes, read) := by
  have hn0 : 0 < read.length := List.length_pos_iff.mpr hne
  have hpos : V + 2 ≤ read.length * (V + 2) := Nat.le_mul_of_pos_left _ hn0
  have hneg : ¬ (nodes.length : Int) < 0 := by omega
  obtain ⟨j, hj⟩ : ∃ j, D * nodes.length + read.length * (V + 2) - 1 = j := ⟨_, rfl⟩
  obtain ⟨nodes', s, e1, e2, e3, e4⟩ := rest_cut hD0 ht h2 h3 h4 j (by omega)
  have hw : ¬ WithinCell D V nodes.length (j + 4) := by
    rintro ⟨g1, g2, g3⟩
    have : j + 4 - (4 + D * nodes.length) = (read.length - 1) * (V + 2) + (V + 1) := by
      rw [Nat.sub_mul]
      omega
    rw [this, Nat.add_comm, Nat.add_mul_mod_self_right, Nat.mod_eq_of_lt (by omega)] at g3
    omega
  have hd : (j + 1 - D * nodes.length) / (V + 2) = read.length := by
    rw [show j + 1 - D * nodes.length = read.length * (V + 2) by omega, Nat.mul_div_cancel _ (by omega)]
  rw [e3 (by omega)] at e1
  rw [hj]
  simp only [List.cons_append, List.nil_append, reader, readInt_nat, readInt_one, Int.toNat_natCast, e1, e4, if_neg hw, hd, List.take_length, ne_eq,
    not_true_eq_false, if_false, if_neg hneg]

end Mito.Summit

namespace Mito.Printing

open Mito.Summit Mito.Numbering

/-! ### the words of a text that is cut -/

theorem wordsFrom_head {w : List Char} (hw : w ≠ []) (text : List Char) : ∃ q rest, wordsFrom w text = (w ++ q) :: rest := by
  induction text generalizing w with
  | nil => exact ⟨[], [], by simp [wordsFrom, hw]⟩
  | cons c cs ih =>
    rw [wordsFrom]
    split_ifs with hc
    · exact ⟨[], _, by rw [List.append_nil]⟩
    · obtain ⟨q, rest, h⟩ := ih (w := w ++ [c]) (by simp)
      exact ⟨c :: q, rest, by rw [h]; simp⟩

/-- words are left, and perhaps a part of the next one -/
theorem wordsFrom_take (w text : List Char) (n : Nat) : ∃ k p, wordsFrom w (text.take n) = (wordsFrom w text).take k ++ (if p = [] then [] else [p]) ∧
    k ≤ (wordsFrom w text).length ∧ (p ≠ [] → ∃ q, (wordsFrom w text)[k]? = some (p ++ q)) := by
  induction text generalizing w n with
  | nil => exact ⟨(wordsFrom w []).length, [], by simp, le_rfl, by simp⟩
  | cons c cs ih =>
    cases n with
    | zero =>
      refine ⟨0, w, by simp [wordsFrom], by simp, fun hw => ?_⟩
      obtain ⟨q, rest, h⟩ := wordsFrom_head hw (c :: cs)
      exact ⟨q, by rw [h]; rfl⟩
    | succ n =>
      rw [List.take_succ_cons, wordsFrom, wordsFrom]
      split_ifs with hc hw
      · exact ih [] n
      · obtain ⟨k, p, h1, h2, h3⟩ := ih [] n
        exact ⟨k + 1, p, by rw [h1]; simp, by simpa using h2, by simpa using h3⟩
      · exact ih _ n

theorem Ended.words {a : List Char} (h : Ended a) (r : List Char) : words (a ++ r) = words a ++ words r := by
  rcases h with rfl | ⟨b, c, hc, rfl⟩
  · rfl
  · rw [List.append_assoc, List.singleton_append, words_append hc, words_append hc, show Printing.words [] = [] from rfl, List.append_nil]

/-! ### the digits of a number that is cut -/

theorem digitsValue_lt {l : List Nat} (h : ∀ d ∈ l, d < 10) : digitsValue l < 10 ^ l.length := by
  induction l using List.reverseRecOn with
  | nil => simp [digitsValue]
  | append_singleton l d ih =>
    have h1 := ih fun x hx => h x (by simp [hx])
    have h2 := h d (by simp)
    rw [digitsValue_append, List.length_append, List.length_singleton, pow_one, pow_succ]
    simp only [digitsValue, List.foldl_cons, List.foldl_nil] at *
    omega

theorem digitsValue_div {a b : List Nat} (h : ∀ d ∈ b, d < 10) : digitsValue a = digitsValue (a ++ b) / 10 ^ b.length := by
  rw [digitsValue_append, Nat.mul_comm, Nat.mul_add_div (by positivity), Nat.div_eq_of_lt (digitsValue_lt h), Nat.add_zero]

theorem natDigits_head {n : Nat} (h : n ≠ 0) : ∃ d l, natDigits n = d :: l ∧ d ≠ 0 := by
  induction n using Nat.strong_induction_on with
  | _ n ih =>
    rw [natDigits]
    split_ifs with h10
    · exact ⟨n, [], rfl, h⟩
    · obtain ⟨d, l, h1, h2⟩ := ih (n / 10) (by omega) (by omega)
      exact ⟨d, _, by rw [h1]; rfl, h2⟩

/-- the first digits of a number -/
theorem natDigits_prefix {n : Nat} (h : n ≠ 0) {p q : List Char} (hp : p ≠ []) (he : formatNat n = p ++ q) :
    tokenOf p = .num ((n / 10 ^ q.length : Nat) : ℚ) ∧ n / 10 ^ q.length ≠ 0 := by
  obtain ⟨a, b, hab, ha, hb⟩ := List.map_eq_append_iff.mp he
  have hd := natDigits_lt n
  have hv := natDigits_value n
  rw [hab] at hd hv
  have hda : ∀ d ∈ a, d < 10 := fun d h => hd d (by simp [h])
  have hlen : q.length = b.length := by rw [← hb, List.length_map]
  have hval : digitsValue a = n / 10 ^ q.length := by
    rw [hlen, ← hv]
    exact digitsValue_div fun d h => hd d (by simp [h])
  have hane : a ≠ [] := by
    rintro rfl
    exact hp (by rw [← ha]; rfl)
  constructor
  · have h1 := parseAbs_format hda (f := []) (by simp) hane (E := []) (k := 0) (by simp) rfl
    have e : formatPoint a [] ++ [] = p := by simp [formatPoint, stripZeros, ← ha]
    rw [e] at h1
    have h2 := parseNumber_digits hda hane []
    rw [List.append_nil, ha] at h2
    rw [tokenOf, h2, h1]
    simp [hval]
  · rw [← hval]
    obtain ⟨d, l, h1, h2⟩ := natDigits_head h
    match a, hane with
    | x :: a, _ =>
      rw [hab, List.cons_append, List.cons.injEq] at h1
      rw [show x :: a = [x] ++ a from rfl, digitsValue_append]
      have : digitsValue [x] = x := by simp [digitsValue]
      have hx : 0 < x * 10 ^ a.length := Nat.mul_pos (by omega) (by positivity)
      rw [this]
      omega

end Mito.Printing
