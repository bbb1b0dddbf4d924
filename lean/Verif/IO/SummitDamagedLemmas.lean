import Verif.IO.SummitLemmas
import Mathlib.Tactic.Ring
import Mathlib.Algebra.Order.Ring.Rat

/-! # Helper lemmas for damaged Summit files -/

namespace Mito.Summit

open Mito.Numbering

variable {type V nNodes : Nat}

theorem readMany_length {α : Type} (read : Stream → α × Stream) (n : Nat) (s : Stream) : (readMany read n s).1.length = n := by
  induction n generalizing s with
  | zero => rfl
  | succ n ih => simp [readMany, ih]

theorem readInt_failed (r : List Token) : readInt ⟨r, true⟩ = (0, ⟨r, true⟩) := by simp [readInt]

theorem readNum_failed (r : List Token) : readNum ⟨r, true⟩ = (0, ⟨r, true⟩) := by simp [readNum]

theorem readInt_nil : readInt ⟨[], false⟩ = (0, ⟨[], true⟩) := by simp [readInt]

theorem readMany_failed {α : Type} {read : Stream → α × Stream} {z : α} {r : List Token} (h : read ⟨r, true⟩ = (z, ⟨r, true⟩)) (n : Nat) :
    readMany read n ⟨r, true⟩ = (List.replicate n z, ⟨r, true⟩) := by
  induction n with
  | zero => rfl
  | succ n ih => simp [readMany, h, ih, List.replicate_succ]

/-- numbers that are not all there -/
theorem readMany_short (xs : List ℚ) (n : Nat) (h : xs.length < n) :
    readMany readNum n ⟨xs.map .num, false⟩ = (xs ++ List.replicate (n - xs.length) 0, ⟨[], true⟩) := by
  induction xs generalizing n with
  | nil =>
    obtain ⟨m, rfl⟩ : ∃ m, n = m + 1 := ⟨n - 1, by simp at h; omega⟩
    simp [readMany, readNum, readMany_failed (readNum_failed []), List.replicate_succ]
  | cons x xs ih =>
    obtain ⟨m, rfl⟩ : ∃ m, n = m + 1 := ⟨n - 1, by simp at h; omega⟩
    have := ih m (by simp at h; omega)
    simp [readMany, readNum, this]

theorem readMany_short_nat (xs : List Nat) (n : Nat) (h : xs.length < n) :
    readMany readInt n ⟨xs.map (fun i : Nat => Token.num (i : ℚ)), false⟩ =
      (xs.map (fun i : Nat => (i : Int)) ++ List.replicate (n - xs.length) 0, ⟨[], true⟩) := by
  induction xs generalizing n with
  | nil =>
    obtain ⟨m, rfl⟩ : ∃ m, n = m + 1 := ⟨n - 1, by simp at h; omega⟩
    simp [readMany, readInt_nil, readMany_failed (readInt_failed []), List.replicate_succ]
  | cons x xs ih =>
    obtain ⟨m, rfl⟩ : ∃ m, n = m + 1 := ⟨n - 1, by simp at h; omega⟩
    have := ih m (by simp at h; omega)
    simp only [List.map_cons, readMany, readInt_nat, this]
    simp

/-- the coordinates are not all there -/
theorem vertices_short {D : Nat} (hD : 0 < D) (pts : List (List ℚ)) (h : ∀ p ∈ pts, p.length = D) (k : Nat)
    (hk : k < (pts.flatMap fun p => p.map Token.num).length) :
    ∃ read, readMany (readMany readNum D) pts.length ⟨(pts.flatMap fun p => p.map Token.num).take k, false⟩ = (read, ⟨[], true⟩) := by
  induction pts generalizing k with
  | nil => simp at hk
  | cons p pts ih =>
    have hp := h p (by simp)
    by_cases hlt : k < D
    · have h1 : ((p :: pts).flatMap fun p => p.map Token.num).take k = (p.take k).map Token.num := by
        rw [List.flatMap_cons, List.take_append_of_le_length (by simp; omega), List.map_take]
      have h2 := readMany_short (p.take k) D (by rw [List.length_take]; omega)
      rw [h1]
      simp only [List.length_cons, readMany, h2]
      have h3 : readMany readNum D ⟨[], true⟩ = (List.replicate D 0, ⟨[], true⟩) := readMany_failed (readNum_failed []) D
      rw [readMany_failed h3]
      exact ⟨_, rfl⟩
    · have h1 : ((p :: pts).flatMap fun p => p.map Token.num).take k =
          p.map Token.num ++ (pts.flatMap fun p => p.map Token.num).take (k - D) := by
        rw [List.flatMap_cons, List.take_append, List.take_of_length_le (by simp; omega), List.length_map, hp]
      have h2 := readMany_num p ((pts.flatMap fun p => p.map Token.num).take (k - D))
      rw [hp] at h2
      obtain ⟨read, h3⟩ := ih (fun q hq => h q (by simp [hq])) (k - D) (by
        simp only [List.flatMap_cons, List.length_append, List.length_map, hp] at hk
        omega)
      rw [h1]
      simp only [List.length_cons, readMany, h2, h3]
      exact ⟨_, rfl⟩

theorem readElements_failed' {n : Nat} (h : type ≠ 0) (r : List Token) : readElements type V nNodes n ⟨r, true⟩ = some ([], ⟨r, true⟩) := by
  induction n with
  | zero => rfl
  | succ n ih =>
    rw [readElements]
    have : ¬ (0 : Int) = type := by omega
    simp [readInt, this, ih]

theorem inRange_succ {c : List Nat} (h : ∀ i ∈ c, i < nNodes) :
    inRange nNodes (((c.map (· + 1)).map fun i : Nat => (i : Int)).map (· - 1)) = some c := by
  have e : ((c.map (· + 1)).map fun i : Nat => (i : Int)).map (· - 1) = c.map fun i : Nat => (i : Int) := by
    simp [List.map_map, Function.comp_def]
  rw [e, inRange, if_pos]
  · simp [List.map_map, Function.comp_def]
  · simp only [List.all_eq_true, List.mem_map, Bool.and_eq_true, decide_eq_true_eq]
    rintro _ ⟨i, hi, rfl⟩
    have := h i hi
    omega

/-- the tokens of the cells -/
def cellTokens (type : Nat) (cells : List (List Nat)) : List Token :=
  cells.flatMap fun c => Token.num type :: c.map (fun i => .num ((i + 1 : Nat) : ℚ)) ++ [.num 1]

theorem cellTokens_length (cells : List (List Nat)) (hV : ∀ c ∈ cells, c.length = V) :
    (cellTokens type cells).length = cells.length * (V + 2) := by
  induction cells with
  | nil => simp [cellTokens]
  | cons c cells ih =>
    have := ih fun d hd => hV d (by simp [hd])
    have hc := hV c (by simp)
    simp only [cellTokens, List.flatMap_cons, List.length_append, List.length_cons, List.length_map, List.length_nil] at this ⊢
    rw [this, hc]
    ring

/-- Cells that are not all there: within the nodes of a cell an index is minus one; otherwise the cells are read of which at most the label
is missing. -/
theorem elements_short (ht : type ≠ 0) (cells : List (List Nat)) (hV : ∀ c ∈ cells, c.length = V) (hr : ∀ c ∈ cells, ∀ i ∈ c, i < nNodes)
    (q : Nat) (hq : q < cells.length * (V + 2)) :
    readElements type V nNodes cells.length ⟨(cellTokens type cells).take q, false⟩ =
      if 1 ≤ q % (V + 2) ∧ q % (V + 2) ≤ V then none else some (cells.take ((q + 1) / (V + 2)), ⟨[], true⟩) := by
  induction cells generalizing q with
  | nil => simp at hq
  | cons c cells ih =>
    have hc := hV c (by simp)
    have hrc := hr c (by simp)
    have e : cellTokens type (c :: cells) = Token.num type ::
        ((c.map (· + 1)).map (fun i : Nat => Token.num (i : ℚ)) ++ (Token.num 1 :: cellTokens type cells)) := by
      simp [cellTokens, Function.comp_def]
    by_cases h0 : V + 2 ≤ q
    · -- the first cell is complete
      have e2 : (cellTokens type (c :: cells)).take q = Token.num type ::
          ((c.map (· + 1)).map (fun i : Nat => Token.num (i : ℚ)) ++ (Token.num 1 :: (cellTokens type cells).take (q - (V + 2)))) := by
        obtain ⟨m, rfl⟩ : ∃ m, q = V + 2 + m := ⟨q - (V + 2), by omega⟩
        rw [e, show V + 2 + m = (V + 1 + m) + 1 by omega, List.take_succ_cons, List.take_append,
          List.take_of_length_le (by simp; omega)]
        simp only [List.length_map, hc]
        rw [show V + 1 + m - V = m + 1 by omega, List.take_succ_cons]
        congr 4
        omega
      have h1 := readMany_nat (c.map (· + 1)) (Token.num 1 :: (cellTokens type cells).take (q - (V + 2)))
      rw [List.length_map, hc] at h1
      have h2 := ih (fun d hd => hV d (by simp [hd])) (fun d hd => hr d (by simp [hd])) (q - (V + 2)) (by
        rw [List.length_cons, Nat.add_mul] at hq; omega)
      rw [e2, List.length_cons, readElements, readInt_nat]
      simp only [if_true, h1, inRange_succ hrc]
      simp only [skip, Bool.false_eq_true, if_false, h2]
      have e3 : q % (V + 2) = (q - (V + 2)) % (V + 2) := Nat.mod_eq_sub_mod h0
      have e4 : (q + 1) / (V + 2) = (q - (V + 2) + 1) / (V + 2) + 1 := by
        rw [Nat.div_eq_sub_div (by omega) (by omega)]
        congr 2
        omega
      rw [e3, e4]
      by_cases hh : 1 ≤ (q - (V + 2)) % (V + 2) ∧ (q - (V + 2)) % (V + 2) ≤ V
      · simp only [if_pos hh]
      · simp only [if_neg hh, List.take_succ_cons]
    · have hm : q % (V + 2) = q := Nat.mod_eq_of_lt (by omega)
      rw [hm]
      rcases Nat.eq_zero_or_pos q with rfl | hpos
      · -- nothing is left
        have hne : ¬ (0 : Int) = type := by omega
        rw [List.take_zero, List.length_cons, readElements, readInt_nil]
        simp only [hne, if_false, readElements_failed' ht]
        have h2 : 1 / (V + 2) = 0 := Nat.div_eq_of_lt (by omega)
        simp [h2]
      · obtain ⟨m, rfl⟩ : ∃ m, q = m + 1 := ⟨q - 1, by omega⟩
        by_cases hle : m + 1 ≤ V
        · -- within the nodes
          have e2 : (cellTokens type (c :: cells)).take (m + 1) =
              Token.num type :: ((c.map (· + 1)).take m).map (fun i : Nat => Token.num (i : ℚ)) := by
            rw [e, List.take_succ_cons, List.take_append_of_le_length (by simp; omega), List.map_take]
          have h1 := readMany_short_nat ((c.map (· + 1)).take m) V (by rw [List.length_take]; omega)
          rw [e2, List.length_cons, readElements, readInt_nat]
          simp only [if_true, h1]
          have h3 : inRange nNodes ((((c.map (· + 1)).take m).map (fun i : Nat => (i : Int)) ++
              List.replicate (V - ((c.map (· + 1)).take m).length) 0).map (· - 1)) = none := by
            rw [inRange, if_neg]
            simp only [List.all_eq_true, Bool.and_eq_true, decide_eq_true_eq]
            intro h
            have := (h (-1) (by
              rw [List.map_append, List.map_replicate, List.mem_append, List.mem_replicate]
              right
              refine ⟨?_, by norm_num⟩
              rw [List.length_take, List.length_map]
              omega)).1
            omega
          rw [h3, if_pos ⟨by omega, hle⟩]
        · -- the label is missing
          have hmV : m = V := by omega
          subst hmV
          have e2 : (cellTokens type (c :: cells)).take (m + 1) =
              Token.num type :: ((c.map (· + 1)).map (fun i : Nat => Token.num (i : ℚ)) ++ []) := by
            rw [e, List.take_succ_cons, List.take_append, List.take_of_length_le (by simp; omega)]
            simp [hc]
          have h1 := readMany_nat (c.map (· + 1)) []
          rw [List.length_map, hc] at h1
          rw [e2, List.length_cons, readElements, readInt_nat]
          simp only [if_true, h1, inRange_succ hrc]
          simp only [skip, Bool.false_eq_true, if_false, readElements_failed' ht]
          rw [if_neg (by omega), Nat.div_self (by omega)]
          simp

/-- what reads that succeed return -/
theorem inRange_some {n : Nat} {ids : List Int} {c : List Nat} (h : inRange n ids = some c) :
    c.length = ids.length ∧ ∀ i ∈ c, i < n := by
  unfold inRange at h
  split at h
  · rename_i hall
    obtain rfl := Option.some.inj h
    refine ⟨List.length_map _, fun i hi => ?_⟩
    obtain ⟨z, hz, rfl⟩ := List.mem_map.mp hi
    simp only [List.all_eq_true, Bool.and_eq_true, decide_eq_true_eq] at hall
    have := hall z hz
    omega
  · simp at h

theorem readElements_valid {n : Nat} {s s' : Stream} {cells : List (List Nat)} (h : readElements type V nNodes n s = some (cells, s')) :
    cells.length ≤ n ∧ ∀ c ∈ cells, c.length = V ∧ ∀ i ∈ c, i < nNodes := by
  induction n generalizing s cells s' with
  | zero =>
    simp only [readElements, Option.some.injEq, Prod.mk.injEq] at h
    simp [← h.1]
  | succ n ih =>
    rw [readElements] at h
    simp only at h
    split at h
    · split at h
      · simp at h
      · rename_i c hc
        split at h
        · simp at h
        · rename_i cs s3 hcs
          simp only [Option.some.injEq, Prod.mk.injEq] at h
          obtain ⟨h1, h2⟩ := ih hcs
          obtain ⟨h3, h4⟩ := inRange_some hc
          rw [List.length_map, readMany_length] at h3
          rw [← h.1]
          refine ⟨by simpa using h1, fun d hd => ?_⟩
          rcases List.mem_cons.mp hd with rfl | hd
          · exact ⟨h3, h4⟩
          · exact h2 d hd
    · obtain ⟨h1, h2⟩ := ih h
      exact ⟨by omega, h2⟩

end Mito.Summit
