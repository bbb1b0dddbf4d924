import Verif.IO.SummitDamagedLemmas
import Verif.Props.Summit

/-! # C91: damaged Summit files -/

namespace Mito.Summit

open Mito.Numbering

variable {D type V : Nat} {coords : Nat → List ℚ} {printed : ℚ → ℚ} {order : List (Nat × Nat)} {cells : List Cell}

/-- **C91.**  What the reader accepts is a mesh: the nodes have `D` coordinates, the cells have `V` nodes and these are among the nodes read.
The numbers of nodes and cells are those in the file. -/
theorem reader_valid {file : List Token} {nodes : List (List ℚ)} {read : List (List Nat)} (h : reader D type V file = .ok (nodes, read)) :
    (∀ p ∈ nodes, p.length = D) ∧ (∀ c ∈ read, c.length = V ∧ ∀ i ∈ c, i < nodes.length) ∧
      ∃ rest, file = .num D :: .num nodes.length :: .num read.length :: .num 1 :: rest := by
  have hint : ∀ s : Stream, (readInt s).1 ≠ 0 → s.failed = false ∧ ∃ r, s.tokens = .num (readInt s).1 :: r ∧ (readInt s).2 = ⟨r, false⟩ := by
    rintro ⟨tokens, failed⟩ h0
    cases failed with
    | true => simp [readInt] at h0
    | false =>
      refine ⟨rfl, ?_⟩
      match tokens with
      | [] => simp [readInt] at h0
      | .word w :: r => simp [readInt] at h0
      | .num q :: r =>
        by_cases hq : q.den = 1
        · simp only [readInt, Bool.false_eq_true, if_false, if_pos hq]
          exact ⟨r, by rw [Rat.den_eq_one_iff] at hq; rw [hq], rfl⟩
        · simp [readInt, hq] at h0
  have hfail : ∀ s : Stream, s.failed = true → readInt s = (0, s) := fun s hs => by simp [readInt, hs]
  unfold reader at h
  simp only at h
  split at h
  · simp at h
  rename_i hdim
  split at h
  · simp at h
  rename_i hneg
  split at h
  · simp at h
  rename_i htypes
  split at h
  · simp at h
  rename_i cs s6 hel
  split at h
  · simp at h
  rename_i hnv
  split at h
  · simp at h
  rename_i hnc
  simp only [Outcome.ok.injEq, Prod.mk.injEq] at h
  obtain ⟨rfl, rfl⟩ := h
  push Not at hdim htypes hnv hnc
  refine ⟨?_, (readElements_valid hel).2, ?_⟩
  · have key : ∀ n s, ∀ p ∈ (readMany (readMany readNum D) n s).1, p.length = D := by
      intro n
      induction n with
      | zero => intro s p hp; simp [readMany] at hp
      | succ n ih =>
        intro s p hp
        simp only [readMany, List.mem_cons] at hp
        rcases hp with rfl | hp
        · exact readMany_length _ _ _
        · exact ih _ _ hp
    exact key _ _
  · -- the last number of the header was read, so the ones before it were
    set s1 := (readInt ⟨file, false⟩).2 with hs1
    set s2 := (readInt s1).2 with hs2
    set s3 := (readInt s2).2 with hs3
    obtain ⟨f3, r4, t4, -⟩ := hint s3 (by rw [htypes]; norm_num)
    have step : ∀ s : Stream, (readInt s).2.failed = false → ∃ r, s.tokens = .num (readInt s).1 :: r ∧ (readInt s).2 = ⟨r, false⟩ := by
      rintro ⟨tokens, failed⟩ hf
      cases failed with
      | true => simp [readInt] at hf
      | false =>
        match tokens with
        | [] => simp [readInt] at hf
        | .word w :: r => simp [readInt] at hf
        | .num q :: r =>
          by_cases hq : q.den = 1
          · simp only [readInt, Bool.false_eq_true, if_false, if_pos hq]
            exact ⟨r, by rw [Rat.den_eq_one_iff] at hq; rw [hq], rfl⟩
          · simp [readInt, hq] at hf
    obtain ⟨r3, t3, e3⟩ := step s2 f3
    have f2 : s2.failed = false := by
      by_contra hf
      rw [hs3, hfail s2 (by simpa using hf)] at f3
      exact hf f3
    obtain ⟨r2, t2, e2⟩ := step s1 f2
    have f1 : s1.failed = false := by
      by_contra hf
      rw [hs2, hfail s1 (by simpa using hf)] at f2
      exact hf f2
    obtain ⟨r1, t1, e1⟩ := step ⟨file, false⟩ f1
    refine ⟨r4, ?_⟩
    have : file = .num ((readInt ⟨file, false⟩).1 : ℚ) :: r1 := t1
    rw [this, ← hdim]
    have e1' : s1.tokens = r1 := by rw [hs1, e1]
    have e2' : s2.tokens = r2 := by rw [hs2, e2]
    have e3' : s3.tokens = r3 := by rw [hs3, e3]
    have hnv' := congrArg (Int.cast : Int → ℚ) hnv
    have hnc' := congrArg (Int.cast : Int → ℚ) hnc
    rw [← e1', t2, ← e2', t3, ← e3', t4, htypes, ← hnv', ← hnc']
    simp

/-- the parts of a file -/
theorem write_parts (ho : order.Perm (points cells)) (hV : ∀ c ∈ cells, c.length = V)
    (hD : ∀ p ∈ meshPoints cells, (coords p).length = D) {file : List Token} (hw : write D type coords printed [] order cells = some file)
    {nodes : List (List ℚ)} {read : List (List Nat)} (hr : reader D type V file = .ok (nodes, read)) :
    file = [.num D, .num nodes.length, .num read.length, .num 1] ++ ((nodes.flatMap fun p => p.map Token.num) ++ cellTokens type read) ∧
      (∀ p ∈ nodes, p.length = D) ∧ (∀ c ∈ read, c.length = V) ∧ (∀ c ∈ read, ∀ i ∈ c, i < nodes.length) ∧ read.length = cells.length := by
  obtain ⟨h1, h2, -⟩ := reader_valid hr
  rw [summit_read_write ho hV hD file hw] at hr
  simp only [Outcome.ok.injEq, Prod.mk.injEq] at hr
  obtain ⟨rfl, rfl⟩ := hr
  refine ⟨?_, h1, fun c hc => (h2 c hc).1, fun c hc => (h2 c hc).2, by simp⟩
  rw [write_eq ho] at hw
  rw [← Option.some.inj hw]
  simp [cellTokens, List.flatMap_map, Function.comp_def]

theorem readInt_one (s : List Token) : readInt ⟨Token.num (1 : ℚ) :: s, false⟩ = (1, ⟨s, false⟩) := by
  have := readInt_nat 1
  simpa using this _

theorem vertices_length {pts : List (List ℚ)} (h : ∀ p ∈ pts, p.length = D) :
    (pts.flatMap fun p => p.map Token.num).length = D * pts.length := by
  induction pts with
  | nil => simp
  | cons p pts ih =>
    rw [List.flatMap_cons, List.length_append, List.length_map, h p (by simp), ih fun q hq => h q (by simp [hq]), List.length_cons]
    ring

/-- the place where a file of `n` nodes is cut is within the nodes of a cell -/
def WithinCell (D V n k : Nat) : Prop := 4 + D * n ≤ k ∧ 1 ≤ (k - (4 + D * n)) % (V + 2) ∧ (k - (4 + D * n)) % (V + 2) ≤ V

instance (D V n k : Nat) : Decidable (WithinCell D V n k) := by unfold WithinCell; infer_instance

/-- what is left of the cells -/
theorem rest_cut {nodes : List (List ℚ)} {read : List (List Nat)} (hD0 : 0 < D) (ht : type ≠ 0) (h2 : ∀ p ∈ nodes, p.length = D)
    (h3 : ∀ c ∈ read, c.length = V) (h4 : ∀ c ∈ read, ∀ i ∈ c, i < nodes.length) (k : Nat) (hk : k < D * nodes.length + read.length * (V + 2)) :
    ∃ nodes' s, readMany (readMany readNum D) nodes.length
        ⟨((nodes.flatMap fun p => p.map Token.num) ++ cellTokens type read).take k, false⟩ = (nodes', s) ∧ nodes'.length = nodes.length ∧
      (D * nodes.length ≤ k → nodes' = nodes) ∧
      readElements type V nodes.length read.length s = if WithinCell D V nodes.length (k + 4) then none else
        some (read.take ((k + 1 - D * nodes.length) / (V + 2)), ⟨[], true⟩) := by
  have hl := vertices_length h2
  have hc := cellTokens_length (type := type) read h3
  by_cases hlt : k < D * nodes.length
  · rw [List.take_append_of_le_length (by omega)]
    obtain ⟨nodes', h5⟩ := vertices_short hD0 nodes h2 k (by omega)
    refine ⟨nodes', _, h5, ?_, fun h => absurd h (by omega), ?_⟩
    · have := readMany_length (readMany readNum D) nodes.length ⟨(nodes.flatMap fun p => p.map Token.num).take k, false⟩
      rwa [h5] at this
    · rw [readElements_failed' ht, if_neg (by unfold WithinCell; omega), show k + 1 - D * nodes.length = 0 by omega, Nat.zero_div,
        List.take_zero]
  · rw [List.take_append, List.take_of_length_le (by omega), hl]
    refine ⟨nodes, _, readMany_vertices nodes h2 _, rfl, fun _ => rfl, ?_⟩
    rw [elements_short ht read h3 h4 (k - D * nodes.length) (by omega)]
    have e1 : k + 4 - (4 + D * nodes.length) = k - D * nodes.length := by omega
    have e2 : k - D * nodes.length + 1 = k + 1 - D * nodes.length := by omega
    rw [e2]
    have e3 : WithinCell D V nodes.length (k + 4) ↔
        1 ≤ (k - D * nodes.length) % (V + 2) ∧ (k - D * nodes.length) % (V + 2) ≤ V := by
      unfold WithinCell
      rw [e1]
      exact and_iff_right (by omega)
    simp only [e3]

/-- **C91.**  Reading a file that was cut after `k` tokens: an assertion fails, unless just the last label is missing, which does not matter,
or the file was cut within the nodes of a cell: then the behaviour is undefined, as an index of a node is minus one. -/
theorem summit_truncated (hD0 : 0 < D) (ht : type ≠ 0) (hcells : cells ≠ []) (ho : order.Perm (points cells)) (hV : ∀ c ∈ cells, c.length = V)
    (hD : ∀ p ∈ meshPoints cells, (coords p).length = D) {file : List Token} (hw : write D type coords printed [] order cells = some file)
    {nodes : List (List ℚ)} {read : List (List Nat)} (hr : reader D type V file = .ok (nodes, read)) (k : Nat) (hk : k < file.length) :
    reader D type V (file.take k) = if k + 1 = file.length then .ok (nodes, read) else
      if WithinCell D V nodes.length k then .undefined else .assertion := by
  obtain ⟨rfl, h2, h3, h4, h5⟩ := write_parts ho hV hD hw hr
  have hn0 : 0 < read.length := by
    rw [h5]
    exact List.length_pos_iff.mpr hcells
  have hl := vertices_length h2
  have hc := cellTokens_length (type := type) read h3
  have hlen : ([Token.num (D : ℚ), .num nodes.length, .num read.length, .num 1] ++
      ((nodes.flatMap fun p => p.map Token.num) ++ cellTokens type read)).length = 4 + (D * nodes.length + read.length * (V + 2)) := by
    rw [List.length_append, List.length_append, hl, hc]
    rfl
  have hpos : V + 2 ≤ read.length * (V + 2) := Nat.le_mul_of_pos_left _ hn0
  rw [hlen] at hk ⊢
  have hne : ¬ (D : Int) = 0 := by omega
  have hneg : ¬ (nodes.length : Int) < 0 := by omega
  by_cases hk4 : k < 4
  · have hw : ¬ WithinCell D V nodes.length k := by unfold WithinCell; omega
    rw [if_neg (by omega), if_neg hw]
    obtain rfl | rfl | rfl | rfl : k = 0 ∨ k = 1 ∨ k = 2 ∨ k = 3 := by omega
    · simp [reader, readInt_nil, hD0.ne']
    · simp [reader, readInt_nil, readInt_nat, readInt_failed]
    · simp [reader, readInt_nil, readInt_nat, readInt_failed, hneg]
    · simp [reader, readInt_nil, readInt_nat, hneg]
  · obtain ⟨j, rfl⟩ : ∃ j, k = j + 4 := ⟨k - 4, by omega⟩
    obtain ⟨nodes', s, e1, e2, e3, e4⟩ := rest_cut hD0 ht h2 h3 h4 j (by omega)
    have et : ([Token.num (D : ℚ), .num nodes.length, .num read.length, .num 1] ++
        ((nodes.flatMap fun p => p.map Token.num) ++ cellTokens type read)).take (j + 4) =
        Token.num (D : ℚ) :: .num nodes.length :: .num read.length :: .num 1 ::
          ((nodes.flatMap fun p => p.map Token.num) ++ cellTokens type read).take j := by
      simp
    rw [et]
    simp only [reader, readInt_nat, readInt_one, Int.toNat_natCast, e1, e2, e4, ne_eq, not_true_eq_false, if_false, if_neg hneg]
    by_cases hin : WithinCell D V nodes.length (j + 4)
    · have hnot : ¬ j + 4 + 1 = 4 + (D * nodes.length + read.length * (V + 2)) := by
        intro he
        obtain ⟨g1, g2, g3⟩ := hin
        have : j + 4 - (4 + D * nodes.length) = (read.length - 1) * (V + 2) + (V + 1) := by
          rw [Nat.sub_mul]
          omega
        rw [this, Nat.add_comm, Nat.add_mul_mod_self_right, Nat.mod_eq_of_lt (by omega)] at g3
        omega
      simp only [if_pos hin, if_neg hnot]
    · simp only [if_neg hin]
      by_cases hlast : j + 4 + 1 = 4 + (D * nodes.length + read.length * (V + 2))
      · have hd : (j + 1 - D * nodes.length) / (V + 2) = read.length := by
          rw [show j + 1 - D * nodes.length = read.length * (V + 2) by omega]
          exact Nat.mul_div_cancel _ (by omega)
        rw [hd, List.take_length, e3 (by omega)]
        simp [hlast]
      · have hd : (j + 1 - D * nodes.length) / (V + 2) < read.length := by
          rw [Nat.div_lt_iff_lt_mul (by omega)]
          omega
        have hlt : (read.take ((j + 1 - D * nodes.length) / (V + 2))).length ≠ read.length := by
          rw [List.length_take]
          omega
        have hlt' : ¬ ((read.take ((j + 1 - D * nodes.length) / (V + 2))).length : Int) = read.length := by exact_mod_cast hlt
        simp only [not_true_eq_false, if_false, hlt', not_false_eq_true, if_true, hlast]

/-- **C91.**  In release builds files cut elsewhere are read without notice, as meshes that lack the cells that are not in the file. -/
theorem summit_truncated_release (hD0 : 0 < D) (ht : type ≠ 0) (ho : order.Perm (points cells))
    (hV : ∀ c ∈ cells, c.length = V) (hD : ∀ p ∈ meshPoints cells, (coords p).length = D) {file : List Token}
    (hw : write D type coords printed [] order cells = some file) {nodes : List (List ℚ)} {read : List (List Nat)}
    (hr : reader D type V file = .ok (nodes, read)) (k : Nat) (hk : k < file.length) (hin : ¬ WithinCell D V nodes.length k) :
    ∃ nodes', readerRelease D type V (file.take k) = .ok (nodes', read.take ((k - (3 + D * nodes.length)) / (V + 2))) := by
  obtain ⟨rfl, h2, h3, h4, h5⟩ := write_parts ho hV hD hw hr
  have hl := vertices_length h2
  have hc := cellTokens_length (type := type) read h3
  have hlen : ([Token.num (D : ℚ), .num nodes.length, .num read.length, .num 1] ++
      ((nodes.flatMap fun p => p.map Token.num) ++ cellTokens type read)).length = 4 + (D * nodes.length + read.length * (V + 2)) := by
    rw [List.length_append, List.length_append, hl, hc]
    rfl
  rw [hlen] at hk
  have hneg : ¬ (nodes.length : Int) < 0 := by omega
  by_cases hk4 : k < 4
  · have hd : (k - (3 + D * nodes.length)) / (V + 2) = 0 := by
      rw [show k - (3 + D * nodes.length) = 0 by omega, Nat.zero_div]
    have h0 : readMany readNum D ⟨[], true⟩ = (List.replicate D 0, ⟨[], true⟩) := readMany_failed (readNum_failed []) D
    rw [hd, List.take_zero]
    obtain rfl | rfl | rfl | rfl : k = 0 ∨ k = 1 ∨ k = 2 ∨ k = 3 := by omega
    · simp [readerRelease, readInt_nil, readInt_failed, readMany, readElements]
    · simp [readerRelease, readInt_nil, readInt_nat, readInt_failed, readMany, readElements]
    · simp [readerRelease, readInt_nil, readInt_nat, readInt_failed, hneg, readElements]
    · simp [readerRelease, readInt_nil, readInt_nat, hneg, readMany_failed h0, readElements_failed' ht]
  · obtain ⟨j, rfl⟩ : ∃ j, k = j + 4 := ⟨k - 4, by omega⟩
    obtain ⟨nodes', s, e1, e2, e3, e4⟩ := rest_cut hD0 ht h2 h3 h4 j (by omega)
    have et : ([Token.num (D : ℚ), .num nodes.length, .num read.length, .num 1] ++
        ((nodes.flatMap fun p => p.map Token.num) ++ cellTokens type read)).take (j + 4) =
        Token.num (D : ℚ) :: .num nodes.length :: .num read.length :: .num 1 ::
          ((nodes.flatMap fun p => p.map Token.num) ++ cellTokens type read).take j := by
      simp
    refine ⟨nodes', ?_⟩
    rw [et]
    simp only [readerRelease, readInt_nat, readInt_one, Int.toNat_natCast, e1, e2, e4, if_neg hneg, if_neg hin]
    rw [show j + 4 - (3 + D * nodes.length) = j + 1 - D * nodes.length by omega]

/-- **C91.**  Tokens after the cells are not looked at. -/
theorem summit_trailing (ho : order.Perm (points cells)) (hV : ∀ c ∈ cells, c.length = V)
    (hD : ∀ p ∈ meshPoints cells, (coords p).length = D) {file : List Token} (hw : write D type coords printed [] order cells = some file)
    (extra : List Token) : reader D type V (file ++ extra) = reader D type V file := by
  have hr := summit_read_write ho hV hD file hw
  rw [hr]
  obtain ⟨rfl, h2, h3, h4, h5⟩ := write_parts ho hV hD hw hr
  set nodes := (firsts (meshPoints cells)).map fun p => (coords p).map printed
  set read := cells.map fun c => c.map (fileIndex cells)
  have hneg : ¬ (nodes.length : Int) < 0 := by omega
  have e1 := readMany_vertices nodes h2 (cellTokens type read ++ extra)
  have e2 : readElements type V nodes.length read.length ⟨cellTokens type read ++ extra, false⟩ = some (read, ⟨extra, false⟩) :=
    readElements_eq read h3 h4 extra
  simp only [List.cons_append, List.nil_append, List.append_assoc, reader, readInt_nat, readInt_one, Int.toNat_natCast, e1, e2, ne_eq,
    not_true_eq_false, if_false, if_neg hneg]

/-! ### Examples -/

/-- the file of two triangles has 22 tokens -/
def exFile : List Token := [.num 2, .num 4, .num 2, .num 1, .num 0, .num 0, .num 1, .num 0, .num 0, .num (1 / 2), .num 1, .num 1,
  .num 3, .num 1, .num 2, .num 3, .num 1, .num 3, .num 3, .num 2, .num 4, .num 1]

theorem exFile_written : write 2 3 exCoords id [] (points exCells) exCells = some exFile := by decide +kernel

/-- **C91.**  Damaged files are not always rejected: a file of two triangles that was cut leads to undefined behaviour,
and release builds read one triangle from another cut of it without notice. -/
theorem summit_damaged_fails : ∃ file, write 2 3 exCoords id [] (points exCells) exCells = some file ∧
    reader 2 3 3 (file.take 20) = .undefined ∧ ∃ nodes read, readerRelease 2 3 3 file = .ok (nodes, read) ∧
      readerRelease 2 3 3 (file.take 17) = .ok (nodes, read.take 1) ∧ read.length = 2 :=
  ⟨exFile, exFile_written, by decide +kernel, [[0, 0], [1, 0], [0, 1 / 2], [1, 1]], [[0, 1, 2], [2, 1, 3]], by decide +kernel⟩

example : reader 2 3 3 exFile = .ok ([[0, 0], [1, 0], [0, 1 / 2], [1, 1]], [[0, 1, 2], [2, 1, 3]]) := by decide +kernel
/-- cut within the nodes of a cell, between cells, and before the last label -/
example : reader 2 3 3 (exFile.take 20) = .undefined ∧ reader 2 3 3 (exFile.take 17) = .assertion ∧
    reader 2 3 3 (exFile.take 21) = reader 2 3 3 exFile := by decide +kernel
example : readerRelease 2 3 3 (exFile.take 17) = .ok ([[0, 0], [1, 0], [0, 1 / 2], [1, 1]], [[0, 1, 2]]) := by decide +kernel
/-- a word in place of a coordinate -/
example : reader 2 3 3 (exFile.set 5 (.word "x")) = .assertion ∧ readerRelease 2 3 3 (exFile.set 5 (.word "x")) =
    .ok ([[0, 0], [0, 0], [0, 0], [0, 0]], []) := by decide +kernel

end Mito.Summit
