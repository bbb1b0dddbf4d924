import Verif.Solvers.DistributedLemmas

/-! # C110: linear systems in programs with several tasks -/

namespace Mito.Distributed

open Mito.Assoc Mito.DiscreteSystem

variable {R : Type} [CommRing R]

/-! ## the rows of the tasks -/

/-- each row belongs to exactly one task -/
theorem rows_split {n k : Nat} (hk : 0 < k) : ((List.range k).map (localSize n k)).sum = n ∧
    ∀ i < n, ∃ r < k, ∀ r' < k, owns n k r' i = true ↔ r' = r := by
  refine ⟨firstRow_last hk, fun i hi => ?_⟩
  obtain ⟨r, hr, ho⟩ := owner_exists hk hi
  exact ⟨r, hr, fun r' _ => ⟨fun h => owner_unique h ho, fun h => h ▸ ho⟩⟩

/-- `get_solution` stays within the rows of its task on all tasks only if there is one task or nothing to read -/
theorem getSolution_defined_iff {n k : Nat} (hk : 0 < k) (u : Nat → R) :
    (∀ r < k, (getSolution n k r u).isSome = true) ↔ k = 1 ∨ n = 0 := by
  simp only [getSolution_isSome]
  constructor
  · intro h
    by_contra hn
    rw [not_or] at hn
    have h1 := h (k - 1) (by omega)
    have h2 : ¬ k - 1 < n % k := by
      have := Nat.mod_lt n hk
      omega
    rw [localSize, if_neg h2, add_zero] at h1
    have := Nat.div_lt_self (Nat.pos_of_ne_zero hn.2) (show 1 < k by omega)
    omega
  · rintro (rfl | rfl) r hr
    · simp [localSize]
    · simp

/-- the task that reads too much: the last one, always -/
theorem getSolution_last {n k : Nat} (hk : 2 ≤ k) (hn : 0 < n) (u : Nat → R) : getSolution n k (k - 1) u = none := by
  rw [← Option.not_isSome_iff_eq_none, getSolution_isSome]
  have h2 : ¬ k - 1 < n % k := by
    have := Nat.mod_lt n (show 0 < k by omega)
    omega
  rw [localSize, if_neg h2, add_zero]
  have := Nat.div_lt_self hn (show 1 < k by omega)
  omega

/-! ## the matrix and the right-hand side -/

/-- values added to the matrix are all there, whoever adds them and in which order they arrive -/
theorem matrix_sum (n : Nat) (tasks : List (List (Call R))) (hc : ∀ cs ∈ tasks, ∀ c ∈ cs, c.adds = true) (arrival : List Nat)
    (ha : arrival.Perm (List.range tasks.length)) (i j : Nat) :
    matrixAt n arrival tasks i j = (tasks.map fun cs => serialMatrix cs i j).sum := by
  have hz : tasks.map (fun cs => serialMatrix cs i j) = (List.range tasks.length).map fun r => serialMatrix (tasks.getD r []) i j := by
    have h1 := zipIdx_eq tasks
    have h2 : tasks = tasks.zipIdx.map Prod.fst := by simp [List.zipIdx_map_fst]
    conv_lhs => rw [h2, h1]
    rw [List.map_map, List.map_map]
    rfl
  have hg := getD_mem hc
  rw [matrixAt, own_eq, hz, ← sum_split (fun r => owns n tasks.length r i) (fun r => serialMatrix (tasks.getD r []) i j) ha]
  change serialMatrix (_ ++ _) i j = _
  rw [serialMatrix_append, serialMatrix_flatMap, serialMatrix_flatMap]
  · congr 2 <;> refine List.map_congr_left fun r _ => ?_ <;> split <;> rfl
  · intro r _ c hc
    split at hc
    · cases hc
    · exact hg r c hc
  · intro r _ c hc
    split at hc
    · exact hg r c hc
    · cases hc
  · intro c hc
    obtain ⟨r, -, hc⟩ := List.mem_flatMap.1 hc
    split at hc
    · cases hc
    · exact hg r c hc

/-- values added to the right-hand side are there only if they are added by the task that has the row -/
theorem rhs_owner (n : Nat) (tasks : List (List (Call R))) (hk : tasks ≠ []) (i : Nat) (hi : i < n) :
    ∃ (r : Nat) (hr : r < tasks.length), owns n tasks.length r i = true ∧ rhsAt n tasks i = serialRhs tasks[r] i := by
  obtain ⟨r, hr, ho⟩ := owner_exists (List.length_pos_iff.2 hk) hi
  refine ⟨r, hr, ho, ?_⟩
  rw [rhsAt, own_eq]
  have : ((List.range tasks.length).flatMap fun r => if owns n tasks.length r i then tasks.getD r [] else []) = tasks[r] := by
    have h1 : ∀ l : List Nat, l.Nodup → (l.flatMap fun r' => if owns n tasks.length r' i then tasks.getD r' [] else []) =
        if r ∈ l then tasks[r] else [] := by
      intro l hl
      induction l with
      | nil => rfl
      | cons a l ih =>
        rw [List.nodup_cons] at hl
        rw [List.flatMap_cons, ih hl.2]
        by_cases e : a = r
        · subst e
          simp [ho, hl.1, hr]
        · have : owns n tasks.length a i = false := by
            rw [Bool.eq_false_iff]
            exact fun h => e (owner_unique h ho)
          simp [this, Ne.symm e]
    rw [h1 _ List.nodup_range, if_pos (List.mem_range.2 hr)]
  rw [this]
  rfl

/-- with `VecAssemblyBegin` and `VecAssemblyEnd` all values would be there -/
theorem assembled_rhs_sum (n : Nat) (tasks : List (List (Call R))) (hc : ∀ cs ∈ tasks, ∀ c ∈ cs, c.adds = true) (arrival : List Nat)
    (ha : arrival.Perm (List.range tasks.length)) (i : Nat) :
    assembledRhsAt n arrival tasks i = (tasks.map fun cs => serialRhs cs i).sum := by
  have hz : tasks.map (fun cs => serialRhs cs i) = (List.range tasks.length).map fun r => serialRhs (tasks.getD r []) i := by
    have h1 := zipIdx_eq tasks
    have h2 : tasks = tasks.zipIdx.map Prod.fst := by simp [List.zipIdx_map_fst]
    conv_lhs => rw [h2, h1]
    rw [List.map_map, List.map_map]
    rfl
  have hg := getD_mem hc
  rw [assembledRhsAt, own_eq, hz, ← sum_split (fun r => owns n tasks.length r i) (fun r => serialRhs (tasks.getD r []) i) ha]
  change serialRhs (_ ++ _) i = _
  rw [serialRhs_append, serialRhs_flatMap, serialRhs_flatMap]
  · congr 2 <;> refine List.map_congr_left fun r _ => ?_ <;> split <;> rfl
  · intro r _ c hc
    split at hc
    · cases hc
    · exact hg r c hc
  · intro r _ c hc
    split at hc
    · exact hg r c hc
    · cases hc
  · intro c hc
    obtain ⟨r, -, hc⟩ := List.mem_flatMap.1 hc
    split at hc
    · cases hc
    · exact hg r c hc

/-- a system that all tasks insert alike is the system of one task -/
theorem inserted_alike (n k : Nat) (hk : 0 < k) (cs : List (Call R)) (hc : ∀ c ∈ cs, c.adds = false) (arrival : List Nat)
    (ha : arrival.Perm (List.range k)) :
    (∀ i j, matrixAt n arrival (List.replicate k cs) i j = serialMatrix cs i j) ∧
      ∀ i < n, rhsAt n (List.replicate k cs) i = serialRhs cs i := by
  constructor
  · intro i j
    rw [matrixAt, own_eq]
    simp only [List.length_replicate]
    have hv : ∀ c ∈ cs, ∀ x, c.onMatrix i j x = (c.matrixValue i j).getD x := by
      intro c hm x
      have := hc c hm
      cases c with
      | insertMatrix i' j' v => by_cases e : i = i' ∧ j = j' <;> simp [Call.onMatrix, Call.matrixValue, e]
      | addMatrix => simp [Call.adds] at this
      | insertRhs => rfl
      | addRhs => rfl
    have h2 : ∀ r < k, (List.replicate k cs).getD r [] = cs := by
      intro r hr
      simp [hr]
    rw [List.flatMap_def, List.flatMap_def, ← List.flatten_append]
    refine foldl_replicate _ cs (foldl_insert_again _ cs (Call.matrixValue i j) hv) _ ?_ ?_ 0
    · intro l hl
      rcases List.mem_append.1 hl with hl | hl
      · obtain ⟨r, hr, rfl⟩ := List.mem_map.1 hl
        rw [h2 r (List.mem_range.1 hr)]
        split <;> simp
      · obtain ⟨r, hr, rfl⟩ := List.mem_map.1 hl
        rw [h2 r (List.mem_range.1 (ha.subset hr))]
        split <;> simp
    · by_cases ho : owns n k 0 i = true
      · refine List.mem_append.2 (.inl (List.mem_map.2 ⟨0, List.mem_range.2 hk, ?_⟩))
        rw [if_pos ho, h2 0 hk]
      · refine List.mem_append.2 (.inr (List.mem_map.2 ⟨0, ha.symm.subset (List.mem_range.2 hk), ?_⟩))
        rw [if_neg ho, h2 0 hk]
  · intro i hi
    obtain ⟨r, hr, -, h⟩ := rhs_owner n (List.replicate k cs) (by simp; omega) i hi
    rw [h]
    simp

/-! ## discrete systems -/

/-- the matrix is the sum of the matrices of the tasks, each in its own numbering -/
theorem tasks_matrix (tasks : List (Task R)) (n : Nat) (arrival : List Nat) (ha : arrival.Perm (List.range tasks.length)) :
    ∃ calls, tasks.mapM Task.calls = some calls ∧
      (∀ i j, matrixAt n arrival calls i j = (tasks.map fun t => K t.space t.blocks i j).sum) ∧
      ∀ i < n, tasks ≠ [] → ∃ (r : Nat) (hr : r < tasks.length), owns n tasks.length r i = true ∧
        rhsAt n calls i = F tasks[r].space tasks[r].blocks i := by
  obtain ⟨calls, h1, h2, h3, h4, h5⟩ := mapM_calls tasks
  refine ⟨calls, h1, fun i j => ?_, fun i hi hne => ?_⟩
  · rw [matrix_sum n calls h3 arrival (by rw [h2]; exact ha), h4]
  · obtain ⟨r, hr, ho, he⟩ := rhs_owner n calls (by intro h; rw [h] at h2; exact hne (List.length_eq_zero_iff.1 h2.symm)) i hi
    refine ⟨r, by omega, by rw [← h2]; exact ho, ?_⟩
    rw [he]
    have h6 := congrArg (fun l : List R => l[r]?) (h5 i)
    simpa [List.getElem?_eq_getElem hr, List.getElem?_eq_getElem (show r < tasks.length by omega)] using h6

/-- A program ends well exactly if its tasks have equally many equations, and there is one task or there are no equations: otherwise the
sizes differ, or a task reads beyond the end of an array. -/
theorem solveTasks_cases (solver : Nat → (Nat → Nat → R) → (Nat → R) → Nat → R) (arrival : List Nat) (t : Task R) (tasks : List (Task R)) :
    ((∃ t' ∈ tasks, t'.size ≠ t.size) → solveTasks solver arrival (t :: tasks) = .sizes) ∧
    ((∀ t' ∈ tasks, t'.size = t.size) → tasks ≠ [] → t.size ≠ 0 → solveTasks solver arrival (t :: tasks) = .undefined) ∧
    ((∀ t' ∈ tasks, t'.size = t.size) → tasks = [] ∨ t.size = 0 → ∃ fs, solveTasks solver arrival (t :: tasks) = .solved fs ∧
      fs.length = tasks.length + 1) := by
  obtain ⟨calls, h1, -⟩ := mapM_calls (t :: tasks)
  refine ⟨fun ⟨t', ht, hne⟩ => ?_, fun hs hne hz => ?_, fun hs hd => ?_⟩
  · rw [solveTasks, if_neg]
    simp only [List.all_cons, List.all_eq_true, Bool.and_eq_true, decide_eq_true_eq]
    exact fun h => hne (h.2 t' ht)
  · rw [solveTasks, if_pos (by simpa using hs), h1]
    simp only
    have : (t :: tasks).zipIdx.mapM (readTask t.size (t :: tasks).length
        (solver t.size (matrixAt t.size arrival calls) (rhsAt t.size calls))) = none := by
      generalize solver t.size _ _ = u
      have hlast := getSolution_last (R := R) (n := t.size) (k := (t :: tasks).length)
        (by have := List.length_pos_iff.2 hne; simp; omega) (Nat.pos_of_ne_zero hz) u
      have hmem : ∃ p ∈ (t :: tasks).zipIdx, readTask t.size (t :: tasks).length u p = none := by
        refine ⟨((t :: tasks)[(t :: tasks).length - 1], (t :: tasks).length - 1), ?_, ?_⟩
        · rw [List.mem_zipIdx_iff_getElem?]
          simp
        · simp only [readTask, hlast, Option.map_none]
      have key : ∀ {β γ : Type} (f : β → Option γ) (l : List β), (∃ p ∈ l, f p = none) → l.mapM f = none := by
        intro β γ f l
        induction l with
        | nil => rintro ⟨_, h, _⟩; cases h
        | cons b l ih =>
          rintro ⟨p, hp, hf⟩
          rw [List.mapM_cons]
          rcases List.mem_cons.1 hp with rfl | hp
          · rw [hf]; rfl
          · rw [ih ⟨p, hp, hf⟩]
            cases f b <;> rfl
      exact key _ _ hmem
    rw [this]
  · rw [solveTasks, if_pos (by simpa using hs), h1]
    simp only
    generalize solver t.size _ _ = u
    have hdef : ∀ r < (t :: tasks).length, (getSolution t.size (t :: tasks).length r u).isSome = true :=
      (getSolution_defined_iff (by simp) u).2 (by
        rcases hd with rfl | h
        · exact .inl rfl
        · exact .inr h)
    have key : ∀ l : List (Task R × Nat), (∀ p ∈ l, p.2 < (t :: tasks).length) →
        ∃ fields, l.mapM (readTask t.size (t :: tasks).length u) = some fields ∧ fields.length = l.length ∧
          ∃ fs, fields.mapM id = some fs ∧ fs.length = l.length := by
      intro l
      induction l with
      | nil => exact fun _ => ⟨[], rfl, rfl, [], rfl, rfl⟩
      | cons p l ih =>
        intro h
        obtain ⟨fields, e1, e2, fs, e3, e4⟩ := ih fun p hp => h p (by simp [hp])
        obtain ⟨v, hv⟩ := Option.isSome_iff_exists.1 (hdef p.2 (h p (by simp)))
        obtain ⟨f, hf⟩ := readSolution_isSome p.1.space (fun i => v.getD i 0)
        refine ⟨some f :: fields, ?_, by simp [e2], f :: fs, ?_, by simp [e4]⟩
        · rw [List.mapM_cons, readTask, hv, Option.map_some, hf, e1]; rfl
        · rw [List.mapM_cons, e3]; rfl
    obtain ⟨fields, e1, -, fs, e3, e4⟩ := key (t :: tasks).zipIdx (by
      intro p hp
      have := List.mem_zipIdx_iff_getElem?.1 hp
      exact (List.getElem?_eq_some_iff.1 this).1)
    rw [e1]
    simp only [e3]
    exact ⟨fs, rfl, by simpa using e4⟩

/-- a program with one task is the program of C54 to C57 -/
theorem solveTasks_one (solver : Nat → (Nat → Nat → R) → (Nat → R) → Nat → R) (t : Task R) :
    ∃ S, solve solver t.blocks (create t.space) = some S ∧ solveTasks solver [0] [t] = .solved [S.field] := by
  obtain ⟨cs, h1, h2, h3, h4⟩ := t.calls_eq
  have hm : matrixAt t.size [0] [cs] = K t.space t.blocks := by
    funext i j
    rw [matrix_sum t.size [cs] (by simpa using h2) [0] (by simp [List.range_succ])]
    simp [h3]
  have hr : rhsAt t.size [cs] = F t.space t.blocks := by
    funext i
    by_cases hi : i < t.size
    · obtain ⟨r, hr, -, h⟩ := rhs_owner t.size [cs] (by simp) i hi
      obtain rfl : r = 0 := by simpa using hr
      rw [h, ← h4]
      rfl
    · rw [F_beyond _ _ (by simpa [Task.size] using hi), rhsAt, own_eq]
      have : owns t.size [cs].length 0 i = false := not_owned (by simp) (by omega)
      simp only [List.length_singleton] at this ⊢
      simp [List.range_succ, this]
  have ha : assemble (buildEquationMap t.space).1 t.blocks t.space.elements.zipIdx LinearSystem.create =
      some ⟨K t.space t.blocks, F t.space t.blocks⟩ := by
    rw [assemble_calls]
    have : assembleCalls (buildEquationMap t.space).1 t.blocks t.space.elements.zipIdx = some cs := h1
    rw [this, Option.map_some]
    congr 1
    rw [after]
    congr 1
    · funext i j; exact h3 i j
    · funext i; exact h4 i
  set u := solver t.size (K t.space t.blocks) (F t.space t.blocks) with hu
  obtain ⟨f, hf⟩ := readSolution_isSome t.space u
  have hsolve : solve solver t.blocks (create t.space) =
      some { create t.space with field := f, linear := ⟨K t.space t.blocks, F t.space t.blocks⟩ } := by
    rw [solve]
    have e1 : (create t.space).equations = (buildEquationMap t.space).1 := rfl
    have e2 : (create t.space).space = t.space := rfl
    have e3 : (create t.space).linear = LinearSystem.create := rfl
    have e4 : (create t.space).nEquations = t.size := rfl
    simp only [e1, e2, e3, e4, ha, ← hu, hf]
  refine ⟨_, hsolve, ?_⟩
  rw [solveTasks, if_pos (by simp)]
  have e1 : [t].mapM Task.calls = some [cs] := by rw [List.mapM_cons, h1]; rfl
  simp only [e1, hm, hr, ← hu]
  have hg : getSolution t.size [t].length 0 u = some ((List.range t.size).map u) := by
    rw [getSolution, if_pos (by simp [localSize])]
    simp [firstRow_zero]
  have hread : readTask t.size [t].length u (t, 0) = some (some f) := by
    rw [readTask, hg, Option.map_some, ← hf]
    congr 1
    refine readSolution_congr _ (fun p hp he => ?_) _
    have := equations_lt t.space p hp he
    simp [Task.size, this]
  have e2 : [t].zipIdx.mapM (readTask t.size [t].length u) = some [some f] := by
    simp only [List.zipIdx_cons, List.zipIdx_nil]
    rw [List.mapM_cons, hread]
    rfl
  rw [e2]
  rfl

end Mito.Distributed

namespace Mito.Distributed

open Mito.Assoc Mito.DiscreteSystem

variable {R : Type} [Field R] [CharZero R]

/-! ## all tasks solve the same problem -/

/-- If `k` tasks run the same program, the matrix is `k` times that of one task; the right-hand side is that of one task. -/
theorem replicated_system (t : Task R) {k : Nat} (hk : 0 < k) (arrival : List Nat) (ha : arrival.Perm (List.range k)) :
    ∃ calls, (List.replicate k t).mapM Task.calls = some calls ∧
      (∀ i j, matrixAt t.size arrival calls i j = k * K t.space t.blocks i j) ∧
      (∀ i < t.size, rhsAt t.size calls i = F t.space t.blocks i) ∧
      ∀ i, assembledRhsAt t.size arrival calls i = k * F t.space t.blocks i := by
  obtain ⟨cs, -, h1, h2, h3, h4⟩ := replicate_calls t k
  refine ⟨_, h1, fun i j => ?_, fun i hi => ?_, fun i => ?_⟩
  · rw [matrix_sum _ _ (by intro l hl; rw [List.eq_of_mem_replicate hl]; exact h2) arrival (by simpa using ha)]
    simp [h3]
  · obtain ⟨r, hr, -, h⟩ := rhs_owner t.size (List.replicate k cs) (by simp; omega) i hi
    rw [h]
    simp [h4]
  · rw [assembled_rhs_sum _ _ (by intro l hl; rw [List.eq_of_mem_replicate hl]; exact h2) arrival (by simpa using ha)]
    simp [h4]

/-- Hence what an exact solver computes is the solution of one task divided by the number of tasks; with an assembled right-hand side it
would be the solution. -/
theorem replicated_solution {solver : Nat → (Nat → Nat → R) → (Nat → R) → Nat → R} (hx : Exact solver) (t : Task R)
    (hK : IsUnit (asMatrix t.size (K t.space t.blocks)).det) {k : Nat} (hk : 0 < k) (arrival : List Nat)
    (ha : arrival.Perm (List.range k)) :
    ∃ calls, (List.replicate k t).mapM Task.calls = some calls ∧ ∀ i < t.size,
      k * solver t.size (matrixAt t.size arrival calls) (rhsAt t.size calls) i =
        solver t.size (K t.space t.blocks) (F t.space t.blocks) i ∧
      solver t.size (matrixAt t.size arrival calls) (assembledRhsAt t.size arrival calls) i =
        solver t.size (K t.space t.blocks) (F t.space t.blocks) i := by
  obtain ⟨calls, h1, h2, h3, h4⟩ := replicated_system t hk arrival ha
  have hk0 : (k : R) ≠ 0 := Nat.cast_ne_zero.mpr (by omega)
  have hm : matrixAt t.size arrival calls = fun i j => (k : R) * K t.space t.blocks i j := by
    funext i j; exact h2 i j
  have hr : assembledRhsAt t.size arrival calls = fun i => (k : R) * F t.space t.blocks i := by
    funext i; exact h4 i
  refine ⟨calls, h1, fun i hi => ⟨?_, ?_⟩⟩
  · have hs : asMatrix t.size (fun i j => (k : R) * K t.space t.blocks i j) = (k : R) • asMatrix t.size (K t.space t.blocks) := by
      ext a b; simp [asMatrix]
    have e1 := hx t.size (matrixAt t.size arrival calls) (rhsAt t.size calls) (by
      rw [hm, hs, Matrix.det_smul]
      exact (IsUnit.mk0 _ (pow_ne_zero _ hk0)).mul hK)
    have e2 := hx t.size (K t.space t.blocks) (F t.space t.blocks) hK
    have inj : Function.Injective (asMatrix t.size (K t.space t.blocks)).mulVec :=
      Matrix.mulVec_injective_iff_isUnit.mpr ((Matrix.isUnit_iff_isUnit_det _).mpr hK)
    generalize solver t.size (matrixAt t.size arrival calls) (rhsAt t.size calls) = u at e1 ⊢
    have e3 : (asMatrix t.size (K t.space t.blocks)).mulVec (fun j : Fin t.size => (k : R) * u j) =
        (asMatrix t.size (K t.space t.blocks)).mulVec
          (fun j : Fin t.size => solver t.size (K t.space t.blocks) (F t.space t.blocks) j) := by
      rw [e2]
      rw [hm, hs, Matrix.smul_mulVec, ← Matrix.mulVec_smul] at e1
      refine Eq.trans ?_ (e1.trans (funext fun i => h3 i i.2))
      rfl
    exact congrFun (inj e3) ⟨i, hi⟩
  · rw [hm, hr]
    exact exact_unique hx _ _ _ hK _ hk0 i hi

/-! ## witnesses -/

/-- the task of C54 -/
def exTask : Task ℚ := ⟨exV, exBlocks⟩

/-- the same mesh on a task where the last node has a smaller id than the one in the middle: ids are addresses -/
def exOther : Task ℚ := ⟨⟨[[7, 5], [5, 3]], [7], fun _ => 1⟩, exBlocks⟩

/-- the rows of a program: matrix and right-hand side of two equations -/
def exRows (arrival : List Nat) (tasks : List (Task ℚ)) : Option (List ℚ) :=
  (tasks.mapM Task.calls).map fun cs =>
    [matrixAt 2 arrival cs 0 0, matrixAt 2 arrival cs 0 1, matrixAt 2 arrival cs 1 0, matrixAt 2 arrival cs 1 1, rhsAt 2 cs 0, rhsAt 2 cs 1]

example : exRows [0] [exTask] = some [2, -1, -1, 1, 1, 1 / 2] := by decide +kernel
example : exRows [0, 1] [exTask, exTask] = some [4, -2, -2, 2, 1, 1 / 2] := by decide +kernel
example : exTask.size = 2 ∧ localSize 2 2 0 = 1 ∧ localSize 2 2 1 = 1 ∧ (getSolution 2 2 0 (fun _ => (0 : ℚ))) = none := by decide +kernel
example : (List.range 3).map (localSize 7 3) = [3, 2, 2] ∧ (List.range 3).map (firstRow 7 3) = [0, 3, 5] := by decide

/-- Tasks that number the nodes of the same mesh differently add rows of different nodes: the matrix is no multiple of that of one task. -/
theorem numbering_mixes : exTask.size = 2 ∧ exOther.size = 2 ∧
    exRows [0] [exOther] = some [1, -1, -1, 2, 1 / 2, 1] ∧
    exRows [0, 1] [exTask, exOther] = some [3, -2, -2, 3, 1, 1] := by decide +kernel

/-- four segments in a row on one task -/
def exWhole : Task ℚ := ⟨⟨[[1, 2], [2, 3], [3, 4], [4, 5]], [1, 5], fun _ => 0⟩, exBlocks⟩
/-- the first two of them -/
def exLeft : Task ℚ := ⟨⟨[[1, 2], [2, 3]], [1], fun _ => 0⟩, exBlocks⟩
/-- the others -/
def exRight : Task ℚ := ⟨⟨[[3, 4], [4, 5]], [5], fun _ => 0⟩, exBlocks⟩

/-- The parts of a mesh: the equations of the tasks coincide, and are fewer than those of the mesh. -/
theorem parts_collide : exWhole.size = 3 ∧ exLeft.size = 2 ∧ exRight.size = 2 ∧
    exRows [0, 1] [exLeft, exRight] = some [3, -2, -2, 3, 1, 1] := by decide +kernel

/-- The part with the larger boundary has fewer equations: the program stops. -/
example : (⟨⟨[[1, 2]], [1], fun _ => 0⟩, exBlocks⟩ : Task ℚ).size = 1 ∧
    (⟨⟨[[2, 3], [3, 4]], [4], fun _ => 0⟩, exBlocks⟩ : Task ℚ).size = 2 := by decide +kernel

/-- the calls of tests/mito.lib/matrix_solvers/petsc_ksp.cc, shortened: values are inserted, by all tasks -/
theorem replicated_inserts : (∀ c ∈ ([.insertMatrix 0 0 2, .insertRhs 1 3] : List (Call ℚ)), c.adds = false) ∧
    matrixAt 2 [1, 0] (List.replicate 2 ([.insertMatrix 0 0 2, .insertRhs 1 3] : List (Call ℚ))) 0 0 = 2 ∧
    rhsAt 2 (List.replicate 2 ([.insertMatrix 0 0 2, .insertRhs 1 3] : List (Call ℚ))) 1 = 3 := by
  refine ⟨by simp [Call.adds], by decide +kernel, by decide +kernel⟩

/-- `replicated_solution` is not vacuous -/
example : IsUnit (asMatrix exTask.size (K exTask.space exTask.blocks)).det ∧ ∃ solver : Nat → (Nat → Nat → ℚ) → (Nat → ℚ) → Nat → ℚ, Exact solver := by
  refine ⟨?_, exact_exists⟩
  rw [isUnit_iff_ne_zero]
  have h : exTask.size = 2 := by decide +kernel
  rw [h, Matrix.det_fin_two]
  decide +kernel

end Mito.Distributed
