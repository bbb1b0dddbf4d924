import Verif.Spec.FileNames
import Mathlib.Order.Basic
import Mathlib.Tactic.NormNum

/-! # C106: the names of the files written -/

namespace Mito.FileNames

theorem append_digits_inj {a b : List Char} {u v : List Char} (hu : '_' ∉ u) (hv : '_' ∉ v) (h : a ++ '_' :: u = b ++ '_' :: v) : a = b ∧ u = v := by
  induction a generalizing b with
  | nil =>
    cases b with
    | nil => exact ⟨rfl, (List.cons.inj h).2⟩
    | cons y b =>
      obtain ⟨-, rfl⟩ := List.cons.inj h
      simp at hu
  | cons x a ih =>
    cases b with
    | nil =>
      obtain ⟨-, e⟩ := List.cons.inj h
      rw [← e] at hv
      simp at hv
    | cons y b =>
      obtain ⟨rfl, e⟩ := List.cons.inj h
      obtain ⟨rfl, e'⟩ := ih e
      exact ⟨rfl, e'⟩

/-- **C106.**  The names of the pieces tell the writer and the task, even if the names of the writers contain underscores and digits. -/
theorem numbered_inj {a b : List Char} {r s : Nat} : numbered a r = numbered b s ↔ a = b ∧ r = s := by
  refine ⟨fun h => ?_, by rintro ⟨rfl, rfl⟩; rfl⟩
  obtain ⟨h1, h2⟩ := append_digits_inj Nat.underscore_not_in_toDigits Nat.underscore_not_in_toDigits h
  refine ⟨h1, ?_⟩
  rw [← Nat.ofDigitChars_ten_toDigits (n := r), h2, Nat.ofDigitChars_ten_toDigits]

/-- **C106.**  When two writers (of any tasks) write the same file: both are serial, or both write Summit files, and have the same name; both are
parallel, and have the same name and the same task; or one is serial and has the name of a piece of the other one. -/
theorem dataFile_eq_iff (v w : Writer) (r s : Nat) : v.dataFile r = w.dataFile s ↔
    (v.kind = w.kind ∧ v.name = w.name ∧ (v.kind = .parallel → r = s)) ∨
    (v.kind = .serial ∧ w.kind = .parallel ∧ v.name = numbered w.name s) ∨
    (v.kind = .parallel ∧ w.kind = .serial ∧ numbered v.name r = w.name) := by
  obtain ⟨k, a⟩ := v
  obtain ⟨l, b⟩ := w
  have hne : ∀ x y : List Char, x ++ ['.', 'v', 't', 'u'] ≠ y ++ ['.', 's', 'u', 'm', 'm', 'i', 't'] := by
    intro x y h
    have := congrArg List.getLast? h
    simp at this
  cases k <;> cases l <;> simp [Writer.dataFile, numbered_inj, hne, (hne _ _).symm, Ne.symm (hne _ _)]

theorem mem_namesOf {k : Kind} {ws : List Writer} {a : List Char} : a ∈ namesOf k ws ↔ (⟨k, a⟩ : Writer) ∈ ws := by
  simp only [namesOf, List.mem_map, List.mem_filter, decide_eq_true_eq]
  constructor
  · rintro ⟨⟨k', b⟩, ⟨h, rfl⟩, rfl⟩
    exact h
  · exact fun h => ⟨_, ⟨h, rfl⟩, rfl⟩

theorem namesOf_nodup_iff (ws : List Writer) : (∀ k, (namesOf k ws).Nodup) ↔ ws.Nodup := by
  constructor
  · intro h
    rw [List.nodup_iff_count_le_one]
    rintro ⟨k, a⟩
    have h1 := List.nodup_iff_count_le_one.mp (h k) a
    refine le_trans ?_ h1
    rw [namesOf]
    calc ws.count ⟨k, a⟩ = (ws.filter fun w => w.kind = k).count ⟨k, a⟩ := by rw [List.count_filter (by simp)]
      _ ≤ ((ws.filter fun w => w.kind = k).map (·.name)).count a := by
        have := List.count_le_count_map (f := fun w : Writer => w.name) (l := ws.filter fun w => w.kind = k) (x := ⟨k, a⟩)
        simpa using this
  · intro h k
    refine List.Nodup.map_on ?_ (h.filter _)
    rintro ⟨k1, a⟩ h1 ⟨k2, b⟩ h2 e
    simp at h1 h2 e
    simp [h1.2, h2.2, e]

/-- **C106.**  No file with data is written twice exactly if the author of the program takes care: writers of the same kind have different names, in a job with
several tasks all the writers are parallel ones, and no serial writer has the name of a piece. -/
theorem no_clash_iff (n : Nat) (hn : 1 ≤ n) (ws : List Writer) : NoClash n ws ↔ Careful n ws := by
  constructor
  · intro h
    refine ⟨(namesOf_nodup_iff ws).mpr ?_, ?_, ?_⟩
    · rw [List.nodup_iff_injective_get]
      intro i j e
      have := h i j i.2 j.2 0 0 hn hn (by simpa using congrArg (fun w => Writer.dataFile w 0) e)
      exact Fin.ext this.1
    · intro h2 w hw
      obtain ⟨i, hi, rfl⟩ := List.getElem_of_mem hw
      by_contra hk
      have := (h i i hi hi 0 1 (by omega) (by omega) (by rw [dataFile_eq_iff]; exact .inl ⟨rfl, rfl, fun e => (hk e).elim⟩)).2
      omega
    · intro a ha b hb r hr e
      obtain ⟨i, hi, ei⟩ := List.getElem_of_mem (mem_namesOf.mp ha)
      obtain ⟨j, hj, ej⟩ := List.getElem_of_mem (mem_namesOf.mp hb)
      have := (h i j hi hj r r hr hr (by rw [ei, ej, dataFile_eq_iff]; exact .inr (.inl ⟨rfl, rfl, e⟩))).1
      subst this
      rw [ei] at ej
      simp at ej
  · intro h i j hi hj r s hr hs e
    have hnd := (namesOf_nodup_iff ws).mp h.different
    rw [dataFile_eq_iff] at e
    rcases e with ⟨e1, e2, e3⟩ | ⟨e1, e2, e3⟩ | ⟨e1, e2, e3⟩
    · have hw : ws[i] = ws[j] := by
        generalize ws[i] = v at *
        generalize ws[j] = w at *
        cases v; cases w; simp_all
      refine ⟨(hnd.getElem_inj_iff).mp hw, ?_⟩
      by_cases h2 : 2 ≤ n
      · exact e3 (h.parallel h2 _ (List.getElem_mem hi))
      · omega
    · refine (h.pieces ws[i].name (mem_namesOf.mpr ?_) ws[j].name (mem_namesOf.mpr ?_) s hs e3).elim
      · rw [← e1]; exact List.getElem_mem hi
      · rw [← e2]; exact List.getElem_mem hj
    · refine (h.pieces ws[j].name (mem_namesOf.mpr ?_) ws[i].name (mem_namesOf.mpr ?_) r hr e3.symm).elim
      · rw [← e2]; exact List.getElem_mem hj
      · rw [← e1]; exact List.getElem_mem hi

/-- **C106.**  In particular parallel writers with different names never overwrite each other, whatever the number of tasks. -/
theorem parallel_no_clash (n : Nat) (names : List (List Char)) (h : names.Nodup) : NoClash n (names.map fun a => ⟨.parallel, a⟩) := by
  intro i j hi hj r s _ _ e
  rw [dataFile_eq_iff] at e
  simp only [List.getElem_map, reduceCtorEq, false_and, and_false, or_false, true_and, forall_const] at e
  exact ⟨(h.getElem_inj_iff).mp e.1, e.2⟩

/-- **C106.**  The list of pieces has a name of its own, different from all files with data. -/
theorem summary_different (v w : Writer) (r : Nat) (f : List Char) (h : v.summaryFile = some f) : f ≠ w.dataFile r := by
  obtain ⟨k, a⟩ := v
  obtain ⟨l, b⟩ := w
  cases k <;> simp [Writer.summaryFile] at h
  subst h
  intro e
  have := congrArg List.reverse e
  cases l <;> simp [Writer.dataFile, numbered] at this

/-! ### Examples -/

/-- a clash: the serial writer `a_0` and the first piece of the parallel writer `a` -/
example : (Writer.mk .serial "a_0".toList).dataFile 0 = (Writer.mk .parallel "a".toList).dataFile 0 := by decide

/-- two tasks with a serial writer write the same file -/
example : ¬ NoClash 2 [⟨.serial, "mesh".toList⟩] := by
  rw [no_clash_iff 2 (by norm_num)]
  exact fun h => absurd (h.parallel (by norm_num) ⟨.serial, "mesh".toList⟩ (by simp)) (by simp)

/-- names with underscores and digits: `a_1` of the task 1, and `a` of the task 11 -/
example : (Writer.mk .parallel "a_1".toList).dataFile 1 = "a_1_1.vtu".toList ∧ (Writer.mk .parallel "a".toList).dataFile 11 = "a_11.vtu".toList ∧
    NoClash 12 [⟨.parallel, "a_1".toList⟩, ⟨.parallel, "a".toList⟩] :=
  ⟨by decide, by decide, parallel_no_clash 12 ["a_1".toList, "a".toList] (by decide)⟩

/-- **C106.**  Parallel writers, and only these, have a summary; its name is that of the writer with the extension `pvtu`. -/
theorem summary_name (w : Writer) (f : List Char) : w.summaryFile = some f ↔ w.kind = .parallel ∧ f = w.name ++ ".pvtu".toList := by
  have : ".pvtu".toList = ['.', 'p', 'v', 't', 'u'] := by decide
  rw [this]
  unfold Writer.summaryFile
  split <;> rename_i h
  · simp [h, eq_comm]
  · simp only [reduceCtorEq, false_iff, not_and]
    exact fun hk => (h hk).elim

end Mito.FileNames
