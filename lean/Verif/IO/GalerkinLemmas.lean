import Verif.IO.Galerkin
import Verif.Props.Extraction

/-! # Lemmas on meshes that are read as discontinuous ones -/

namespace Mito.Printing

open Mito.Summit Mito.Numbering

theorem firsts_length {α : Type} [DecidableEq α] (l : List α) : (firsts l).length = l.toFinset.card := by
  rw [← List.toFinset_card_of_nodup (firsts_nodup l)]
  congr 1
  ext p
  simp [mem_firsts]

theorem fieldSize_eq (cells : List Cell) : fieldSize cells = (firsts (cells.flatMap fun c => c.map (·.id))).length := number_length _ _

theorem readIntChars_le (s : CharStream) : (readIntChars s).1 ≤ intMax := by
  unfold readIntChars
  split
  · simp
  · simp only
    split
    · simp
    · split
      · split
        · simp only
          omega
        · simp only
          omega
      · split
        · rename_i h
          simpa using h
        · simp

/-- what is read has no more nodes and cells than an `int` can count -/
theorem readerChars_le {D type V : Nat} {text : List Char} {nodes : List (List ℚ)} {read : List (List Nat)}
    (h : readerChars D type V text = .ok (nodes, read)) : D ≤ intMax ∧ nodes.length ≤ intMax ∧ read.length ≤ intMax := by
  unfold readerChars at h
  simp only at h
  split at h
  · simp at h
  rename_i h1
  split at h
  · simp at h
  split at h
  · simp at h
  split at h
  · simp at h
  split at h
  · simp at h
  rename_i h2
  split at h
  · simp at h
  rename_i h3
  simp only [Outcome.ok.injEq, Prod.mk.injEq] at h
  obtain ⟨rfl, rfl⟩ := h
  have a1 := readIntChars_le ⟨text, false⟩
  have a2 := readIntChars_le (readIntChars ⟨text, false⟩).2
  have a3 := readIntChars_le (readIntChars (readIntChars ⟨text, false⟩).2).2
  refine ⟨?_, ?_, ?_⟩ <;> omega

theorem points_zip {a c : List Nat} (h : a.length = c.length) : (List.zipWith (fun a i => (⟨a, i⟩ : Node)) a c).map (·.point) = c := by
  induction a generalizing c with
  | nil => cases c <;> simp_all
  | cons x a ih => cases c with
    | nil => simp at h
    | cons y c => simp [ih (by simpa using h)]

theorem ids_zip {a c : List Nat} (h : a.length = c.length) : (List.zipWith (fun a i => (⟨a, i⟩ : Node)) a c).map (·.id) = a := by
  induction a generalizing c with
  | nil => simp
  | cons x a ih => cases c with
    | nil => simp at h
    | cons y c => simp [ih (by simpa using h)]

/-- the points are those of the file -/
theorem Galerkin.points_eq {g : Galerkin} {cs : List (List Nat)} (h : g.Fresh cs) : (g.cells cs).map (fun c => c.map (·.point)) = cs := by
  cases g with
  | CG => simp [Galerkin.cells, readCells, Function.comp_def]
  | DG ids =>
    obtain ⟨h, -⟩ := h
    simp only [Galerkin.cells, readCellsDG]
    induction ids generalizing cs with
    | nil => cases cs <;> simp_all
    | cons a ids ih =>
      cases cs with
      | nil => simp at h
      | cons c cs =>
        simp only [List.map_cons, List.cons.injEq] at h
        simp [points_zip h.1, ih h.2]

theorem ids_eq {ids cs : List (List Nat)} (h : ids.map List.length = cs.map List.length) :
    (readCellsDG ids cs).map (fun c => c.map (·.id)) = ids := by
  simp only [readCellsDG]
  induction ids generalizing cs with
  | nil => cases cs <;> simp_all
  | cons a ids ih =>
    cases cs with
    | nil => simp at h
    | cons c cs =>
      simp only [List.map_cons, List.cons.injEq] at h
      simp [ids_zip h.1, ih h.2]

theorem meshPoints_eq (cells : List Cell) : meshPoints cells = (cells.map fun c => c.map (·.point)).flatten := by
  rw [meshPoints, List.flatMap_def]

theorem fieldSize_ids (cells : List Cell) : fieldSize cells = (firsts (cells.map fun c => c.map (·.id)).flatten).length := by
  rw [fieldSize_eq, List.flatMap_def]

end Mito.Printing
