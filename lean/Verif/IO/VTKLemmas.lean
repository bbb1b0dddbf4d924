import Verif.IO.VTK
import Verif.Utilities.NumberingLemmas

/-! # Helpers about VTK grids -/

namespace Mito.VTK

open Mito.Numbering

variable {ν κ C : Type} [DecidableEq κ]

/-- the points are numbered like their keys, and there is a point per key -/
theorem foldl_addPoint (key : ν → κ) (coords : ν → C) (l : List ν) :
    let s := l.foldl (addPoint key coords) (([], 0), [])
    s.1.1 = (firsts (l.map key)).zipIdx 0 ∧ s.1.2 = (firsts (l.map key)).length ∧
      s.2.length = (firsts (l.map key)).length ∧
      ∀ (i : Nat) (k : κ), (firsts (l.map key))[i]? = some k →
        ∃ n ∈ l, key n = k ∧ s.2[i]? = some (coords n) := by
  induction l using List.reverseRecOn with
  | nil => simp [firsts]
  | append_singleton l x ih =>
    dsimp only at ih ⊢
    obtain ⟨h1, h2, h3, h4⟩ := ih
    rw [List.foldl_append, List.foldl_cons, List.foldl_nil, List.map_append, List.map_cons,
      List.map_nil, firsts_append_singleton]
    set s := l.foldl (addPoint key coords) (([], 0), []) with hs
    by_cases hx : key x ∈ l.map key
    · have hl : lookup s.1.1 (key x) = some (0 + (firsts (l.map key)).idxOf (key x)) := by
        rw [h1, lookup_zipIdx, if_pos (mem_firsts.mpr hx)]
      have ha : addPoint key coords s x = s := by rw [addPoint, hl]
      rw [if_pos hx, ha]
      refine ⟨h1, h2, h3, fun i k hk => ?_⟩
      obtain ⟨n, hn, e1, e2⟩ := h4 i k hk
      exact ⟨n, by simp [hn], e1, e2⟩
    · have hl : lookup s.1.1 (key x) = none := by
        rw [h1, lookup_zipIdx, if_neg (fun h => hx (mem_firsts.mp h))]
      have ha : addPoint key coords s x =
          ((s.1.1 ++ [(key x, s.1.2)], s.1.2 + 1), s.2 ++ [coords x]) := by
        rw [addPoint, hl]
        simp [Numbering.step, hl]
      rw [if_neg hx, ha]
      refine ⟨?_, ?_, ?_, fun i k hk => ?_⟩
      · simp [h1, h2, List.zipIdx_append]
      · simp [h2]
      · simp [h3]
      · rw [List.getElem?_append] at hk
        split at hk
        · rename_i hi
          obtain ⟨n, hn, e1, e2⟩ := h4 i k hk
          refine ⟨n, by simp [hn], e1, ?_⟩
          rw [List.getElem?_append_left (by omega), e2]
        · rename_i hi
          have hi' : i = (firsts (l.map key)).length := by
            by_contra hc
            rw [List.getElem?_eq_none (by simp; omega)] at hk
            simp at hk
          subst hi'
          simp only [Nat.sub_self, List.getElem?_cons_zero, Option.some.injEq] at hk
          refine ⟨x, by simp, hk, ?_⟩
          rw [List.getElem?_append_right (by omega), h3]
          simp

/-- the grid, spelled out -/
theorem createGrid_eq (key : ν → κ) (coords : ν → C) (cells : List (List ν)) :
    ∃ pts, createGrid key coords cells = some ((firsts (cells.flatten.map key)).zipIdx 0,
        ⟨pts, cells.map fun c => c.map fun n => (firsts (cells.flatten.map key)).idxOf (key n)⟩) ∧
      pts.length = (firsts (cells.flatten.map key)).length ∧
      ∀ (i : Nat) (k : κ), (firsts (cells.flatten.map key))[i]? = some k →
        ∃ n ∈ cells.flatten, key n = k ∧ pts[i]? = some (coords n) := by
  obtain ⟨h1, _, h3, h4⟩ := foldl_addPoint key coords cells.flatten
  refine ⟨_, ?_, h3, h4⟩
  have hc : ∀ c ∈ cells, allSome (c.map fun n => lookup
      ((cells.flatten).foldl (addPoint key coords) (([], 0), [])).1.1 (key n)) =
      some (c.map fun n => (firsts (cells.flatten.map key)).idxOf (key n)) := by
    intro c hc
    apply allSome_map
    intro n hn
    have hm : key n ∈ firsts (cells.flatten.map key) :=
      mem_firsts.mpr (List.mem_map.mpr ⟨n, List.mem_flatten.mpr ⟨c, hc, hn⟩, rfl⟩)
    rw [h1, lookup_zipIdx, if_pos hm, Nat.zero_add]
  rw [createGrid]
  rw [allSome_map hc, h1]

end Mito.VTK
