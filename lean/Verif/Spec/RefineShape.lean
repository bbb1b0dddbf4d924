import Verif.Mesh.Refine
import Mathlib.Analysis.Seminorm
import Mathlib.Data.Real.Basic

/-! # Sizes and shapes of cells (C86, C87) -/

namespace Mito.Refine

/-- no two nodes are more than `h` apart; `p` measures lengths (the Euclidean norm, the maximum norm, …) -/
def SizeLe (p : Seminorm ℝ (Nat → ℝ)) (h : ℝ) (c : List (PNode ℝ)) : Prop :=
  c.Pairwise fun a b => p (b.pos - a.pos) ≤ h

/-- the nodes of `d` are those of `c`, in order, scaled by `s` and moved by `v` -/
def Scaled {K : Type*} [Field K] (s : K) (v : Nat → K) (c d : List (PNode K)) : Prop :=
  List.Forall₂ (fun a b => ∀ i, b.pos i = s * a.pos i + v i) c d

/-- `d` is similar to `c`: a copy of `c` on a scale of `1 : 2 ^ n`, not rotated, maybe point reflected.  The nodes may be listed in
another order. -/
def SimilarTo {K : Type*} [Field K] (n : Nat) (c d : List (PNode K)) : Prop :=
  ∃ c', c'.Perm c ∧ ∃ s v, (s = 1 / 2 ^ n ∨ s = -(1 / 2 ^ n)) ∧ Scaled s v c' d

end Mito.Refine
