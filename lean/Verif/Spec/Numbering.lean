import Mathlib.Data.List.Basic

/-! # Specification vocabulary: the distinct elements of a list, in order of first occurrence -/

namespace Mito.Numbering

def firsts {κ : Type} [DecidableEq κ] : List κ → List κ
  | [] => []
  | x :: l => x :: (firsts l).filter (· ≠ x)

end Mito.Numbering
