import Verif.IO.Cloud

/-! # Specification vocabulary for point clouds (C105) -/

namespace Mito.Cloud

open Mito.Tensor

variable {d : Nat}

/-- the point that an operation creates -/
def Op.creates : Op d → Option Nat
  | .point a => some a
  | .place _ _ _ => none
  | .node _ a _ => some a

/-- what an operation places in the coordinate system `s` -/
def Op.places (s : Nat) : Op d → Option (Nat × Vec d)
  | .point _ => none
  | .place s' p x => if s' = s then some (p, x) else none
  | .node s' a x => if s' = s then some (a, x) else none

/-- the points created, in order -/
def created (h : List (Op d)) : List Nat := h.filterMap Op.creates

/-- the placements in the coordinate system `s`, in order -/
def placements (s : Nat) (h : List (Op d)) : List (Nat × Vec d) := h.filterMap (Op.places s)

end Mito.Cloud
