import Verif.Fem.DiscreteField

/-! # Specification vocabulary for discrete fields (C65) -/

namespace Mito.DiscreteField

variable {κ V : Type} [DecidableEq κ]

/-- the value that a use writes at `k`, if it writes there -/
def writes (k : κ) : Op κ V → Option V
  | .insert _ _ => none
  | .write k' v => if k' = k then some v else none

/-- What the field should hold at `k` after `history`: nothing if `k` was never inserted; otherwise the value
written last since it was inserted first, or the value it was inserted first with. -/
def valueOf (k : κ) : List (Op κ V) → Option V
  | [] => none
  | .insert k' v :: later =>
    if k' = k then some (((later.filterMap (writes k)).getLast?).getD v) else valueOf k later
  | .write _ _ :: later => valueOf k later

/-- the keys inserted in a history -/
def inserted : List (Op κ V) → List κ
  | [] => []
  | .insert k _ :: later => k :: inserted later
  | .write _ _ :: later => inserted later

end Mito.DiscreteField
