import Verif.Solvers.Distributed
import Verif.Spec.DiscreteSystem

/-! # Specification vocabulary for linear systems with several tasks -/

namespace Mito.Distributed

variable {R : Type} [CommRing R]

/-- does the call add to an entry? -/
def Call.adds : Call R → Bool
  | .insertMatrix _ _ _ => false
  | .addMatrix _ _ _ => true
  | .insertRhs _ _ => false
  | .addRhs _ _ => true

/-- the value given for the entry `(i, j)` of the matrix -/
def Call.matrixValue (i j : Nat) : Call R → Option R
  | .insertMatrix i' j' v => if i = i' ∧ j = j' then some v else none
  | .addMatrix i' j' v => if i = i' ∧ j = j' then some v else none
  | .insertRhs _ _ => none
  | .addRhs _ _ => none

/-- the value given for the entry `i` of the right-hand side -/
def Call.rhsValue (i : Nat) : Call R → Option R
  | .insertMatrix _ _ _ => none
  | .addMatrix _ _ _ => none
  | .insertRhs i' v => if i = i' then some v else none
  | .addRhs i' v => if i = i' then some v else none

/-- the entry of the matrix after the calls of one program with one task -/
def serialMatrix (cs : List (Call R)) (i j : Nat) : R := cs.foldl (Call.onMatrix i j) 0

/-- the entry of the right-hand side -/
def serialRhs (cs : List (Call R)) (i : Nat) : R := cs.foldl (Call.onRhs i) 0

end Mito.Distributed
