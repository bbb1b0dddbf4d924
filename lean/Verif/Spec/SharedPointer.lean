import Verif.Utilities.SharedPointer

/-! # Specification of reference counting (C01, C02) -/

namespace Mito.SharedPointer

/-- the live pointers that hold resource `r` -/
def holders (s : State) (r : Res) : Finset Var := s.live.filter fun v => s.handle v = some r

/-- Does `op` move-assign between two pointers that both hold `r` (possibly the same pointer)? -/
def movesOnto (s : State) (r : Res) : Op → Bool
  | .moveAssign v w => decide (s.handle v = some r ∧ s.handle w = some r)
  | _ => false

/-- How often in the history do we move-assign a pointer to `r` onto a pointer to `r`? -/
def selfMoves (s : State) (r : Res) : List Op → Nat
  | [] => 0
  | op :: ops =>
    (if movesOnto s r op then 1 else 0) +
      match step s op with
      | .ok s' => selfMoves s' r ops
      | .ub => 0

end Mito.SharedPointer
