import Verif.Materials.Materials

/-! # Specification of stable materials (C146) -/

namespace Mito.Materials

/-- strong ellipticity: plane waves of every direction `b` and polarization `a` have real speeds -/
def Elliptic (C : Tensor4) : Prop := ∀ a b : Fin 3 → ℝ, a ≠ 0 → b ≠ 0 → 0 < ∑ i, ∑ j, ∑ k, ∑ l, C i j k l * a i * b j * a k * b l

end Mito.Materials
