import Verif.Tensor.Forms

/-! # Specification of forms (C44, C45) -/

namespace Mito.Tensor

variable {d : Nat}

/-- linear in the vector -/
def Linear (a : Form1 d) : Prop := ∀ (s t : ℝ) (x y : Vec d), a (s • x + t • y) = s * a x + t * a y

/-- linear in every vector -/
def Bilinear (f : Form2 d) : Prop := (∀ y, Linear fun x => f x y) ∧ ∀ x, Linear fun y => f x y

def Trilinear (f : Form3 d) : Prop :=
  (∀ y z, Linear fun x => f x y z) ∧ (∀ x z, Linear fun y => f x y z) ∧ ∀ x y, Linear fun z => f x y z

/-- swapping two vectors changes the sign -/
def Alternating2 (f : Form2 d) : Prop := ∀ x y, f y x = -f x y

def Alternating3 (f : Form3 d) : Prop :=
  (∀ x y z, f y x z = -f x y z) ∧ (∀ x y z, f x z y = -f x y z) ∧ ∀ x y z, f z y x = -f x y z

end Mito.Tensor
