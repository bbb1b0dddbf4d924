import Verif.Geometry.GradientLemmas

/-! # C112: gradients and divergences in curvilinear coordinates -/

namespace Mito.Geometry

open Mito.Tensor Mito.Functions Filter Topology

section
variable {d : Nat} {S : System d} {A : Vec d} {h : Fin d → ℝ} {pos : Vec d → Vec d} {frame : Vec d → Mat d}

/-! ## gradients made from forms -/

/-- the gradient form of the basis vectors: the partial derivatives -/
theorem gradientForm_basis (H : Diagonal S A h) (f : Expr (.vec d) .scalar) (J : Fin d) :
    S.gradientForm f A (S.e J A) = (f.derivative J).eval A () := by
  simp only [System.gradientForm]
  rw [Finset.sum_eq_single J]
  · rw [H.dual, if_pos rfl, mul_one]
  · intro I _ hI
    rw [H.dual, if_neg hI, mul_zero]
  · simp

/-- the formula of the tests: the partial derivatives over the squares of the lengths of the basis vectors, times the basis vectors -/
theorem gradientVector_formula (H : Diagonal S A h) (f : Expr (.vec d) .scalar) :
    S.gradientVector f A = ∑ K, ((f.derivative K).eval A () / h K ^ 2) • S.e K A := by
  funext J
  rw [H.gradientVector, Finset.sum_apply, Finset.sum_eq_single J]
  · have := (H.pos J).ne'
    rw [Pi.smul_apply, H.basis, Pi.single_eq_same, smul_eq_mul]
    field_simp
  · intro I _ hI
    rw [Pi.smul_apply, H.basis, Pi.single_eq_of_ne hI.symm, smul_zero]
  · simp

/-- The vector is the gradient, in the frame of the point. -/
theorem gradientVector_correct (hQ : (frame A).transpose * frame A = 1) (hb : CoordinateBasis S pos frame) (H : Diagonal S A h)
    {f : Expr (.vec d) .scalar} (hr : f.HasRule) (hs : f.Smooth A) {F : Vec d → ℝ} {G : Vec d} (hF : HasGradient F G (pos A))
    (hf : Represents pos f F A) : (frame A).mulVec (S.gradientVector f A) = G := by
  have h1 : S.gradientVector f A = (frame A).transpose.mulVec G := by
    funext K
    rw [H.gradientVector, partial_chain hb hr hs hF hf, H.basis]
    have h2 : (Pi.single K (h K) : Vec d) = h K • Pi.single K 1 := by rw [← Pi.single_smul, smul_eq_mul, mul_one]
    have := (H.pos K).ne'
    rw [h2, Matrix.mulVec_smul, dotProduct_smul, Matrix.mulVec_single_one, smul_eq_mul, mul_div_assoc, mul_comm, div_mul_cancel₀ _ this]
    exact dotProduct_comm _ _
  rw [h1, orthogonal_mulVec hQ]

/-- `fields::gradient` is the gradient exactly if the field does not change along basis vectors of a length other than one. -/
theorem fieldsGradient_iff (hQ : (frame A).transpose * frame A = 1) (hb : CoordinateBasis S pos frame) (H : Diagonal S A h)
    {f : Expr (.vec d) .scalar} (hr : f.HasRule) (hs : f.Smooth A) {F : Vec d → ℝ} {G : Vec d} (hF : HasGradient F G (pos A))
    (hf : Represents pos f F A) :
    (frame A).mulVec ((gradient f).eval A) = G ↔ ∀ K, (f.derivative K).eval A () = 0 ∨ h K = 1 := by
  rw [← gradientVector_correct hQ hb H hr hs hF hf]
  constructor
  · intro he K
    have h1 := congrFun (congrArg (fun u => (frame A).transpose.mulVec u) he) K
    simp only [Matrix.mulVec_mulVec, hQ, Matrix.one_mulVec] at h1
    rw [gradient_eval, H.gradientVector] at h1
    have h2 := (H.pos K).ne'
    by_cases h0 : (f.derivative K).eval A () = 0
    · exact .inl h0
    · right
      rw [eq_div_iff h2] at h1
      exact mul_left_cancel₀ h0 (by rw [h1, mul_one])
  · intro hK
    congr 1
    funext K
    rw [gradient_eval, H.gradientVector]
    rcases hK K with h0 | h1
    · rw [h0, zero_div]
    · rw [h1, div_one]

end

section
variable {d : Nat}

theorem cartesian_gradient {f : Expr (.vec d) .scalar} {A G : Vec d} (hr : f.HasRule) (hs : f.Smooth A) {F : Vec d → ℝ}
    (hF : HasGradient F G A) (hf : Represents id f F A) : (cartesian d).gradientVector f A = G ∧ (gradient f).eval A = G := by
  have h1 := gradientVector_correct (S := cartesian d) (frame := fun _ => 1) (by simp) cartesian_basis (cartesian_diagonal d A) hr hs hF hf
  have h2 := (fieldsGradient_iff (S := cartesian d) (frame := fun _ => 1) (by simp) cartesian_basis (cartesian_diagonal d A) hr hs hF hf).2
    fun _ => .inr rfl
  rw [Matrix.one_mulVec] at h1 h2
  exact ⟨h1, h2⟩

theorem polar_gradient {f : Expr (.vec 2) .scalar} {A G : Vec 2} (hA : 0 < A 0) (hr : f.HasRule) (hs : f.Smooth A) {F : Vec 2 → ℝ}
    (hF : HasGradient F G (cartesianOfPolar A)) (hf : Represents cartesianOfPolar f F A) :
    (polarFrame A).mulVec (polar.gradientVector f A) = G :=
  gradientVector_correct (polar_frame A).1 polar_basis (polar_diagonal hA) hr hs hF hf

theorem spherical_gradient {f : Expr (.vec 3) .scalar} {A G : Vec 3} (hA : 0 < A 0) (hθ : 0 < Real.sin (A 1)) (hr : f.HasRule)
    (hs : f.Smooth A) {F : Vec 3 → ℝ} (hF : HasGradient F G (cartesianOfSpherical A)) (hf : Represents cartesianOfSpherical f F A) :
    (sphericalFrame A).mulVec (spherical.gradientVector f A) = G :=
  gradientVector_correct (spherical_frame A).1 spherical_basis (spherical_diagonal hA hθ) hr hs hF hf

/-- in polar coordinates `fields::gradient` is the gradient where the radius is one, and where the field does not depend on the angle -/
theorem polar_fieldsGradient_iff {f : Expr (.vec 2) .scalar} {A G : Vec 2} (hA : 0 < A 0) (hr : f.HasRule) (hs : f.Smooth A) {F : Vec 2 → ℝ}
    (hF : HasGradient F G (cartesianOfPolar A)) (hf : Represents cartesianOfPolar f F A) :
    (polarFrame A).mulVec ((gradient f).eval A) = G ↔ (f.derivative (1 : Fin 2)).eval A () = 0 ∨ A 0 = 1 := by
  rw [fieldsGradient_iff (polar_frame A).1 polar_basis (polar_diagonal hA) hr hs hF hf, Fin.forall_fin_two]
  simp

/-! ## divergences -/

theorem polar_frameDerivative (A : Vec 2) : FrameDerivative polarFrame
    ![0, !![-Real.sin (A 1), -Real.cos (A 1); Real.cos (A 1), -Real.sin (A 1)]] A := by
  intro I i k
  fin_cases I <;> fin_cases i <;> fin_cases k <;> simp [polarFrame]
  · exact hasDerivAt_const _ _
  · exact hasDerivAt_const _ _
  · exact hasDerivAt_const _ _
  · exact hasDerivAt_const _ _
  · exact Real.hasDerivAt_cos _
  · exact (Real.hasDerivAt_sin _).neg
  · exact Real.hasDerivAt_sin _
  · exact Real.hasDerivAt_cos _

/-- the divergence of a vector field in polar coordinates -/
theorem polar_divergence {v : Expr (.vec 2) (.vec 2)} {A : Vec 2} (hA : 0 < A 0) (hr : v.HasRule) (hs : v.Smooth A) {W : Vec 2 → Vec 2} {c : ℝ}
    (hW : HasDivergence W c (cartesianOfPolar A)) (hv : RepresentsV cartesianOfPolar polarFrame v W A) :
    c = (v.derivative (0 : Fin 2)).eval A 0 + v.eval A 0 / A 0 + (v.derivative (1 : Fin 2)).eval A 1 / A 0 := by
  rw [divergence_chain (polar_frame A).1 polar_basis (polar_diagonal hA) (polar_frameDerivative A) hr hs hW hv, Fin.sum_univ_two]
  simp only [Matrix.mulVec, dotProduct, Fin.sum_univ_two, Matrix.mul_apply, Matrix.transpose_apply, polarFrame]
  simp
  have := Real.sin_sq_add_cos_sq (A 1)
  field_simp
  linear_combination (v.eval A 0) * this

/-- what `fields::divergence` computes is the divergence exactly if the radial component is a multiple of the angular derivative -/
theorem polar_fieldsDivergence_iff {v : Expr (.vec 2) (.vec 2)} {A : Vec 2} (hA : 0 < A 0) (hr : v.HasRule) (hs : v.Smooth A)
    {W : Vec 2 → Vec 2} {c : ℝ} (hW : HasDivergence W c (cartesianOfPolar A)) (hv : RepresentsV cartesianOfPolar polarFrame v W A) :
    (divergence v).eval A () = c ↔ v.eval A 0 = (A 0 - 1) * (v.derivative (1 : Fin 2)).eval A 1 := by
  rw [polar_divergence hA hr hs hW hv, divergence_eval, Fin.sum_univ_two]
  have := hA.ne'
  constructor
  · intro h1
    field_simp at h1
    linarith
  · intro h1
    rw [h1]
    field_simp
    ring

theorem spherical_frameDerivative (A : Vec 3) : FrameDerivative sphericalFrame
    ![0,
      !![Real.cos (A 1) * Real.cos (A 2), -Real.sin (A 1) * Real.cos (A 2), 0;
         Real.cos (A 1) * Real.sin (A 2), -Real.sin (A 1) * Real.sin (A 2), 0;
         -Real.sin (A 1), -Real.cos (A 1), 0],
      !![-Real.sin (A 1) * Real.sin (A 2), -Real.cos (A 1) * Real.sin (A 2), -Real.cos (A 2);
         Real.sin (A 1) * Real.cos (A 2), Real.cos (A 1) * Real.cos (A 2), -Real.sin (A 2);
         0, 0, 0]] A := by
  intro I i k
  fin_cases I <;> fin_cases i <;> fin_cases k <;> simp [sphericalFrame]
  all_goals first
    | exact hasDerivAt_const _ _
    | exact Real.hasDerivAt_cos _
    | exact Real.hasDerivAt_sin _
    | exact (Real.hasDerivAt_sin _).neg
    | exact (Real.hasDerivAt_sin _).mul_const _
    | exact (Real.hasDerivAt_sin _).const_mul _
    | exact HasDerivAt.congr_deriv ((Real.hasDerivAt_cos _).mul_const _) (by ring)
    | exact HasDerivAt.congr_deriv ((Real.hasDerivAt_cos _).const_mul _) (by ring)

/-- the divergence of a vector field in spherical coordinates -/
theorem spherical_divergence {v : Expr (.vec 3) (.vec 3)} {A : Vec 3} (hA : 0 < A 0) (hθ : 0 < Real.sin (A 1)) (hr : v.HasRule)
    (hs : v.Smooth A) {W : Vec 3 → Vec 3} {c : ℝ} (hW : HasDivergence W c (cartesianOfSpherical A))
    (hv : RepresentsV cartesianOfSpherical sphericalFrame v W A) :
    c = (v.derivative (0 : Fin 3)).eval A 0 + 2 * v.eval A 0 / A 0 +
      ((v.derivative (1 : Fin 3)).eval A 1 + Real.cos (A 1) / Real.sin (A 1) * v.eval A 1) / A 0 +
      (v.derivative (2 : Fin 3)).eval A 2 / (A 0 * Real.sin (A 1)) := by
  rw [divergence_chain (spherical_frame A).1 spherical_basis (spherical_diagonal hA hθ) (spherical_frameDerivative A) hr hs hW hv,
    Fin.sum_univ_three]
  have h1 := Real.sin_sq_add_cos_sq (A 1)
  have h2 := Real.sin_sq_add_cos_sq (A 2)
  have e1 : ((sphericalFrame A).transpose * ![0,
      !![Real.cos (A 1) * Real.cos (A 2), -Real.sin (A 1) * Real.cos (A 2), 0;
         Real.cos (A 1) * Real.sin (A 2), -Real.sin (A 1) * Real.sin (A 2), 0;
         -Real.sin (A 1), -Real.cos (A 1), 0],
      !![-Real.sin (A 1) * Real.sin (A 2), -Real.cos (A 1) * Real.sin (A 2), -Real.cos (A 2);
         Real.sin (A 1) * Real.cos (A 2), Real.cos (A 1) * Real.cos (A 2), -Real.sin (A 2);
         0, 0, 0]] 1).mulVec (v.eval A) 1 = v.eval A 0 := by
    simp [Matrix.mulVec, dotProduct, Fin.sum_univ_three, Matrix.mul_apply, sphericalFrame]
    linear_combination v.eval A 0 * (h1 + Real.cos (A 1) ^ 2 * h2) - Real.cos (A 1) * Real.sin (A 1) * v.eval A 1 * h2
  have e2 : ((sphericalFrame A).transpose * ![0,
      !![Real.cos (A 1) * Real.cos (A 2), -Real.sin (A 1) * Real.cos (A 2), 0;
         Real.cos (A 1) * Real.sin (A 2), -Real.sin (A 1) * Real.sin (A 2), 0;
         -Real.sin (A 1), -Real.cos (A 1), 0],
      !![-Real.sin (A 1) * Real.sin (A 2), -Real.cos (A 1) * Real.sin (A 2), -Real.cos (A 2);
         Real.sin (A 1) * Real.cos (A 2), Real.cos (A 1) * Real.cos (A 2), -Real.sin (A 2);
         0, 0, 0]] 2).mulVec (v.eval A) 2 = Real.sin (A 1) * v.eval A 0 + Real.cos (A 1) * v.eval A 1 := by
    simp [Matrix.mulVec, dotProduct, Fin.sum_univ_three, Matrix.mul_apply, sphericalFrame]
    linear_combination (Real.sin (A 1) * v.eval A 0 + Real.cos (A 1) * v.eval A 1) * h2
  rw [e1, e2]
  simp
  have := hA.ne'
  have := hθ.ne'
  field_simp
  ring

end

/-! ## Witnesses -/

/-- `r * sin(theta)`, tests/mito.lib/manifolds/polar_gradient.cc:36: the second coordinate -/
noncomputable def heightField : Expr (.vec 2) .scalar :=
  Expr.mul (.component (a := .vec 2) (0 : Fin 2)) (.compS (.prim .sin) (.component (a := .vec 2) (1 : Fin 2)))

theorem heightField_gradient (A : Vec 2) : heightField.HasRule ∧ heightField.Smooth A ∧
    Represents cartesianOfPolar heightField (fun p => p 1) A ∧ HasGradient (fun p : Vec 2 => p 1) ![0, 1] (cartesianOfPolar A) := by
  refine ⟨?_, ?_, Eventually.of_forall fun B => ?_, ?_⟩
  · simp [heightField, Expr.HasRule, Expr.mul]
  · simp [heightField, Expr.Smooth, Expr.All, Expr.mul, Prim.Smooth]
  · simp [heightField, Expr.eval, Expr.mul, mul, Prim.eval, cartesianOfPolar]
  · refine ⟨ContinuousLinearMap.proj (R := ℝ) (φ := fun _ : Fin 2 => ℝ) 1, hasFDerivAt_apply 1 _, fun v => ?_⟩
    simp [dotProduct]

/-- At radius two, `fields::gradient` of that field is not its gradient; the vector made from forms is. -/
theorem fieldsGradient_fails : (polarFrame ![2, 0]).mulVec ((gradient heightField).eval ![2, 0]) ≠ ![0, 1] ∧
    (polarFrame ![2, 0]).mulVec (polar.gradientVector heightField ![2, 0]) = ![0, 1] := by
  obtain ⟨h1, h2, h3, h4⟩ := heightField_gradient ![2, 0]
  refine ⟨fun h => ?_, polar_gradient (by simp) h1 h2 h4 h3⟩
  rcases (polar_fieldsGradient_iff (by simp) h1 h2 h4 h3).1 h with h | h
  · simp [heightField, Expr.derivative, Expr.eval, Expr.mul, mul, Prim.eval, Prim.derivative] at h
  · simp at h

/-- the position as a vector field: `r e_r` -/
noncomputable def radialField : Expr (.vec 2) (.vec 2) :=
  .timesConst (.scale _) (.component (a := .vec 2) (0 : Fin 2)) (unitVec 0)

/-- The divergence of the position is two; `fields::divergence` gives one. -/
theorem fieldsDivergence_fails (A : Vec 2) : RepresentsV cartesianOfPolar polarFrame radialField id A ∧
    HasDivergence (id : Vec 2 → Vec 2) 2 (cartesianOfPolar A) ∧ (divergence radialField).eval A () = 1 := by
  refine ⟨Eventually.of_forall fun B => ?_, ⟨ContinuousLinearMap.id ℝ _, hasFDerivAt_id _, ?_⟩, ?_⟩
  · funext i
    fin_cases i <;> simp [radialField, Expr.eval, mul, unitVec, polarFrame, cartesianOfPolar, Matrix.mulVec, dotProduct, mul_comm]
  · simp [Fin.sum_univ_two]
  · rw [divergence_eval, Fin.sum_univ_two]
    simp [radialField, Expr.derivative, Expr.eval, mul, unitVec]

/-- the formula holds for it -/
example (A : Vec 2) (hA : 0 < A 0) : (2 : ℝ) = (radialField.derivative (0 : Fin 2)).eval A 0 + radialField.eval A 0 / A 0 +
    (radialField.derivative (1 : Fin 2)).eval A 1 / A 0 := by
  obtain ⟨h1, h2, -⟩ := fieldsDivergence_fails A
  exact polar_divergence hA (by simp [radialField, Expr.HasRule]) (by simp [radialField, Expr.Smooth, Expr.All]) h2 h1

example : (0 : ℝ) < (![2, Real.pi / 2, 0] : Vec 3) 0 ∧ 0 < Real.sin ((![2, Real.pi / 2, 0] : Vec 3) 1) := by simp

end Mito.Geometry
