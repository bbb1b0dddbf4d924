import Verif.Quadrature.PlaneProgram
import Verif.Geometry.ManifoldLemmas
import Verif.Props.DivergenceTheorem
import Mathlib.Algebra.MvPolynomial.Rename

/-!
# The divergence theorem for meshes in a plane in space (C149)
-/

namespace Mito.Quadrature

open Mito.Functions Mito.Geometry Mito.Meshes Mito.Topology Mito.Fem Mito.Tensor

/-! ## Volumes and points -/

/-- a triangle in a plane at the height `z` has the volume of its projection -/
theorem plane_volume (z : ℝ) (x : Fin 3 → Vec 2) :
    System.subVolume (k := 1) (n := 2) (cartesian 3) (fun _ => planeNormal) (fun a => atHeight z (x a)) = (cartesian 2).volume x := by
  rw [volume_cartesian (by norm_num) (by norm_num), simplexVolume_triangle, subVolume_cartesian, Matrix.det_fin_three, triangleArea]
  simp [planeNormal, atHeight]
  ring

/-- a segment in a plane has, with the normal of the plane and a normal in the plane, the length of its projection -/
theorem plane_length (z : ℝ) {normal3 : Vec 3 → Vec 3} {normal : Vec 2 → Vec 2} (hn : ∀ x, normal3 (atHeight z x) = atHeight 0 (normal x))
    (x : Fin 2 → Vec 2) :
    System.subVolume (k := 2) (n := 1) (cartesian 3) ![planeNormal, normal3] (fun a => atHeight z (x a)) =
      System.subVolume (k := 1) (n := 1) (cartesian 2) (fun _ => normal) x := by
  have h := cartesian_w (d := 3) (by norm_num) (by norm_num) (atHeight z (x 0))
    (Fin.append (m := 2) (n := 1) (fun a => (![planeNormal, normal3] : Fin 2 → Vec 3 → Vec 3) a (atHeight z (x 0)))
      ((cartesian 3).directors fun a => atHeight z (x a)))
  have h2 := cartesian_w (d := 2) (by norm_num) (by norm_num) (x 0)
    (Fin.append (m := 1) (n := 1) (fun _ => normal (x 0)) ((cartesian 2).directors x))
  unfold System.subVolume
  refine (congrArg (1.0 / (Nat.factorial 1 : ℝ) * ·) h).trans (Eq.trans ?_ (congrArg (1.0 / (Nat.factorial 1 : ℝ) * ·) h2).symm)
  have hn0 : normal3 ![x 0 0, x 0 1, z] = ![normal (x 0) 0, normal (x 0) 1, 0] := hn (x 0)
  rw [Matrix.det_fin_three, Matrix.det_fin_two]
  simp [Fin.append, Fin.addCases, planeNormal, System.directors, cartesian, atHeight, hn0]

/-- the parametrizations of simplices in the plane -/
theorem plane_point {n : Nat} (z : ℝ) (x : Fin (n + 2) → Vec 2) (ξ : Val (.vec (n + 1))) :
    (parametrization (d := 3) fun a => atHeight z (x a)).eval ξ = atHeight z ((parametrization (d := 2) x).eval ξ) := by
  rw [parametrization_barycentric, parametrization_barycentric]
  funext i
  rw [Finset.sum_apply]
  fin_cases i
  · simp [atHeight, Finset.sum_apply]
  · simp [atHeight, Finset.sum_apply]
  · simp [atHeight, ← Finset.sum_mul, barycentric_sum]

/-- integrals over cells in the plane are those over their projections -/
theorem plane_integrate {n : Nat} (debug : Bool) (t : Table (n + 1)) (z : ℝ) {v3 : Cell n 3 → ℝ} {v2 : Cell n 2 → ℝ} {f3 : Val (.vec 3) → ℝ}
    {f2 : Val (.vec 2) → ℝ} (p : Id → Val (.vec 2)) (cells : List GCell)
    (hv : ∀ c ∈ cells, v3 (cellOf (fun i => atHeight z (p i)) c) = v2 (cellOf p c)) (hf : ∀ x, f3 (atHeight z x) = f2 x)
    (hk : (cells.map (·.simplex)).Nodup) :
    integrate debug t v3 (cells.map (cellOf fun i => atHeight z (p i))) f3 = integrate debug t v2 (cells.map (cellOf p)) f2 := by
  rw [integrate_value _ _ _ _ _ (by simpa [Function.comp_def, cellOf] using hk), integrate_value _ _ _ _ _ (by simpa [Function.comp_def, cellOf] using hk)]
  refine congrArg Outcome.value ?_
  unfold quadratureSum
  rw [List.map_map, List.map_map]
  refine congrArg List.sum (List.map_congr_left fun c hc => ?_)
  simp only [Function.comp, hv c hc]
  refine congrArg (_ * apply t ·) (funext fun ξ => ?_)
  rw [← hf, ← plane_point]
  rfl

/-! ## Fields -/

/-- every polynomial is the value of an expression -/
theorem exists_expression {d : Nat} (P : MvPolynomial (Fin d) ℝ) :
    ∃ e : Expr (.vec d) .scalar, e.HasRule ∧ (∀ x, e.Smooth x) ∧ ∀ x, e.eval x () = MvPolynomial.eval x P := by
  induction P using MvPolynomial.induction_on with
  | C a => exact ⟨.const fun _ => a, by simp [Expr.HasRule], fun x => by simp [Expr.Smooth, Expr.All], fun x => by simp [Expr.eval]⟩
  | add P Q hP hQ =>
    obtain ⟨e, h1, h2, h3⟩ := hP
    obtain ⟨g, k1, k2, k3⟩ := hQ
    refine ⟨.sum e g, ⟨h1, k1⟩, fun x => ?_, fun x => ?_⟩
    · have := h2 x
      have := k2 x
      simp_all [Expr.Smooth, Expr.All]
    · simp [Expr.eval, h3, k3]
  | mul_X P i hP =>
    obtain ⟨e, h1, h2, h3⟩ := hP
    refine ⟨.prod (.scale .scalar) e (.component (a := .vec d) i), ?_, fun x => ?_, fun x => ?_⟩
    · simp [Expr.HasRule, h1]
    · have := h2 x
      simp_all [Expr.Smooth, Expr.All]
    · simp [Expr.eval, mul, h3]

/-- every pair of polynomials is a field -/
theorem exists_field (P : Fin 2 → MvPolynomial (Fin 2) ℝ) : ∃ f : Expr (.vec 2) (.vec 2), IsPolynomial f P := by
  obtain ⟨e, h1, h2, h3⟩ := exists_expression (P 0)
  obtain ⟨g, k1, k2, k3⟩ := exists_expression (P 1)
  refine ⟨.sum (.prod (.scale (.vec 2)) e (.const ![1, 0])) (.prod (.scale (.vec 2)) g (.const ![0, 1])), ?_, fun x => ?_, fun x k => ?_⟩
  · simp [Expr.HasRule, h1, k1]
  · have := h2 x
    have := k2 x
    simp_all [Expr.Smooth, Expr.All]
  · fin_cases k <;> simp [Expr.eval, mul, h3, k3]

/-- the field in space with the components `P` and `R` that does not depend on the height -/
noncomputable def spaceField (P : Fin 2 → MvPolynomial (Fin 2) ℝ) (R : MvPolynomial (Fin 2) ℝ) : Fin 3 → MvPolynomial (Fin 3) ℝ :=
  ![MvPolynomial.rename Fin.castSucc (P 0), MvPolynomial.rename Fin.castSucc (P 1), MvPolynomial.rename Fin.castSucc R]

theorem spaceField_eval (Q : MvPolynomial (Fin 2) ℝ) (z : ℝ) (x : Vec 2) :
    MvPolynomial.eval (atHeight z x) (MvPolynomial.rename Fin.castSucc Q) = MvPolynomial.eval x Q := by
  rw [MvPolynomial.eval_rename]
  congr 1
  congr 1
  funext i
  fin_cases i <;> rfl

theorem spaceField_div (P : Fin 2 → MvPolynomial (Fin 2) ℝ) (R : MvPolynomial (Fin 2) ℝ) :
    divPolynomial (spaceField P R) = MvPolynomial.rename Fin.castSucc (divPolynomial P) := by
  have h2 : MvPolynomial.pderiv (2 : Fin 3) (MvPolynomial.rename Fin.castSucc R) = 0 := by
    apply MvPolynomial.pderiv_eq_zero_of_notMem_vars
    intro h
    have := MvPolynomial.vars_rename (f := (Fin.castSucc : Fin 2 → Fin 3)) (φ := R) h
    obtain ⟨i, -, hi⟩ := Finset.mem_image.mp this
    fin_cases i <;> simp at hi
  have h : ∀ (i : Fin 2) (Q : MvPolynomial (Fin 2) ℝ), MvPolynomial.pderiv i.castSucc (MvPolynomial.rename Fin.castSucc Q) =
      MvPolynomial.rename Fin.castSucc (MvPolynomial.pderiv i Q) := fun i Q => MvPolynomial.pderiv_rename (Fin.castSucc_injective 2) i Q
  simp only [divPolynomial, Fin.sum_univ_three, Fin.sum_univ_two, map_add, spaceField, Matrix.cons_val_zero, Matrix.cons_val_one, Matrix.cons_val]
  rw [h2, add_zero]
  exact congrArg₂ (· + ·) (h 0 (P 0)) (h 1 (P 1))

/-- **C149.**  The program of the tutorial in space gives the numbers of the program in the plane, whatever the third component of the field. -/
theorem plane_programs (debug : Bool) {t : Topo} {cells B : List GCell} {p : Id → Val (.vec 2)} (h : Triangulates t cells B p) (z : ℝ)
    {f3 : Expr (.vec 3) (.vec 3)} {f2 : Expr (.vec 2) (.vec 2)} {P : Fin 2 → MvPolynomial (Fin 2) ℝ} {R : MvPolynomial (Fin 2) ℝ}
    (hf3 : IsPolynomial f3 (spaceField P R)) (hf2 : IsPolynomial f2 P) (t2 : Table 2) (t1 : Table 1) {normal3 : Vec 3 → Vec 3}
    {normal : Vec 2 → Vec 2} (hn : ∀ x, normal3 (atHeight z x) = atHeight 0 (normal x)) :
    integrateDivergencePlane debug t2 (fun i => atHeight z (p i)) f3 cells = integrateDivergence2 debug t2 p f2 cells ∧
      integrateFluxPlane debug t1 normal3 (fun i => atHeight z (p i)) f3 B = integrateFlux2 debug t1 normal p f2 B := by
  obtain ⟨m, s, known, t', hm, hcl, hb⟩ := h.mesh
  have hB := (boundary_collects h.topology (by omega) hm hcl h.cell t' B hb).1
  constructor
  · refine plane_integrate debug t2 z p cells (fun c _ => plane_volume z _) (fun x => ?_) (simplices_nodup h.topology h.cell h.edges)
    rw [divergence_polynomial hf3, divergence_polynomial hf2, spaceField_div, spaceField_eval]
  · refine plane_integrate debug t1 z p B (fun c _ => plane_length z hn _) (fun x => ?_) (boundary_simplices hB h.edges)
    have e0 := (hf3.2.2 (atHeight z x) 0).trans (spaceField_eval (P 0) z x)
    have e1 := (hf3.2.2 (atHeight z x) 1).trans (spaceField_eval (P 1) z x)
    rw [Fin.sum_univ_three, Fin.sum_univ_two, e0, e1, hf2.2.2, hf2.2.2, hn]
    simp [atHeight]

/-- **C149.**  The divergence theorem for meshes in planes at any height. -/
theorem plane_divergence_theorem (debug : Bool) {t : Topo} {cells B : List GCell} {p : Id → Val (.vec 2)} (h : Triangulates t cells B p) (z : ℝ)
    {f : Expr (.vec 3) (.vec 3)} {P : Fin 2 → MvPolynomial (Fin 2) ℝ} {R : MvPolynomial (Fin 2) ℝ} (hf : IsPolynomial f (spaceField P R))
    {t2 : Table 2} {r2 : Nat} {ε2 : ℝ} (ht2 : Accurate (meanOver 2) t2 r2 ε2) (hr2 : (divPolynomial P).totalDegree ≤ r2)
    {t1 : Table 1} {r1 : Nat} {ε1 : ℝ} (ht1 : Accurate mean1 t1 r1 ε1) (hr1 : ∀ k, (P k).totalDegree ≤ r1)
    {normal3 : Vec 3 → Vec 3} {normal : Vec 2 → Vec 2} (hn3 : ∀ x, normal3 (atHeight z x) = atHeight 0 (normal x))
    (hn : ∀ b ∈ B, NormalOn (n := 0) t1 normal (cellOf p b)) :
    ∃ i j, integrateDivergencePlane debug t2 (fun i => atHeight z (p i)) f cells = .value i ∧
      integrateFluxPlane debug t1 normal3 (fun i => atHeight z (p i)) f B = .value j ∧
      |i - j| ≤ ε2 * (cells.map fun c => triangleArea (positions 3 p c) * size ((cellOf (n := 1) p c).pullback (divPolynomial P))).sum +
        ε1 * (B.map fun b => size ((cellOf (n := 0) p b).pullback (fluxPolynomial P (cellOf p b)))).sum := by
  obtain ⟨g, hg⟩ := exists_field P
  obtain ⟨e1, e2⟩ := plane_programs debug h z hf hg t2 t1 hn3
  rw [e1, e2]
  exact divergence_theorem debug h hg ht2 hr2 ht1 hr1 hn

/-! ## The tutorial -/

/-- the field of the tutorial, tutorial/5_divergence_theorem_2D_in_3D/main.cc:39-40 -/
noncomputable def tutorialField : Expr (.vec 3) (.vec 3) :=
  .sum (.prod (.scale (.vec 3)) (.prod (.scale .scalar) (.component (a := .vec 3) 0) (.component (a := .vec 3) 1)) (.const ![1, 0, 0]))
    (.prod (.scale (.vec 3)) (.prod (.scale .scalar) (.component (a := .vec 3) 0) (.component (a := .vec 3) 0)) (.const ![0, 1, 0]))

/-- the normals of the boundary, tutorial/5_divergence_theorem_2D_in_3D/main.cc:92-97 -/
noncomputable def tutorialNormal (x : Vec 3) : Vec 3 := by
  classical
  exact (if x 0 = 0 then ![-1, 0, 0] else 0) + (if x 0 = 1 then ![1, 0, 0] else 0) + (if x 1 = 0 then ![0, -1, 0] else 0) +
    (if x 1 = 1 then ![0, 1, 0] else 0)

theorem tutorialField_polynomial :
    IsPolynomial tutorialField (spaceField ![MvPolynomial.X 0 * MvPolynomial.X 1, MvPolynomial.X 0 * MvPolynomial.X 0] 0) := by
  refine ⟨by simp [tutorialField, Expr.HasRule], fun x => by simp [tutorialField, Expr.Smooth, Expr.All], fun x k => ?_⟩
  fin_cases k <;> simp [tutorialField, Expr.eval, mul, spaceField]

theorem tutorialNormal_plane (z : ℝ) (x : Vec 2) : tutorialNormal (atHeight z x) = atHeight 0 (exDivNormal x) := by
  unfold tutorialNormal exDivNormal
  funext k
  by_cases h1 : x 0 = 0 <;> by_cases h2 : x 0 = 1 <;> by_cases h3 : x 1 = 0 <;> by_cases h4 : x 1 = 1 <;> fin_cases k <;>
    simp [atHeight, h1, h2, h3, h4]

/-- **C149.**  The two tutorials on the divergence theorem compute the same numbers. -/
theorem tutorials_agree : ∃ B, Triangulates exDivSquare exDivCells B exDivPositions ∧
    integrateDivergencePlane true triangle2 (fun i => atHeight 0 (exDivPositions i)) tutorialField exDivCells =
      integrateDivergence2 true triangle2 exDivPositions exDivField exDivCells ∧
    integrateFluxPlane true segment2 tutorialNormal (fun i => atHeight 0 (exDivPositions i)) tutorialField B =
      integrateFlux2 true segment2 exDivNormal exDivPositions exDivField B := by
  obtain ⟨B, hB, -⟩ := exDivSquare_triangulates
  exact ⟨B, hB, plane_programs true hB 0 tutorialField_polynomial exDivField_polynomial triangle2 segment2 (tutorialNormal_plane 0)⟩

/-- a field along the normal of the plane that grows with the height -/
noncomputable def heightField : Expr (.vec 3) (.vec 3) := .prod (.scale (.vec 3)) (.component (a := .vec 3) 2) (.const ![0, 0, 2])

/-- **C149.**  For fields that depend on the height both numbers have nothing to do with each other: `divergence` is that of space. -/
theorem height_matters : ∃ B, Triangulates exDivTriangle [⟨17, [exNode 0, exNode 1, exNode 2]⟩] B exDivCorners ∧
    integrateDivergencePlane true triangle1 (fun i => atHeight 0 (exDivCorners i)) heightField [⟨17, [exNode 0, exNode 1, exNode 2]⟩] = .value 12 ∧
    ∀ normal, integrateFluxPlane true segment1 normal (fun i => atHeight 0 (exDivCorners i)) heightField B = .value 0 := by
  obtain ⟨B, hT, -, hv, -⟩ := corner_normals_fail
  have hp : IsPolynomial heightField ![0, 0, 2 * MvPolynomial.X 2] := by
    refine ⟨by simp [heightField, Expr.HasRule], fun x => by simp [heightField, Expr.Smooth, Expr.All], fun x k => ?_⟩
    fin_cases k <;> simp [heightField, Expr.eval, mul]
    ring
  obtain ⟨m, s, known, t', hm, hcl, hb⟩ := hT.mesh
  have hB := (boundary_collects hT.topology (by omega) hm hcl hT.cell t' B hb).1
  refine ⟨B, hT, ?_, fun normal => ?_⟩
  · rw [← hv]
    refine plane_integrate true triangle1 0 exDivCorners _ (fun c _ => plane_volume 0 _) (fun x => ?_) (by simp)
    have h2 : MvPolynomial.pderiv (2 : Fin 3) (2 : MvPolynomial (Fin 3) ℝ) = 0 := MvPolynomial.pderiv_C (R := ℝ) (a := 2)
    rw [divergence_polynomial hp, divergence_polynomial exDivPosition_polynomial]
    simp [divPolynomial, Fin.sum_univ_two, Fin.sum_univ_three, h2]
    norm_num
  · rw [integrateFluxPlane, integrate_value _ _ _ _ _ (cellOf_keys _ B ▸ boundary_simplices hB hT.edges)]
    refine congrArg Outcome.value ?_
    unfold quadratureSum
    rw [List.map_map]
    refine List.sum_eq_zero fun y hy => ?_
    obtain ⟨b, -, rfl⟩ := List.mem_map.mp hy
    have h0 : ∀ ξ, (parametrization (cellOf (n := 0) (fun i => atHeight 0 (exDivCorners i)) b).nodes).eval ξ 2 = 0 := fun ξ =>
      congrFun (plane_point 0 (positions 2 exDivCorners b) ξ) 2
    have h : ∀ ξ : Val (.vec 1), (∑ k, heightField.eval ((parametrization (cellOf (n := 0) (fun i => atHeight 0 (exDivCorners i)) b).nodes).eval ξ) k *
        normal ((parametrization (cellOf (n := 0) (fun i => atHeight 0 (exDivCorners i)) b).nodes).eval ξ) k) = 0 := fun ξ => by
      refine Finset.sum_eq_zero fun k _ => ?_
      have : heightField.eval ((parametrization (cellOf (n := 0) (fun i => atHeight 0 (exDivCorners i)) b).nodes).eval ξ) k = 0 := by
        rw [hp.2.2]
        fin_cases k <;> simp [h0]
      rw [this, zero_mul]
    simp only [Function.comp, h]
    simp [apply]

end Mito.Quadrature
