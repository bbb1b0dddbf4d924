import Verif.Quadrature.DivergenceLemmas
import Verif.Props.PatchTest

/-!
# C96: the divergence theorem with integrators

Vocabulary in `Verif/Spec/DivergenceTheorem.lean`.  The program of tests/mito.lib/integration/divergence_theorem.cc and
tutorial/4_divergence_theorem_2D/main.cc: the divergence of a field is integrated over the manifold of a mesh, and the component of the
field along a normal field over the submanifold of `boundary`.
-/

set_option linter.unusedVariables false
set_option linter.unusedSimpArgs false

namespace Mito.Quadrature

open Mito.Functions Mito.Geometry Mito.Meshes Mito.Topology Mito.Fem Mito.Tensor MeasureTheory

/-- **C96.**  Meshes of triangles: for polynomial fields within the degrees of the rules both integrals agree up to the accuracy of the
rules, whatever the signs of the normals. -/
theorem divergence_theorem (debug : Bool) {t : Topo} {cells B : List GCell} {p : Id → Val (.vec 2)} (h : Triangulates t cells B p)
    {f : Expr (.vec 2) (.vec 2)} {P : Fin 2 → MvPolynomial (Fin 2) ℝ} (hf : IsPolynomial f P)
    {t2 : Table 2} {r2 : Nat} {ε2 : ℝ} (ht2 : Accurate (meanOver 2) t2 r2 ε2) (hr2 : (divPolynomial P).totalDegree ≤ r2)
    {t1 : Table 1} {r1 : Nat} {ε1 : ℝ} (ht1 : Accurate mean1 t1 r1 ε1) (hr1 : ∀ k, (P k).totalDegree ≤ r1)
    {normal : Vec 2 → Vec 2} (hn : ∀ b ∈ B, NormalOn (n := 0) t1 normal (cellOf p b)) :
    ∃ i j, integrateDivergence2 debug t2 p f cells = .value i ∧ integrateFlux2 debug t1 normal p f B = .value j ∧
      |i - j| ≤ ε2 * (cells.map fun c => triangleArea (positions 3 p c) * size ((cellOf (n := 1) p c).pullback (divPolynomial P))).sum +
        ε1 * (B.map fun b => size ((cellOf (n := 0) p b).pullback (fluxPolynomial P (cellOf p b)))).sum := by
  obtain ⟨ok, st⟩ := h.topology.ok
  obtain ⟨m, s, known, t', hm, hcl, hb⟩ := h.mesh
  have hB := (boundary_collects h.topology (by omega) hm hcl h.cell t' B hb).1
  have hv : ∀ c ∈ cells.map (cellOf (n := 1) p), 0 ≤ simplexVolume c.nodes := by
    intro c hc
    obtain ⟨c, hc', rfl⟩ := List.mem_map.mp hc
    exact (positions_area h hc').le.trans_eq (simplexVolume_triangle _).symm
  obtain ⟨i, hi, hie⟩ := integrate_accurate debug (n := 1) (by norm_num) ht2 (cells.map (cellOf p))
    (cellOf_keys p cells ▸ simplices_nodup h.topology h.cell h.edges) hv (divPolynomial P) hr2
  refine ⟨i, _, ?_, integrate_value _ _ _ _ _ (cellOf_keys p B ▸ boundary_simplices hB h.edges), ?_⟩
  · rw [integrateDivergence2, ← hi]
    congr 1
    funext x
    exact divergence_polynomial hf x
  have hdiv := sum_divergence h (F := fun k x => MvPolynomial.eval x (P k)) fun k => contDiff_polynomial (P k) 1
  simp only [fderiv_polynomial] at hdiv
  have hbody : |i - (B.map fun b => flux (fun k x => MvPolynomial.eval x (P k)) (positions 2 p b 0) (positions 2 p b 1)).sum| ≤
      ε2 * (cells.map fun c => triangleArea (positions 3 p c) * size ((cellOf (n := 1) p c).pullback (divPolynomial P))).sum := by
    rw [← hdiv]
    simp only [List.map_map] at hie
    have e1 : (cells.map ((fun c : Cell 1 2 => ∫ y in c.hull, MvPolynomial.eval y (divPolynomial P)) ∘ cellOf p)).sum =
        (cells.map fun c => ∫ y in hull (positions 3 p c), ∑ k, MvPolynomial.eval y (MvPolynomial.pderiv k (P k))).sum := by
      refine congrArg List.sum (List.map_congr_left fun c hc => ?_)
      simp only [Function.comp, divPolynomial, map_sum]
      rfl
    have e2 : (cells.map ((fun c : Cell 1 2 => volume.real c.hull * size (c.pullback (divPolynomial P))) ∘ cellOf p)).sum =
        (cells.map fun c => triangleArea (positions 3 p c) * size ((cellOf (n := 1) p c).pullback (divPolynomial P))).sum := by
      refine congrArg List.sum (List.map_congr_left fun c hc => ?_)
      have : volume.real (cellOf (n := 1) p c).hull = triangleArea (positions 3 p c) := by
        rw [← volume_lebesgue (by norm_num), volume_cartesian (by norm_num) (by norm_num), simplexVolume_triangle,
          abs_of_pos]
        · rfl
        · exact positions_area h hc
      simp only [Function.comp, this]
    rw [e1, e2] at hie
    exact hie
  have hboundary : |quadratureSum t1 (fun c => System.subVolume (k := 1) (n := 1) (cartesian 2) (fun _ => normal) c.nodes)
      (B.map (cellOf (n := 0) p)) (fun x => ∑ k, f.eval x k * normal x k) -
      (B.map fun b => flux (fun k x => MvPolynomial.eval x (P k)) (positions 2 p b 0) (positions 2 p b 1)).sum| ≤
      ε1 * (B.map fun b => size ((cellOf (n := 0) p b).pullback (fluxPolynomial P (cellOf p b)))).sum :=
    flux_accurate hf ht1 hr1 B hn
  calc _ ≤ _ := abs_sub_le _ (B.map fun b => flux (fun k x => MvPolynomial.eval x (P k)) (positions 2 p b 0) (positions 2 p b 1)).sum _
    _ ≤ _ := add_le_add hbody (by rw [abs_sub_comm]; exact hboundary)

/-- **C96.**  With rules of rational points and weights both integrals are equal. -/
theorem divergence_theorem_exact (debug : Bool) {t : Topo} {cells B : List GCell} {p : Id → Val (.vec 2)} (h : Triangulates t cells B p)
    {f : Expr (.vec 2) (.vec 2)} {P : Fin 2 → MvPolynomial (Fin 2) ℝ} (hf : IsPolynomial f P) (hP : ∀ k, (P k).totalDegree ≤ 1)
    {t2 : Table 2} (ht2 : t2 = triangle1 ∨ t2 = triangle2) {normal : Vec 2 → Vec 2}
    (hn : ∀ b ∈ B, NormalOn (n := 0) segment1 normal (cellOf p b)) :
    ∃ i, integrateDivergence2 debug t2 p f cells = .value i ∧ integrateFlux2 debug segment1 normal p f B = .value i := by
  have ha : Accurate (meanOver 2) t2 1 0 := by
    rcases ht2 with rfl | rfl
    · exact accurate_two triangle1_accurate
    · exact accurate_two (triangle2_accurate.mono (by norm_num) le_rfl)
  have hd : (divPolynomial P).totalDegree ≤ 1 := by
    refine (MvPolynomial.totalDegree_finset_sum _ _).trans (Finset.sup_le fun k _ => ?_)
    exact (pderiv_degree _ _).trans (hP k)
  obtain ⟨i, j, h1, h2, h3⟩ := divergence_theorem debug h hf ha hd segment1_accurate hP hn
  rw [zero_mul, zero_mul, add_zero] at h3
  have := sub_eq_zero.mp (abs_eq_zero.mp (le_antisymm h3 (abs_nonneg _)))
  exact ⟨i, h1, this ▸ h2⟩

/-! ## Tetrahedra -/

variable {t : Topo} {m : Mesh GCell} {s : SegVec.Abs GCell} {known : Finset Nat} {cells : List GCell}

/-- **C96 (finding).**  Meshes of tetrahedra: for affine fields the integral over the boundary is the opposite of the integral of the
divergence, for every choice of the normals. -/
theorem divergence_theorem_tetrahedra (debug : Bool) (ht : VReachable t) (hm : Reachable (facets t 2) m s known)
    (hcl : m.cellList = some cells) (hcell : ∀ c ∈ cells, CellOk t 3 c) (hnd : (cells.flatMap (facets t 2)).Nodup) (t' : Topo)
    (B : List GCell) (h : boundary t 2 m = some (t', B)) (hs : ∀ c ∈ cells, t.sg 3 c.simplex = 1) (p : Id → Val (.vec 3))
    {f : Expr (.vec 3) (.vec 3)} (hf1 : f.HasRule) (hf2 : ∀ x, f.Smooth x) {A : Mat 3} {b : Vec 3} (hf : ∀ x, f.eval x = A.mulVec x + b)
    {normal : Vec 3 → Vec 3} (hn : ∀ b ∈ B, NormalOn (n := 1) triangle1 normal (cellOf p b)) :
    ∃ i, integrateDivergence3 debug tetrahedron1 p f cells = .value i ∧ integrateFlux3 debug triangle1 normal p f B = .value (-i) := by
  obtain ⟨ok, st⟩ := ht.ok
  have hB := (boundary_collects ht (by omega) hm hcl hcell t' B h).1
  have hdiv := divergence_tetrahedra ht hm hcl hcell hnd t' B h p A b
  refine ⟨_, integrate_value _ _ _ _ _ (cellOf_keys p cells ▸ simplices_nodup ht hcell hnd), ?_⟩
  rw [integrateFlux3, integrate_value _ _ _ _ _ (cellOf_keys p B ▸ boundary_simplices hB hnd)]
  congr 1
  have h1 : quadratureSum tetrahedron1 (fun c => (cartesian 3).volume c.nodes) (cells.map (cellOf (n := 2) p))
      (fun x => (divergence f).eval x ()) = A.trace * (cells.map fun c => (t.sg 3 c.simplex : ℝ) * Meshes.volume p c.vertices).sum := by
    rw [quadratureSum, List.map_map, ← List.sum_map_mul_left]
    refine congrArg List.sum (List.map_congr_left fun c hc => ?_)
    have hlen := (hcell c hc).length ok.inv st (by omega)
    have hx := divergence_affine hf1 hf2 hf
    simp only [Function.comp, hx, hs c hc]
    rw [volume_cartesian (by norm_num) (by norm_num)]
    match hn : c.nodes, hlen with
    | [x, y, z, w], _ =>
      have e : (cellOf (n := 2) p c).nodes = ![p x.vertex, p y.vertex, p z.vertex, p w.vertex] := by
        funext a
        fin_cases a <;> simp [cellOf, positions, hn]
      rw [e]
      rw [apply_tetrahedron1]
      simp only [GCell.vertices, hn, Meshes.volume, List.map_cons, List.map_nil, Int.cast_one, one_mul]
      exact mul_comm _ _
  have h2 : quadratureSum triangle1 (fun c => System.subVolume (k := 1) (n := 2) (cartesian 3) (fun _ => normal) c.nodes)
      (B.map (cellOf (n := 1) p)) (fun x => ∑ k, f.eval x k * normal x k) =
      (B.map fun d => flux3 (fun x => A.mulVec x + b) p d.vertices).sum := by
    rw [quadratureSum, List.map_map]
    refine congrArg List.sum (List.map_congr_left fun d hd => ?_)
    simp only [Function.comp]
    rw [face_flux triangle1 normal (cellOf p d) (hn d hd) fun x => f.eval x]
    obtain ⟨x, y, z, hn'⟩ : ∃ x y z, d.nodes = [x, y, z] := by
      have := (boundary_nodes ht (by omega) hm hcl hcell h d hd).1
      match hn : d.nodes, this with
      | [x, y, z], _ => exact ⟨x, y, z, rfl⟩
    have e : (cellOf (n := 1) p d).nodes = ![p x.vertex, p y.vertex, p z.vertex] := by
      funext a
      fin_cases a <;> simp [cellOf, positions, hn']
    rw [e]
    rw [apply_triangle1, parametrization_centroid, hf]
    simp [GCell.vertices, hn', flux3]
  rw [h1, h2, hdiv]

/-! ## The mesh of the test -/

/-- four triangles around the centre of the unit square, tests/mito.lib/integration/divergence_theorem.cc:60-71 -/
@[irreducible] def exDivSquare : Topo := exTopo [.vertex, .triangle 0 1 3, .triangle 1 2 3, .triangle 2 4 3, .triangle 4 0 3]
def exDivCells : List GCell :=
  [⟨18, [exNode 0, exNode 1, exNode 3]⟩, ⟨27, [exNode 1, exNode 2, exNode 3]⟩, ⟨36, [exNode 2, exNode 4, exNode 3]⟩,
    ⟨42, [exNode 4, exNode 0, exNode 3]⟩]

theorem exDivSquare_reachable : VReachable exDivSquare := by
  unfold exDivSquare; exact exTopo_reachable _ (by decide) (by decide +kernel)

/-- the positions of its vertices -/
noncomputable def exDivPositions : Id → Val (.vec 2)
  | 0 => ![0, 0]
  | 1 => ![1, 0]
  | 2 => ![1, 1]
  | 3 => ![1 / 2, 1 / 2]
  | _ => ![0, 1]

/-- the normal field of the test, tests/mito.lib/integration/divergence_theorem.cc:89-94 -/
noncomputable def exDivNormal (x : Vec 2) : Vec 2 := by
  classical
  exact (if x 0 = 0 then ![-1, 0] else 0) + (if x 0 = 1 then ![1, 0] else 0) + (if x 1 = 0 then ![0, -1] else 0) +
    (if x 1 = 1 then ![0, 1] else 0)

/-- the field of the test, tests/mito.lib/integration/divergence_theorem.cc:31-32 -/
noncomputable def exDivField : Expr (.vec 2) (.vec 2) :=
  .sum (.prod (.scale (.vec 2)) (.prod (.scale .scalar) (.component (a := .vec 2) 0) (.component (a := .vec 2) 1)) (.const ![1, 0]))
    (.prod (.scale (.vec 2)) (.prod (.scale .scalar) (.component (a := .vec 2) 0) (.component (a := .vec 2) 0)) (.const ![0, 1]))

theorem exDivField_polynomial : IsPolynomial exDivField ![MvPolynomial.X 0 * MvPolynomial.X 1, MvPolynomial.X 0 * MvPolynomial.X 0] := by
  refine ⟨by simp [exDivField, Expr.HasRule], fun x => by simp [exDivField, Expr.Smooth, Expr.All], fun x k => ?_⟩
  fin_cases k <;> simp [exDivField, Expr.eval, mul]

/-- the boundary of the mesh and its normals -/
theorem exDivSquare_triangulates : ∃ B, Triangulates exDivSquare exDivCells B exDivPositions ∧
    ∀ b ∈ B, NormalOn (n := 0) segment2 exDivNormal (cellOf exDivPositions b) := by
  obtain ⟨m, s, known, h1, h2, h3⟩ := exists_mesh exDivSquare 1 exDivCells
  have hb : (boundary exDivSquare 1 m).map (fun r => r.2.map fun b => b.vertices) = some [[0, 1], [1, 2], [2, 4], [4, 0]] := by
    rw [boundary_congr (m' := exMeshOf exDivSquare 1 exDivCells) (by rw [h2]; decide +kernel) (by rw [h3]; rfl)]
    decide +kernel
  obtain ⟨⟨t', B⟩, hB, hv⟩ := Option.map_eq_some_iff.mp hb
  refine ⟨B, ⟨exDivSquare_reachable, ⟨m, s, known, t', h1, h2, hB⟩, by decide +kernel, by decide +kernel, ?_,
    by unfold OneNode; decide +kernel, by decide +kernel⟩, ?_⟩
  · have h : ∀ c ∈ exDivCells, exDivSquare.sg 2 c.simplex = 1 := by decide +kernel
    refine fun c hc => ⟨h c hc, ?_⟩
    have e : c.vertices = [0, 1, 3] ∨ c.vertices = [1, 2, 3] ∨ c.vertices = [2, 4, 3] ∨ c.vertices = [4, 0, 3] := by
      revert c
      decide +kernel
    rcases e with e | e | e | e <;> rw [e, Meshes.area] <;>
    norm_num [Geometry.simplexVolume, exDivPositions, Matrix.det_fin_two, Nat.factorial]
  · intro b hb
    have hm : b.vertices ∈ [[0, 1], [1, 2], [2, 4], [4, 0]] := hv ▸ List.mem_map.mpr ⟨b, hb, rfl⟩
    have h0 : (cellOf (n := 0) exDivPositions b).nodes 0 = exDivPositions (b.vertices.getD 0 0) := rfl
    have h1 : (cellOf (n := 0) exDivPositions b).nodes 1 = exDivPositions (b.vertices.getD 1 0) := rfl
    simp only [List.mem_cons, List.not_mem_nil, or_false] at hm
    rcases hm with e | e | e | e
    · refine normalOn_edge tables_inside.2.1 (m := ![0, -1]) ?_ ?_ ?_ fun s l u => ?_
      · norm_num
      · norm_num [h0, h1, e, exDivPositions]
      · norm_num [h0, e, exDivPositions, exDivNormal]
      · funext k
        simp only [exDivNormal, h0, h1, e]
        fin_cases k <;> norm_num [exDivPositions, l.ne', u.ne, sub_eq_zero, u.ne']
    · refine normalOn_edge tables_inside.2.1 (m := ![1, 0]) ?_ ?_ ?_ fun s l u => ?_
      · norm_num
      · norm_num [h0, h1, e, exDivPositions]
      · norm_num [h0, e, exDivPositions, exDivNormal]
      · funext k
        simp only [exDivNormal, h0, h1, e]
        fin_cases k <;> norm_num [exDivPositions, l.ne', u.ne, sub_eq_zero, u.ne']
    · refine normalOn_edge tables_inside.2.1 (m := ![0, 1]) ?_ ?_ ?_ fun s l u => ?_
      · norm_num
      · norm_num [h0, h1, e, exDivPositions]
      · norm_num [h0, e, exDivPositions, exDivNormal]
      · funext k
        simp only [exDivNormal, h0, h1, e]
        fin_cases k <;> norm_num [exDivPositions, l.ne', u.ne, sub_eq_zero, u.ne']
    · refine normalOn_edge tables_inside.2.1 (m := ![-1, 0]) ?_ ?_ ?_ fun s l u => ?_
      · norm_num
      · norm_num [h0, h1, e, exDivPositions]
      · norm_num [h0, e, exDivPositions, exDivNormal]
      · funext k
        simp only [exDivNormal, h0, h1, e]
        fin_cases k <;> norm_num [exDivPositions, l.ne', u.ne, sub_eq_zero, u.ne']

/-- the theorem applies to the test -/
example : ∃ B i j, integrateDivergence2 true triangle2 exDivPositions exDivField exDivCells = .value i ∧
    integrateFlux2 true segment2 exDivNormal exDivPositions exDivField B = .value j ∧
    |i - j| ≤ 1e-15 * (exDivCells.map fun c => triangleArea (positions 3 exDivPositions c) * size ((cellOf (n := 1) exDivPositions c).pullback
        (divPolynomial ![MvPolynomial.X 0 * MvPolynomial.X 1, MvPolynomial.X 0 * MvPolynomial.X 0]))).sum +
      1e-15 * (B.map fun b => size ((cellOf (n := 0) exDivPositions b).pullback
        (fluxPolynomial ![MvPolynomial.X 0 * MvPolynomial.X 1, MvPolynomial.X 0 * MvPolynomial.X 0] (cellOf exDivPositions b)))).sum := by
  obtain ⟨B, hB, hn⟩ := exDivSquare_triangulates
  have hX : ∀ a b : Fin 2, (MvPolynomial.X a * MvPolynomial.X b : MvPolynomial (Fin 2) ℝ).totalDegree ≤ 2 := fun a b =>
    (MvPolynomial.totalDegree_mul _ _).trans (by rw [MvPolynomial.totalDegree_X, MvPolynomial.totalDegree_X])
  have hP : ∀ k : Fin 2, ((![MvPolynomial.X 0 * MvPolynomial.X 1, MvPolynomial.X 0 * MvPolynomial.X 0] :
      Fin 2 → MvPolynomial (Fin 2) ℝ) k).totalDegree ≤ 2 := by
    rw [Fin.forall_fin_two]
    exact ⟨hX 0 1, hX 0 0⟩
  refine ⟨B, divergence_theorem true hB exDivField_polynomial rules_accurate.2.2.2.1 ?_ tables_accurate.2.1 hP hn⟩
  exact (MvPolynomial.totalDegree_finset_sum _ _).trans (Finset.sup_le fun k _ => (pderiv_degree _ _).trans (hP k))

/-! ## Normals at corners -/

/-- one triangle with a right angle -/
@[irreducible] def exDivTriangle : Topo := exTopo [.triangle 0 1 2]

theorem exDivTriangle_reachable : VReachable exDivTriangle := by
  unfold exDivTriangle; exact exTopo_reachable _ (by decide) (by decide +kernel)

/-- the legs have the lengths three and four -/
noncomputable def exDivCorners : Id → Val (.vec 2)
  | 0 => ![0, 0]
  | 1 => ![4, 0]
  | _ => ![0, 3]

/-- the sum of the normals of the sides on which a point lies, like the normal field of the test -/
noncomputable def exDivSum (x : Vec 2) : Vec 2 := by
  classical
  exact (if x 0 = 0 then ![-1, 0] else 0) + (if x 1 = 0 then ![0, -1] else 0) + (if 3 * x 0 + 4 * x 1 = 12 then ![3 / 5, 4 / 5] else 0)

/-- the positions -/
noncomputable def exDivPosition : Expr (.vec 2) (.vec 2) :=
  .sum (.prod (.scale (.vec 2)) (.component (a := .vec 2) 0) (.const ![1, 0]))
    (.prod (.scale (.vec 2)) (.component (a := .vec 2) 1) (.const ![0, 1]))

theorem exDivPosition_polynomial : IsPolynomial exDivPosition ![MvPolynomial.X 0, MvPolynomial.X 1] := by
  refine ⟨by simp [exDivPosition, Expr.HasRule], fun x => by simp [exDivPosition, Expr.Smooth, Expr.All], fun x k => ?_⟩
  fin_cases k <;> simp [exDivPosition, Expr.eval, mul]

/-- the contribution of an edge to the flux of the positions with one quadrature point -/
noncomputable def edgeTerm (x y : Vec 2) : ℝ :=
  (exDivSum x 0 * (y 1 - x 1) - exDivSum x 1 * (y 0 - x 0)) *
    ((x 0 + y 0) / 2 * exDivSum (fun k => (x k + y k) / 2) 0 + (x 1 + y 1) / 2 * exDivSum (fun k => (x k + y k) / 2) 1)

/-- **C96 (finding).**  The construction of the normal field in the test and the tutorials, the sum of the normals of the sides on which a
point lies, is right for rectangles only: the volume of a cell of the boundary is taken from the normal at its first node, and at a corner
of another angle the sum has not the component one along either normal.  (All other points of the sides have the unit normal.) -/
theorem corner_normals_fail : ∃ B, Triangulates exDivTriangle [⟨17, [exNode 0, exNode 1, exNode 2]⟩] B exDivCorners ∧
    (∀ s : ℝ, 0 < s → s < 1 → exDivSum ![0, 3 * s] = ![-1, 0] ∧ exDivSum ![4 * s, 0] = ![0, -1] ∧
      exDivSum ![4 * s, 3 * (1 - s)] = ![3 / 5, 4 / 5]) ∧
    integrateDivergence2 true triangle1 exDivCorners exDivPosition [⟨17, [exNode 0, exNode 1, exNode 2]⟩] = .value 12 ∧
    integrateFlux2 true segment1 exDivSum exDivCorners exDivPosition B = .value (12 / 5) := by
  obtain ⟨m, s, known, h1, h2, h3⟩ := exists_mesh exDivTriangle 1 [⟨17, [exNode 0, exNode 1, exNode 2]⟩]
  have hb : (boundary exDivTriangle 1 m).map (fun r => r.2.map fun b => b.vertices) = some [[0, 1], [1, 2], [2, 0]] := by
    rw [boundary_congr (m' := exMeshOf exDivTriangle 1 [⟨17, [exNode 0, exNode 1, exNode 2]⟩]) (by rw [h2]; decide +kernel) (by rw [h3]; rfl)]
    decide +kernel
  obtain ⟨⟨t', B⟩, hB, hv⟩ := Option.map_eq_some_iff.mp hb
  have hT : Triangulates exDivTriangle [⟨17, [exNode 0, exNode 1, exNode 2]⟩] B exDivCorners := by
    refine ⟨exDivTriangle_reachable, ⟨m, s, known, t', h1, h2, hB⟩, by decide +kernel, by decide +kernel, ?_,
      by unfold OneNode; decide +kernel, by decide +kernel⟩
    have h : ∀ c ∈ [(⟨17, [exNode 0, exNode 1, exNode 2]⟩ : GCell)], exDivTriangle.sg 2 c.simplex = 1 := by decide +kernel
    refine fun c hc => ⟨h c hc, ?_⟩
    rw [List.mem_singleton.mp hc]
    norm_num [GCell.vertices, exNode, Meshes.area, Geometry.simplexVolume, exDivCorners, Matrix.det_fin_two, Nat.factorial]
  have hnd := boundary_simplices (boundary_collects hT.topology (by omega) h1 h2 hT.cell t' B hB).1 hT.edges
  refine ⟨B, hT, ?_, ?_, ?_⟩
  · intro s l u
    have u' : ¬ 1 - s = 0 := by linarith
    refine ⟨?_, ?_, ?_⟩
    · have e : ¬ (4 * (3 * s) = 12) := fun e => by linarith
      funext k
      fin_cases k <;> simp [exDivSum, l.ne', e]
    · have e : ¬ (3 * (4 * s) = 12) := fun e => by linarith
      funext k
      fin_cases k <;> simp [exDivSum, l.ne', e]
    · have e : 3 * (4 * s) + 4 * (3 * (1 - s)) = 12 := by ring
      funext k
      fin_cases k <;> simp [exDivSum, l.ne', u', e]
  · rw [integrateDivergence2, integrate_value _ _ _ _ _ (by simp)]
    have e : ∀ x, (divergence exDivPosition).eval x () = 2 := by
      intro x
      rw [divergence_polynomial exDivPosition_polynomial]
      simp [divPolynomial, Fin.sum_univ_two]
      norm_num
    simp only [e]
    rw [quadratureSum, List.map_map, List.map_singleton, List.sum_singleton, Function.comp, apply_triangle1,
      volume_cartesian (by norm_num) (by norm_num), simplexVolume_triangle]
    norm_num [triangleArea, cellOf, positions, exNode, exDivCorners]
  · rw [integrateFlux2, integrate_value _ _ _ _ _ (cellOf_keys _ B ▸ hnd)]
    have e1 : ∀ g : (Fin 1 → ℝ) → ℝ, apply segment1 g = g fun _ => 1 / 2 := by
      intro g
      have h1 : ((1.0 : ℚ) : ℝ) = 1 := by norm_num
      have h2 : (fun i => ((![0.5] : Fin 1 → ℚ) i : ℝ)) = fun _ => 1 / 2 := by
        funext i
        fin_cases i
        norm_num
      simp only [apply, Table.rule, segment1, List.map_cons, List.map_nil, List.sum_cons, List.sum_nil, h1, h2]
      ring
    have e2 : ∀ x : Fin 2 → Vec 2, (parametrization (n := 0) (d := 2) x).eval (fun _ => 1 / 2) = fun k => (x 0 k + x 1 k) / 2 := by
      intro x
      rw [parametrization_barycentric, Fin.sum_univ_two]
      funext k
      simp [barycentric, Fin.snoc]
      ring
    have e3 : ∀ x : Fin 2 → Vec 2, System.subVolume (k := 1) (n := 1) (cartesian 2) (fun _ => exDivSum) x =
        exDivSum (x 0) 0 * (x 1 1 - x 0 1) - exDivSum (x 0) 1 * (x 1 0 - x 0 0) := by
      intro x
      rw [System.subVolume, cartesian_w (d := 1 + 1) (by norm_num) (by norm_num), Matrix.det_fin_two]
      simp [Fin.append, Fin.addCases, System.directors, cartesian]
      norm_num
    have e4 : quadratureSum segment1 (fun c => System.subVolume (k := 1) (n := 1) (cartesian 2) (fun _ => exDivSum) c.nodes)
        (B.map (cellOf (n := 0) exDivCorners)) (fun x => ∑ k, exDivPosition.eval x k * exDivSum x k) =
        ((B.map fun b => b.vertices).map fun L => edgeTerm (exDivCorners (L.getD 0 0)) (exDivCorners (L.getD 1 0))).sum := by
      rw [quadratureSum, List.map_map, List.map_map]
      refine congrArg List.sum (List.map_congr_left fun b hb => ?_)
      simp only [Function.comp, e1]
      rw [e2, e3, edgeTerm, Fin.sum_univ_two]
      simp only [exDivPosition_polynomial.2.2]
      simp [cellOf, positions, GCell.vertices]
    rw [e4, hv]
    simp only [List.map_cons, List.map_nil, List.sum_cons, List.sum_nil]
    norm_num [edgeTerm, exDivCorners, exDivSum]

/-! ## A tetrahedron -/

/-- the vertices of a tetrahedron of the volume 1/3 -/
noncomputable def exDivVertices : Id → Val (.vec 3)
  | 0 => ![0, 0, 0]
  | 1 => ![2, 0, 0]
  | 2 => ![0, 1, 0]
  | _ => ![0, 0, 1]

theorem exDivVolume : simplexVolume (d := 3) ![![0, 0, 0], ![2, 0, 0], ![0, 1, 0], ![0, 0, 1]] = 1 / 3 := by
  simp [simplexVolume, Matrix.det_fin_three, Nat.factorial]
  norm_num

/-- the outer normals of its faces -/
noncomputable def exDivOuter (x : Vec 3) : Vec 3 := by
  classical
  exact if x 0 + 2 * x 1 + 2 * x 2 = 2 ∧ 0 < x 0 then ![1 / 3, 2 / 3, 2 / 3] else
    ![if x 0 = 0 then -1 else 0, if x 1 = 0 then -1 else 0, if x 2 = 0 then -1 else 0]

/-- the positions -/
noncomputable def exDivPosition3 : Expr (.vec 3) (.vec 3) :=
  .sum (.prod (.scale (.vec 3)) (.component (a := .vec 3) 0) (.const ![1, 0, 0]))
    (.sum (.prod (.scale (.vec 3)) (.component (a := .vec 3) 1) (.const ![0, 1, 0]))
      (.prod (.scale (.vec 3)) (.component (a := .vec 3) 2) (.const ![0, 0, 1])))

/-- **C96 (finding).**  For one tetrahedron with its outer normals, the integral of the divergence of the positions is 1 (three times the
volume) and the integral over the boundary is -1. -/
theorem divergence_theorem_fails : ∃ (m : Mesh GCell) (s : SegVec.Abs GCell) (known : Finset Nat) (c : GCell) (t' : Topo) (B : List GCell),
    VReachable exE ∧ Reachable (facets exE 2) m s known ∧ m.cellList = some [c] ∧ CellOk exE 3 c ∧ exE.sg 3 c.simplex = 1 ∧
    boundary exE 2 m = some (t', B) ∧ (∀ b ∈ B, NormalOn (n := 1) triangle1 exDivOuter (cellOf exDivVertices b)) ∧
    integrateDivergence3 true tetrahedron1 exDivVertices exDivPosition3 [c] = .value 1 ∧
    integrateFlux3 true triangle1 exDivOuter exDivVertices exDivPosition3 B = .value (-1) := by
  obtain ⟨m, s, known, h1, h2, h3⟩ := exists_mesh exE 2 [⟨39, [exNode 0, exNode 1, exNode 2, exNode 3]⟩]
  have hb : (boundary exE 2 m).map (fun r => r.2.map fun b => b.vertices) = some [[0, 1, 2], [1, 3, 2], [3, 1, 0], [3, 0, 2]] := by
    rw [boundary_congr (m' := exMeshOf exE 2 [⟨39, [exNode 0, exNode 1, exNode 2, exNode 3]⟩]) (by rw [h2]; decide +kernel)
      (by rw [h3]; rfl)]
    decide +kernel
  obtain ⟨⟨t', B⟩, hB, hv⟩ := Option.map_eq_some_iff.mp hb
  have hc : ∀ c ∈ [(⟨39, [exNode 0, exNode 1, exNode 2, exNode 3]⟩ : GCell)], CellOk exE 3 c := by decide +kernel
  have hs : ∀ c ∈ [(⟨39, [exNode 0, exNode 1, exNode 2, exNode 3]⟩ : GCell)], exE.sg 3 c.simplex = 1 := by decide +kernel
  have hn : ∀ b ∈ B, NormalOn (n := 1) triangle1 exDivOuter (cellOf exDivVertices b) := by
    intro b hb
    have e2 : ∀ a b c : ℝ, (![a, b, c] : Fin 3 → ℝ) 2 = c := fun _ _ _ => rfl
    have hm : b.vertices ∈ [[0, 1, 2], [1, 3, 2], [3, 1, 0], [3, 0, 2]] := hv ▸ List.mem_map.mpr ⟨b, hb, rfl⟩
    have e : (cellOf (n := 1) exDivVertices b).nodes = ![exDivVertices (b.vertices.getD 0 0), exDivVertices (b.vertices.getD 1 0),
        exDivVertices (b.vertices.getD 2 0)] := by
      funext a
      fin_cases a <;> rfl
    simp only [List.mem_cons, List.not_mem_nil, or_false] at hm
    rcases hm with h | h | h | h <;> rw [h] at e
    · refine normalOn_face e (m := ![0, 0, -1]) ?_ ?_ ?_ ?_ (funext fun k => ?_)
      · norm_num [e2]
      · norm_num [exDivVertices, e2]
      · norm_num [exDivVertices, e2]
      · norm_num [exDivVertices, exDivOuter, e2]
      · fin_cases k <;> norm_num [exDivVertices, exDivOuter, e2]
    · refine normalOn_face e (m := ![1 / 3, 2 / 3, 2 / 3]) ?_ ?_ ?_ ?_ (funext fun k => ?_)
      · norm_num [e2]
      · norm_num [exDivVertices, e2]
      · norm_num [exDivVertices, e2]
      · norm_num [exDivVertices, exDivOuter, e2]
      · fin_cases k <;> norm_num [exDivVertices, exDivOuter, e2]
    · refine normalOn_face e (m := ![0, -1, 0]) ?_ ?_ ?_ ?_ (funext fun k => ?_)
      · norm_num [e2]
      · norm_num [exDivVertices, e2]
      · norm_num [exDivVertices, e2]
      · norm_num [exDivVertices, exDivOuter, e2]
      · fin_cases k <;> norm_num [exDivVertices, exDivOuter, e2]
    · refine normalOn_face e (m := ![-1, 0, 0]) ?_ ?_ ?_ ?_ (funext fun k => ?_)
      · norm_num [e2]
      · norm_num [exDivVertices, e2]
      · norm_num [exDivVertices, e2]
      · norm_num [exDivVertices, exDivOuter, e2]
      · fin_cases k <;> norm_num [exDivVertices, exDivOuter, e2]
  have hf : ∀ x, exDivPosition3.eval x = (1 : Mat 3).mulVec x + 0 := by
    intro x
    rw [Matrix.one_mulVec, add_zero]
    funext k
    fin_cases k <;> simp [exDivPosition3, Expr.eval, mul]
  have hr : exDivPosition3.HasRule := by simp [exDivPosition3, Expr.HasRule]
  have hsm : ∀ x, exDivPosition3.Smooth x := fun x => by simp [exDivPosition3, Expr.Smooth, Expr.All]
  obtain ⟨i, hi, hj⟩ := divergence_theorem_tetrahedra true exE_reachable h1 h2 hc (by decide +kernel) t' B hB hs exDivVertices
    hr hsm hf hn
  have e : i = 1 := by
    rw [integrateDivergence3, integrate_value _ _ _ _ _ (by simp)] at hi
    simp only [divergence_affine hr hsm hf] at hi
    rw [quadratureSum, List.map_map, List.map_singleton, List.sum_singleton, Function.comp, apply_tetrahedron1,
      volume_cartesian (by norm_num) (by norm_num)] at hi
    have e' : (cellOf (n := 2) exDivVertices ⟨39, [exNode 0, exNode 1, exNode 2, exNode 3]⟩).nodes =
        ![![0, 0, 0], ![2, 0, 0], ![0, 1, 0], ![0, 0, 1]] := by
      funext a
      fin_cases a <;> rfl
    rw [e', exDivVolume, Matrix.trace_one] at hi
    injection hi with hi
    rw [← hi]
    norm_num
  rw [e] at hi hj
  exact ⟨m, s, known, _, t', B, exE_reachable, h1, h2, hc _ (List.mem_singleton.mpr rfl), hs _ (List.mem_singleton.mpr rfl), hB, hn, hi, hj⟩

end Mito.Quadrature
