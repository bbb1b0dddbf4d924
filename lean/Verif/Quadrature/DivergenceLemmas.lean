import Verif.Quadrature.DivergenceProgram
import Verif.Fem.ConvergenceLemmas
import Verif.Props.Integrator
import Verif.Props.Functions
import Verif.Props.Coordinates
import Mathlib.Analysis.Calculus.Deriv.Pi

/-! # Lemmas on the divergence theorem with integrators -/

namespace Mito.Quadrature

open Mito.Functions Mito.Geometry Mito.Meshes Mito.Topology Mito.Fem Mito.Tensor MeasureTheory

/-! ## Polynomial fields -/

theorem contDiff_polynomial {d : Nat} (p : MvPolynomial (Fin d) ℝ) (m : WithTop ℕ∞) : ContDiff ℝ m fun x : Fin d → ℝ => MvPolynomial.eval x p := by
  induction p using MvPolynomial.induction_on with
  | C a => simpa using contDiff_const
  | add p q hp hq => simpa using hp.add hq
  | mul_X p i hp => simpa using hp.mul (contDiff_apply ℝ ℝ i)

theorem hasDerivAt_polynomial {d : Nat} (p : MvPolynomial (Fin d) ℝ) (x : Fin d → ℝ) (i : Fin d) (s : ℝ) :
    HasDerivAt (fun s => MvPolynomial.eval (Function.update x i s) p) (MvPolynomial.eval (Function.update x i s) (MvPolynomial.pderiv i p)) s := by
  induction p using MvPolynomial.induction_on with
  | C a => simpa using hasDerivAt_const s a
  | add p q hp hq =>
    simp only [map_add]
    exact hp.add hq
  | mul_X p j hp =>
    rw [MvPolynomial.pderiv_mul]
    simp only [map_mul, map_add, MvPolynomial.eval_X]
    refine hp.mul ?_
    rcases eq_or_ne j i with rfl | hj
    · simp only [Function.update_self, MvPolynomial.pderiv_X_self, map_one]
      exact hasDerivAt_id s
    · simpa [MvPolynomial.pderiv_X_of_ne hj, Function.update_of_ne hj] using hasDerivAt_const s (x j)

theorem fderiv_polynomial {d : Nat} (p : MvPolynomial (Fin d) ℝ) (x : Fin d → ℝ) (i : Fin d) :
    fderiv ℝ (fun x => MvPolynomial.eval x p) x (Pi.single i 1) = MvPolynomial.eval x (MvPolynomial.pderiv i p) := by
  have h1 := hasDerivAt_polynomial p x i (x i)
  have h2 : HasFDerivAt (fun x => MvPolynomial.eval x p) (fderiv ℝ (fun x => MvPolynomial.eval x p) x) (Function.update x i (x i)) := by
    rw [Function.update_eq_self]
    exact ((contDiff_polynomial p 1).differentiable (by norm_num) x).hasFDerivAt
  have h3 := h2.comp_hasDerivAt (x i) (hasDerivAt_update x i (x i))
  rw [Function.update_eq_self] at h1
  exact h3.unique h1

theorem divergence_polynomial {d : Nat} {f : Expr (.vec d) (.vec d)} {P : Fin d → MvPolynomial (Fin d) ℝ} (hf : IsPolynomial f P) (x : Val (.vec d)) :
    (divergence f).eval x () = MvPolynomial.eval x (divPolynomial P) := by
  rw [divergence_correct f hf.1 x (hf.2.1 x), divPolynomial, map_sum]
  refine Finset.sum_congr rfl fun i _ => ?_
  simp only [hf.2.2]
  have := (hasDerivAt_polynomial (P i) x i (x i)).deriv
  rw [Function.update_eq_self] at this
  exact this

theorem divergence_affine {d : Nat} {f : Expr (.vec d) (.vec d)} (hf1 : f.HasRule) (hf2 : ∀ x, f.Smooth x) {A : Mat d} {b : Vec d}
    (hf : ∀ x, f.eval x = A.mulVec x + b) (x : Val (.vec d)) : (divergence f).eval x () = A.trace := by
  rw [divergence_correct f hf1 x (hf2 x), Matrix.trace]
  refine Finset.sum_congr rfl fun i _ => ?_
  have e : (fun s => f.eval (Function.update x i s) i) = fun s => A i i * (s - x i) + f.eval x i := by
    funext s
    have e' : Function.update x i s = x + Pi.single i (s - x i) := by
      funext k
      rcases eq_or_ne k i with rfl | hk
      · simp
      · simp [hk]
    rw [e', hf, hf, Matrix.mulVec_add, Matrix.mulVec_single]
    simp
    ring
  rw [e]
  have := (((hasDerivAt_id (x i)).sub_const (x i)).const_mul (A i i)).add_const (f.eval x i)
  simpa using this.deriv

theorem pderiv_degree {d : Nat} (p : MvPolynomial (Fin d) ℝ) (i : Fin d) : (MvPolynomial.pderiv i p).totalDegree ≤ p.totalDegree := by
  refine Finset.sup_le fun m hm => ?_
  rw [MvPolynomial.mem_support_iff, MvPolynomial.coeff_pderiv] at hm
  have := MvPolynomial.le_totalDegree (MvPolynomial.mem_support_iff.mpr (left_ne_zero_of_mul hm))
  rw [Finsupp.sum_add_index' (by simp) (by simp)] at this
  omega

/-! ## Different cells have different simplices -/

theorem simplices_nodup {t : Topo} (ht : VReachable t) {N : Nat} {cells : List GCell} (hcell : ∀ c ∈ cells, CellOk t (N + 1) c)
    (hnd : (cells.flatMap (facets t N)).Nodup) : (cells.map GCell.simplex).Nodup := by
  obtain ⟨ok, st⟩ := ht.ok
  rw [List.nodup_flatMap] at hnd
  rw [List.nodup_iff_pairwise_ne, List.pairwise_map]
  refine hnd.2.imp_of_mem fun {c c'} hc hc' hd e => ?_
  have hl := composition_length ok.inv (hcell c hc).1
  rw [Function.onFun, facets, facets, e] at hd
  have : (t.composition (N + 1) c'.simplex).map (fun x => (t.fp N x, t.sg N x)) ≠ [] := by
    rw [← e, Ne, List.map_eq_nil_iff]
    intro h
    rw [h] at hl
    simp at hl
  obtain ⟨a, ha⟩ := List.exists_mem_of_ne_nil _ this
  exact hd ha ha

theorem boundary_simplices {t : Topo} {N : Nat} {cells B : List GCell} (hB : List.Forall₂ (Places t N) (boundaryFacets t N cells) B)
    (hnd : (cells.flatMap (facets t N)).Nodup) : (B.map GCell.simplex).Nodup := by
  have e : B.map GCell.simplex = (boundaryFacets t N cells).map Prod.fst := by
    clear hnd
    generalize boundaryFacets t N cells = L at hB
    induction hB with
    | nil => rfl
    | cons h _ ih => rw [List.map_cons, List.map_cons, ih, h.1]
  rw [e]
  have h1 : ((occurrences t N cells).map Prod.fst).Nodup := by
    have : (((occurrences t N cells).map Prod.fst).map fun x => (t.fp N x, t.sg N x)).Nodup := by
      have e : ((occurrences t N cells).map Prod.fst).map (fun x => (t.fp N x, t.sg N x)) = cells.flatMap (facets t N) := by
        simp only [occurrences, List.map_flatMap, List.map_map]
        rfl
      rw [e]
      exact hnd
    exact this.of_map
  exact h1.sublist (List.filter_sublist.map _)

/-! ## Normals -/

theorem normalOn_edge {t : Table 1} (ht : Inside t) {normal : Vec 2 → Vec 2} {c : Cell 0 2} {m : Vec 2} (h1 : m 0 * m 0 + m 1 * m 1 = 1)
    (h2 : m 0 * (c.nodes 1 0 - c.nodes 0 0) + m 1 * (c.nodes 1 1 - c.nodes 0 1) = 0)
    (h3 : normal (c.nodes 0) 0 * m 0 + normal (c.nodes 0) 1 * m 1 = 1)
    (h4 : ∀ s : ℝ, 0 < s → s < 1 → normal (fun k => s * c.nodes 0 k + (1 - s) * c.nodes 1 k) = m) : NormalOn t normal c := by
  refine ⟨m, (Fin.sum_univ_two _).trans h1, ?_, (Fin.sum_univ_two _).trans h3, ?_⟩
  · have : ∀ a : Fin 2, m ⬝ᵥ (c.nodes a - c.nodes 0) = 0 := by
      rw [Fin.forall_fin_two]
      refine ⟨?_, (Fin.sum_univ_two _).trans h2⟩
      rw [sub_self]
      exact dotProduct_zero m
    exact this
  · intro q hq
    obtain ⟨x, hx, rfl⟩ := List.mem_map.mp hq
    obtain ⟨_, h5, h6⟩ := ht x hx
    rw [Fin.sum_univ_one] at h6
    have e : (parametrization c.nodes).eval (fun i => ((x.1 i : ℚ) : ℝ)) =
        fun k => ((x.1 0 : ℚ) : ℝ) * c.nodes 0 k + (1 - ((x.1 0 : ℚ) : ℝ)) * c.nodes 1 k := by
      funext k
      rw [parametrization_barycentric, Fin.sum_univ_two]
      simp [barycentric, Fin.snoc]
    have h7 := h4 (x.1 0 : ℚ) (by exact_mod_cast h5 0) (by exact_mod_cast h6)
    rw [← e] at h7
    exact h7

theorem parametrization_centroid (x y z : Vec 3) :
    (parametrization (n := 1) (d := 3) ![x, y, z]).eval (fun _ => 1 / 3) = (1 / 3 : ℝ) • (x + y + z) := by
  rw [parametrization_barycentric, Fin.sum_univ_three]
  funext k
  simp [barycentric, Fin.snoc, Fin.sum_univ_two]
  ring

theorem triangle1_points : ∀ q ∈ triangle1.rule, q.1 = fun _ => 1 / 3 := by
  intro q hq
  simp only [Table.rule, triangle1, List.map_cons, List.map_nil, List.mem_singleton] at hq
  subst hq
  funext i
  fin_cases i <;> norm_num

theorem normalOn_face {normal : Vec 3 → Vec 3} {c : Cell 1 3} {x y z : Vec 3} (hc : c.nodes = ![x, y, z]) {m : Vec 3}
    (h1 : m 0 * m 0 + m 1 * m 1 + m 2 * m 2 = 1)
    (h2 : m 0 * (y 0 - x 0) + m 1 * (y 1 - x 1) + m 2 * (y 2 - x 2) = 0)
    (h3 : m 0 * (z 0 - x 0) + m 1 * (z 1 - x 1) + m 2 * (z 2 - x 2) = 0)
    (h4 : normal x 0 * m 0 + normal x 1 * m 1 + normal x 2 * m 2 = 1)
    (h5 : normal ((1 / 3 : ℝ) • (x + y + z)) = m) : NormalOn triangle1 normal c := by
  refine ⟨m, (Fin.sum_univ_three _).trans h1, ?_, ?_, ?_⟩
  · have : ∀ a : Fin 3, m ⬝ᵥ (c.nodes a - c.nodes 0) = 0 := by
      rw [hc, Fin.forall_fin_succ, Fin.forall_fin_two]
      refine ⟨?_, (Fin.sum_univ_three _).trans h2, (Fin.sum_univ_three _).trans h3⟩
      rw [sub_self]
      exact dotProduct_zero m
    exact this
  · rw [hc]
    exact (Fin.sum_univ_three _).trans h4
  · intro q hq
    rw [triangle1_points q hq, hc, parametrization_centroid]
    exact h5

/-! ## The flux through an edge -/

/-- the volume of a segment times the component of the field along the normal -/
theorem edge_flux (t : Table 1) (normal : Vec 2 → Vec 2) (c : Cell 0 2) (h : NormalOn t normal c) (F : Vec 2 → Vec 2) :
    System.subVolume (k := 1) (n := 1) (cartesian 2) (fun _ => normal) c.nodes *
      apply t (fun ξ => ∑ k, F ((parametrization c.nodes).eval ξ) k * normal ((parametrization c.nodes).eval ξ) k) =
    apply t fun ξ => F ((parametrization c.nodes).eval ξ) 0 * (c.nodes 1 1 - c.nodes 0 1) -
      F ((parametrization c.nodes).eval ξ) 1 * (c.nodes 1 0 - c.nodes 0 0) := by
  obtain ⟨M, h1, h2, h3, h4⟩ := h
  have hV : System.subVolume (k := 1) (n := 1) (cartesian 2) (fun _ => normal) c.nodes =
      normal (c.nodes 0) 0 * (c.nodes 1 1 - c.nodes 0 1) - normal (c.nodes 0) 1 * (c.nodes 1 0 - c.nodes 0 0) := by
    rw [System.subVolume, cartesian_w (d := 1 + 1) (by norm_num) (by norm_num), Matrix.det_fin_two]
    simp [Fin.append, Fin.addCases, System.directors, cartesian]
    norm_num
  rw [hV, apply, apply, ← List.sum_map_mul_left]
  refine congrArg List.sum (List.map_congr_left fun q hq => ?_)
  rw [h4 q hq, Fin.sum_univ_two]
  have h1 : M 0 * M 0 + M 1 * M 1 = 1 := (Fin.sum_univ_two _).symm.trans h1
  have h2 : M 0 * (c.nodes 1 0 - c.nodes 0 0) + M 1 * (c.nodes 1 1 - c.nodes 0 1) = 0 := (Fin.sum_univ_two _).symm.trans (h2 1)
  have h3 : normal (c.nodes 0) 0 * M 0 + normal (c.nodes 0) 1 * M 1 = 1 := (Fin.sum_univ_two _).symm.trans h3
  set x := F ((parametrization c.nodes).eval q.1)
  set d0 := c.nodes 1 0 - c.nodes 0 0
  set d1 := c.nodes 1 1 - c.nodes 0 1
  set a := normal (c.nodes 0) 0
  set b := normal (c.nodes 0) 1
  have hd1 : d1 = M 0 * (d1 * M 0 - d0 * M 1) := by linear_combination -d1 * h1 + M 1 * h2
  have hd0 : d0 = -M 1 * (d1 * M 0 - d0 * M 1) := by linear_combination -d0 * h1 + M 0 * h2
  have e0 : (a * d1 - b * d0) * M 0 = d1 := by
    linear_combination (a * M 0 - 1) * hd1 - b * M 0 * hd0 + (d1 * M 0 - d0 * M 1) * M 0 * h3
  have e1 : (a * d1 - b * d0) * M 1 = -d0 := by
    linear_combination a * M 1 * hd1 + (1 - b * M 1) * hd0 + (d1 * M 0 - d0 * M 1) * M 1 * h3
  linear_combination q.2 * x 0 * e0 + q.2 * x 1 * e1

theorem mean1_flux (F : Fin 2 → (Fin 2 → ℝ) → ℝ) (c : Cell 0 2) :
    (mean1 fun ξ => F 0 ((parametrization c.nodes).eval ξ) * (c.nodes 1 1 - c.nodes 0 1) -
      F 1 ((parametrization c.nodes).eval ξ) * (c.nodes 1 0 - c.nodes 0 0)) = flux F (c.nodes 0) (c.nodes 1) := by
  unfold mean1 flux
  have := intervalIntegral.integral_comp_sub_left (a := 0) (b := 1) (fun s : ℝ =>
    F 0 (fun k => c.nodes 0 k + s * (c.nodes 1 k - c.nodes 0 k)) * (c.nodes 1 1 - c.nodes 0 1) -
      F 1 (fun k => c.nodes 0 k + s * (c.nodes 1 k - c.nodes 0 k)) * (c.nodes 1 0 - c.nodes 0 0)) 1
  simp only [sub_self, sub_zero] at this
  rw [← this]
  congr 1
  funext s
  have e : (parametrization c.nodes).eval ![s] = fun k => c.nodes 0 k + (1 - s) * (c.nodes 1 k - c.nodes 0 k) := by
    funext k
    rw [parametrization_barycentric, Fin.sum_univ_two]
    simp [barycentric, Fin.snoc]
    ring
  simp only [e]

/-! ## The flux through a face -/

/-- vectors orthogonal to a plane are parallel -/
theorem det_normal (m n f u v : Fin 3 → ℝ) (h1 : m 0 * m 0 + m 1 * m 1 + m 2 * m 2 = 1) (h2 : m 0 * u 0 + m 1 * u 1 + m 2 * u 2 = 0)
    (h3 : m 0 * v 0 + m 1 * v 1 + m 2 * v 2 = 0) (h4 : n 0 * m 0 + n 1 * m 1 + n 2 * m 2 = 1) :
    Matrix.det !![n 0, n 1, n 2; u 0, u 1, u 2; v 0, v 1, v 2] * (f 0 * m 0 + f 1 * m 1 + f 2 * m 2) =
      Matrix.det !![f 0, f 1, f 2; u 0, u 1, u 2; v 0, v 1, v 2] := by
  have hd : ∀ x : Fin 3 → ℝ, Matrix.det !![x 0, x 1, x 2; u 0, u 1, u 2; v 0, v 1, v 2] =
      x 0 * (u 1 * v 2 - u 2 * v 1) + x 1 * (u 2 * v 0 - u 0 * v 2) + x 2 * (u 0 * v 1 - u 1 * v 0) := by
    intro x
    rw [Matrix.det_fin_three]
    simp
    ring
  rw [hd, hd]
  obtain ⟨w0, hw0⟩ : ∃ w, w = u 1 * v 2 - u 2 * v 1 := ⟨_, rfl⟩
  obtain ⟨w1, hw1⟩ : ∃ w, w = u 2 * v 0 - u 0 * v 2 := ⟨_, rfl⟩
  obtain ⟨w2, hw2⟩ : ∃ w, w = u 0 * v 1 - u 1 * v 0 := ⟨_, rfl⟩
  have c0 : w1 * m 2 - w2 * m 1 = 0 := by rw [hw1, hw2]; linear_combination v 0 * h2 - u 0 * h3
  have c1 : w2 * m 0 - w0 * m 2 = 0 := by rw [hw0, hw2]; linear_combination v 1 * h2 - u 1 * h3
  have c2 : w0 * m 1 - w1 * m 0 = 0 := by rw [hw0, hw1]; linear_combination v 2 * h2 - u 2 * h3
  rw [← hw0, ← hw1, ← hw2]
  have e0 : w0 = (w0 * m 0 + w1 * m 1 + w2 * m 2) * m 0 := by linear_combination -w0 * h1 + m 1 * c2 - m 2 * c1
  have e1 : w1 = (w0 * m 0 + w1 * m 1 + w2 * m 2) * m 1 := by linear_combination -w1 * h1 + m 2 * c0 - m 0 * c2
  have e2 : w2 = (w0 * m 0 + w1 * m 1 + w2 * m 2) * m 2 := by linear_combination -w2 * h1 + m 0 * c1 - m 1 * c0
  obtain ⟨μ, hμ⟩ : ∃ μ, μ = w0 * m 0 + w1 * m 1 + w2 * m 2 := ⟨_, rfl⟩
  rw [← hμ] at e0 e1 e2
  rw [e0, e1, e2]
  linear_combination μ * (f 0 * m 0 + f 1 * m 1 + f 2 * m 2) * h4

/-- the volume of a triangle times the component of the field along the normal -/
theorem face_flux (t : Table 2) (normal : Vec 3 → Vec 3) (c : Cell 1 3) (h : NormalOn t normal c) (F : Vec 3 → Vec 3) :
    System.subVolume (k := 1) (n := 2) (cartesian 3) (fun _ => normal) c.nodes *
      apply t (fun ξ => ∑ k, F ((parametrization c.nodes).eval ξ) k * normal ((parametrization c.nodes).eval ξ) k) =
    apply t fun ξ => 1 / 2 * Matrix.det !![F ((parametrization c.nodes).eval ξ) 0, F ((parametrization c.nodes).eval ξ) 1,
      F ((parametrization c.nodes).eval ξ) 2; c.nodes 1 0 - c.nodes 0 0, c.nodes 1 1 - c.nodes 0 1, c.nodes 1 2 - c.nodes 0 2;
      c.nodes 2 0 - c.nodes 0 0, c.nodes 2 1 - c.nodes 0 1, c.nodes 2 2 - c.nodes 0 2] := by
  obtain ⟨M, h1, h2, h3, h4⟩ := h
  have hV : System.subVolume (k := 1) (n := 2) (cartesian 3) (fun _ => normal) c.nodes =
      1 / 2 * Matrix.det !![normal (c.nodes 0) 0, normal (c.nodes 0) 1, normal (c.nodes 0) 2;
        c.nodes 1 0 - c.nodes 0 0, c.nodes 1 1 - c.nodes 0 1, c.nodes 1 2 - c.nodes 0 2;
        c.nodes 2 0 - c.nodes 0 0, c.nodes 2 1 - c.nodes 0 1, c.nodes 2 2 - c.nodes 0 2] := by
    rw [System.subVolume, cartesian_w (d := 1 + 2) (by norm_num) (by norm_num), Matrix.det_fin_three, Matrix.det_fin_three]
    simp [Fin.append, Fin.addCases, System.directors, cartesian]
    norm_num
  rw [hV, apply, apply, ← List.sum_map_mul_left]
  refine congrArg List.sum (List.map_congr_left fun q hq => ?_)
  rw [h4 q hq, Fin.sum_univ_three]
  have := det_normal M (normal (c.nodes 0)) (F ((parametrization c.nodes).eval q.1)) (fun k => c.nodes 1 k - c.nodes 0 k)
    (fun k => c.nodes 2 k - c.nodes 0 k) ((Fin.sum_univ_three _).symm.trans h1) ((Fin.sum_univ_three _).symm.trans (h2 1))
    ((Fin.sum_univ_three _).symm.trans (h2 2)) ((Fin.sum_univ_three _).symm.trans h3)
  rw [← this]
  ring

/-! ## The sum over the triangles -/

theorem sum_divergence {t : Topo} {cells B : List GCell} {p : Id → Fin 2 → ℝ} (h : Triangulates t cells B p)
    {F : Fin 2 → (Fin 2 → ℝ) → ℝ} (hF : ∀ k, ContDiff ℝ 1 (F k)) :
    (cells.map fun c => ∫ y in hull (positions 3 p c), ∑ k, fderiv ℝ (F k) y (Pi.single k 1)).sum =
      (B.map fun b => flux F (positions 2 p b 0) (positions 2 p b 1)).sum := by
  obtain ⟨ok, st⟩ := h.topology.ok
  obtain ⟨m, s, known, t', hm, hcl, hb⟩ := h.mesh
  have hst := stokes_triangles h.topology hm hcl h.cell h.edges t' B hb (traceFlux (fun _ _ _ => 1) F p)
    (traceFlux_alternating (fun _ _ _ => rfl) F p)
  have key : ∀ x y : Id, traceFlux (fun _ _ _ => 1) F p [x, y] = flux F (p x) (p y) := by
    intro x y
    simp only [flux, traceFlux, one_mul]
  have hB : (B.map fun d => traceFlux (fun _ _ _ => 1) F p d.vertices).sum =
      (B.map fun b => flux F (positions 2 p b 0) (positions 2 p b 1)).sum := by
    refine congrArg List.sum (List.map_congr_left fun b hb' => ?_)
    obtain ⟨x, y, hn, -⟩ := nodes_pair (boundary_nodes h.topology (by omega) hm hcl h.cell hb b hb').1
    simp only [GCell.vertices, hn, List.map_cons, List.map_nil, key, positions]
    rfl
  rw [← hB, hst]
  refine congrArg List.sum (List.map_congr_left fun c hc => ?_)
  have hlen := (h.cell c hc).length ok.inv st (by omega)
  rw [hull, divergence_triangle hF _ (positions_area h hc)]
  match hn : c.nodes, hlen with
  | [x, y, z], _ =>
    have hx : positions 3 p c 0 = p x.vertex := by simp [positions, hn]
    have hy : positions 3 p c 1 = p y.vertex := by simp [positions, hn]
    have hz : positions 3 p c 2 = p z.vertex := by simp [positions, hn]
    rw [hx, hy, hz, (h.positive c hc).1]
    simp [GCell.vertices, hn, overEdges, key]

/-! ## The two sides -/

theorem apply_tetrahedron1 (a : ℝ) : apply tetrahedron1 (fun _ => a) = a := by
  have : ((1.0 : ℚ) : ℝ) = 1 := by norm_num
  simp [apply, Table.rule, tetrahedron1, this]

theorem apply_triangle1 (g : (Fin 2 → ℝ) → ℝ) : apply triangle1 g = g fun _ => 1 / 3 := by
  have h1 : ((1.0 : ℚ) : ℝ) = 1 := by norm_num
  have h2 : (fun i => ((![1.0 / 3.0, 1.0 / 3.0] : Fin 2 → ℚ) i : ℝ)) = fun _ => 1 / 3 := by
    funext i
    fin_cases i <;> norm_num
  simp only [apply, Table.rule, triangle1, List.map_cons, List.map_nil, List.sum_cons, List.sum_nil, h1, h2]
  ring

theorem cellOf_keys {n d : Nat} (p : Id → Val (.vec d)) (cells : List GCell) :
    ((cells.map (cellOf (n := n) p)).map Cell.key) = cells.map GCell.simplex := by
  rw [List.map_map]
  rfl

theorem simplexVolume_triangle (x : Fin 3 → Vec 2) : simplexVolume x = triangleArea x := by
  rw [simplexVolume, triangleArea, Matrix.det_fin_two]
  simp [Nat.factorial]
  ring

/-- the flux that the integrator computes -/
theorem flux_accurate {f : Expr (.vec 2) (.vec 2)} {P : Fin 2 → MvPolynomial (Fin 2) ℝ} (hf : IsPolynomial f P)
    {t1 : Table 1} {r1 : Nat} {ε1 : ℝ} (ht1 : Accurate mean1 t1 r1 ε1) (hr1 : ∀ k, (P k).totalDegree ≤ r1)
    {normal : Vec 2 → Vec 2} {p : Id → Val (.vec 2)} (B : List GCell) (hn : ∀ b ∈ B, NormalOn (n := 0) t1 normal (cellOf p b)) :
    |quadratureSum t1 (fun c => System.subVolume (k := 1) (n := 1) (cartesian 2) (fun _ => normal) c.nodes)
      (B.map (cellOf (n := 0) p)) (fun x => ∑ k, f.eval x k * normal x k) -
      (B.map fun b => flux (fun k x => MvPolynomial.eval x (P k)) (positions 2 p b 0) (positions 2 p b 1)).sum| ≤
      ε1 * (B.map fun b => size ((cellOf (n := 0) p b).pullback (fluxPolynomial P (cellOf p b)))).sum := by
  rw [quadratureSum, List.map_map]
  induction B with
  | nil => simp
  | cons b B ih =>
    have h1 := ih fun b' hb' => hn b' (List.mem_cons_of_mem _ hb')
    have hd : (fluxPolynomial P (cellOf p b)).totalDegree ≤ r1 := by
      rw [fluxPolynomial]
      refine (MvPolynomial.totalDegree_sub _ _).trans (max_le ?_ ?_) <;>
        refine (MvPolynomial.totalDegree_mul _ _).trans ?_ <;> rw [MvPolynomial.totalDegree_C, zero_add] <;> exact hr1 _
    have h2 := ht1 ((cellOf (n := 0) p b).pullback (fluxPolynomial P (cellOf p b))) ((pullback_degree _ _).trans hd)
    simp only [pullback_eval] at h2
    have e : ∀ x, MvPolynomial.eval x (fluxPolynomial P (cellOf (n := 0) p b)) = MvPolynomial.eval x (P 0) *
        ((cellOf (n := 0) p b).nodes 1 1 - (cellOf (n := 0) p b).nodes 0 1) - MvPolynomial.eval x (P 1) *
        ((cellOf (n := 0) p b).nodes 1 0 - (cellOf (n := 0) p b).nodes 0 0) := by
      intro x
      simp only [fluxPolynomial, map_sub, map_mul, MvPolynomial.eval_C]
      ring
    simp only [e] at h2
    rw [mean1_flux (fun k x => MvPolynomial.eval x (P k))] at h2
    have h3 := edge_flux t1 normal (cellOf p b) (hn b (List.mem_cons_self ..)) (fun x k => MvPolynomial.eval x (P k))
    rw [← h3] at h2
    simp only [List.map_cons, List.sum_cons, Function.comp] at h1 ⊢
    simp only [hf.2.2] at h1 ⊢
    rw [mul_add]
    refine le_trans (le_of_eq ?_) ((abs_add_le _ _).trans (add_le_add h2 h1))
    congr 1
    simp only [cellOf]
    ring

end Mito.Quadrature
