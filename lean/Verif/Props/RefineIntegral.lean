import Verif.Quadrature.RefineIntegralLemmas

/-! # C88: integrals on refined meshes converge

`tetra N k mesh` is the mesh after `N` refinements (lib/mito/mesh/tetra.h:165-210), `integrate` the integrator on it
(lib/mito/quadrature/Integrator.h:53-72). -/

namespace Mito.Quadrature

open Mito.Functions Mito.Geometry Mito.Refine MeasureTheory Filter Topology

variable {n : Nat}

/-- the maximum norm of the first `d` coordinates -/
noncomputable def maxSize (d : Nat) : Seminorm ℝ (Nat → ℝ) :=
  (normSeminorm ℝ (Fin d → ℝ)).comp (LinearMap.pi fun i : Fin d => LinearMap.proj i.val)

theorem coords_dist {d : Nat} {c : List (PNode ℝ)} (hc : c.length = n + 2) {h : ℝ} :
    SizeLe (maxSize d) h c ↔ ∀ a b, dist (coords n d c a) (coords n d c b) ≤ h := by
  have key : ∀ a b : Fin (n + 2), dist (coords n d c a) (coords n d c b) =
      maxSize d ((c[a.val]'(by rw [hc]; exact a.isLt)).pos - (c[b.val]'(by rw [hc]; exact b.isLt)).pos) := by
    intro a b
    rw [dist_eq_norm]
    change ‖coords n d c a - coords n d c b‖ = ‖(fun i : Fin d => (c[a.val]'(by rw [hc]; exact a.isLt)).pos i.val -
      (c[b.val]'(by rw [hc]; exact b.isLt)).pos i.val)‖
    congr 1
    funext i
    rw [Pi.sub_apply, coords_getElem c hc, coords_getElem c hc]
  rw [SizeLe, List.pairwise_iff_getElem]
  constructor
  · intro hs a b
    have h0 : 0 ≤ h := (apply_nonneg (maxSize d) _).trans (hs 0 1 (by omega) (by omega) (by omega))
    rcases lt_trichotomy a.val b.val with hab | hab | hab
    · rw [dist_comm, key]
      exact hs a.val b.val _ _ hab
    · rw [Fin.ext hab, dist_self]
      exact h0
    · rw [key]
      exact hs b.val a.val _ _ hab
  · intro hd i j hi hj hij
    have := hd ⟨j, by omega⟩ ⟨i, by omega⟩
    rwa [key] at this

theorem refine_nonneg (hn : n ≤ 2) (mesh : List (List (PNode ℝ))) (hc : ∀ c ∈ mesh, c.length = n + 2)
    (hv : ∀ c ∈ mesh, 0 ≤ simplexVolume (coords n (n + 1) c)) (N k : Nat) :
    ∀ e ∈ (tetra N k mesh).2, e.length = n + 2 ∧ 0 ≤ simplexVolume (coords n (n + 1) e) := by
  intro e he
  obtain ⟨c, h, hl, hvol, _⟩ := refine_children (n + 1) N k mesh hc (by omega) (by omega) e he
  refine ⟨hl, ?_⟩
  have h1 := hv c h
  rw [coords_volume hn c (hc c h)] at h1
  rw [coords_volume hn e hl, hvol, ← mul_div_assoc]
  positivity

/-- C88.  If the integrand varies by `ε` on the cells of the refined mesh, the error is at most `ε` times the volume of the mesh. -/
theorem refine_integral_variation (debug : Bool) (hn : n ≤ 2) {t : Table (n + 1)} (ht : Inside t) (hsum : (t.map Prod.snd).sum = 1)
    (mesh : List (List (PNode ℝ))) (hc : ∀ c ∈ mesh, c.length = n + 2) (hv : ∀ c ∈ mesh, 0 ≤ simplexVolume (coords n (n + 1) c))
    (f : Val (.vec (n + 1)) → ℝ) (hf : ContinuousOn f (meshDomain n (n + 1) mesh)) (N k : Nat) (ε : ℝ)
    (hε : ∀ e ∈ (tetra N k mesh).2, ∀ y ∈ meshHull n (n + 1) e, ∀ z ∈ meshHull n (n + 1) e, |f y - f z| ≤ ε) :
    ∃ i, integrate debug t (fun c => (cartesian (n + 1)).volume c.nodes) (meshCells n (n + 1) (tetra N k mesh).2) f = .value i ∧
      |i - (mesh.map fun c => ∫ y in meshHull n (n + 1) c, f y).sum| ≤
        ε * (mesh.map fun c => volume.real (meshHull n (n + 1) c)).sum := by
  refine ⟨_, integrate_value _ _ _ _ _ (meshCells_key _), ?_⟩
  have hsub : ∀ mesh' : List (List (PNode ℝ)), ∀ c ∈ mesh', meshHull n (n + 1) c ⊆ meshDomain n (n + 1) mesh' :=
    fun mesh' c h => Set.subset_biUnion_of_mem (u := meshHull n (n + 1)) (show c ∈ {c | c ∈ mesh'} from h)
  have hint : ∀ c ∈ mesh, IntegrableOn f (meshHull n (n + 1) c) := fun c h =>
    (hf.mono (hsub mesh c h)).integrableOn_compact (meshHull_compact c)
  have hint' : ∀ e ∈ (tetra N k mesh).2, IntegrableOn f (meshHull n (n + 1) e) := fun e he => by
    refine (hf.mono ?_).integrableOn_compact (meshHull_compact e)
    rw [← meshDomain_refine hn mesh hc N k]
    exact hsub _ e he
  rw [← refine_integral hn mesh hc N f hint k, ← refine_volume hn mesh hc N k]
  exact mesh_error hn _ (fun e he => (refine_nonneg hn mesh hc hv N k e he).2) f fun e he =>
    cell_error ht hsum (coords n (n + 1) e) f (hint' e he) (hε e he)

/-- C88.  On segments and triangles the error for integrands with Lipschitz constant `L` is at most `L h / 2 ^ N` times the volume of the
mesh, with `h` the size of the cells before `N` refinements. -/
theorem refine_integral_error (debug : Bool) (hn : n ≤ 1) {t : Table (n + 1)} (ht : Inside t) (hsum : (t.map Prod.snd).sum = 1)
    (mesh : List (List (PNode ℝ))) (hc : ∀ c ∈ mesh, c.length = n + 2) (hv : ∀ c ∈ mesh, 0 ≤ simplexVolume (coords n (n + 1) c))
    (h : ℝ) (hs : ∀ c ∈ mesh, ∀ a b, dist (coords n (n + 1) c a) (coords n (n + 1) c b) ≤ h)
    (f : Val (.vec (n + 1)) → ℝ) (L : NNReal) (hf : LipschitzOnWith L f (meshDomain n (n + 1) mesh)) (N k : Nat) :
    ∃ i, integrate debug t (fun c => (cartesian (n + 1)).volume c.nodes) (meshCells n (n + 1) (tetra N k mesh).2) f = .value i ∧
      |i - (mesh.map fun c => ∫ y in meshHull n (n + 1) c, f y).sum| ≤
        L * (h / 2 ^ N) * (mesh.map fun c => volume.real (meshHull n (n + 1) c)).sum := by
  refine refine_integral_variation debug (by omega) ht hsum mesh hc hv f hf.continuousOn N k _ fun e he y hy z hz => ?_
  have h1 := refine_size (maxSize (n + 1)) h N k mesh (fun c h' => by have := hc c h'; omega)
    (fun c h' => (coords_dist (hc c h')).mpr (hs c h')) e he
  have h2 := hull_dist ((coords_dist (refine_nonneg (by omega) mesh hc hv N k e he).1).mp h1) hy hz
  have hm : ∀ y ∈ meshHull n (n + 1) e, y ∈ meshDomain n (n + 1) mesh := fun y hy => by
    rw [← meshDomain_refine (by omega) mesh hc N k]
    exact Set.mem_biUnion (show e ∈ {e | e ∈ (tetra N k mesh).2} from he) hy
  have h3 := hf.dist_le_mul y (hm y hy) z (hm z hz)
  rw [Real.dist_eq] at h3
  exact h3.trans (mul_le_mul_of_nonneg_left h2 L.coe_nonneg)

/-- C88.  On tetrahedra the error is at most `L h / 2 ^ ⌊N / 2⌋` times the volume of the mesh. -/
theorem refine_integral_error_tetrahedra (debug : Bool) {t : Table 3} (ht : Inside t) (hsum : (t.map Prod.snd).sum = 1)
    (mesh : List (List (PNode ℝ))) (hc : ∀ c ∈ mesh, c.length = 4) (hv : ∀ c ∈ mesh, 0 ≤ simplexVolume (coords 2 3 c))
    (h : ℝ) (hs : ∀ c ∈ mesh, ∀ a b, dist (coords 2 3 c a) (coords 2 3 c b) ≤ h)
    (f : Val (.vec 3) → ℝ) (L : NNReal) (hf : LipschitzOnWith L f (meshDomain 2 3 mesh)) (N k : Nat) :
    ∃ i, integrate debug t (fun c => (cartesian 3).volume c.nodes) (meshCells 2 3 (tetra N k mesh).2) f = .value i ∧
      |i - (mesh.map fun c => ∫ y in meshHull 2 3 c, f y).sum| ≤
        L * (h / 2 ^ (N / 2)) * (mesh.map fun c => volume.real (meshHull 2 3 c)).sum := by
  refine refine_integral_variation debug le_rfl ht hsum mesh hc hv f hf.continuousOn N k _ fun e he y hy z hz => ?_
  have h1 := refine_size_tetrahedra (maxSize 3) h N k mesh hc (fun c h' => (coords_dist (hc c h')).mpr (hs c h')) e he
  have h2 := hull_dist ((coords_dist (refine_nonneg le_rfl mesh hc hv N k e he).1).mp h1) hy hz
  have hm : ∀ y ∈ meshHull 2 3 e, y ∈ meshDomain 2 3 mesh := fun y hy => by
    rw [← meshDomain_refine le_rfl mesh hc N k]
    exact Set.mem_biUnion (show e ∈ {e | e ∈ (tetra N k mesh).2} from he) hy
  have h3 := hf.dist_le_mul y (hm y hy) z (hm z hz)
  rw [Real.dist_eq] at h3
  exact h3.trans (mul_le_mul_of_nonneg_left h2 L.coe_nonneg)

/-- C88.  The order of convergence: if the rule integrates polynomials of degree `r` exactly and the integrand is smooth to the order
`r + 1` with constant `C`, then the error on a mesh of size `s` is at most `2 C s ^ (r + 1)` times the volume. -/
theorem refine_integral_order (debug : Bool) (hn : n ≤ 2) {t : Table (n + 1)} (ht : Inside t) (hsum : (t.map Prod.snd).sum = 1) {r : Nat}
    (hacc : Accurate (meanOver (n + 1)) t r 0)
    (mesh : List (List (PNode ℝ))) (hc : ∀ c ∈ mesh, c.length = n + 2) (hv : ∀ c ∈ mesh, 0 ≤ simplexVolume (coords n (n + 1) c))
    (h : ℝ) (hs : ∀ c ∈ mesh, ∀ a b, dist (coords n (n + 1) c a) (coords n (n + 1) c b) ≤ h)
    (f : Val (.vec (n + 1)) → ℝ) (hf : ContinuousOn f (meshDomain n (n + 1) mesh)) (C : ℝ) (hC : 0 ≤ C)
    (hT : TaylorOn f (meshDomain n (n + 1) mesh) r C) (N k : Nat) :
    ∃ i, integrate debug t (fun c => (cartesian (n + 1)).volume c.nodes) (meshCells n (n + 1) (tetra N k mesh).2) f = .value i ∧
      |i - (mesh.map fun c => ∫ y in meshHull n (n + 1) c, f y).sum| ≤
        2 * (C * (h / 2 ^ (if n = 2 then N / 2 else N)) ^ (r + 1)) * (mesh.map fun c => volume.real (meshHull n (n + 1) c)).sum := by
  refine ⟨_, integrate_value _ _ _ _ _ (meshCells_key _), ?_⟩
  have hsub : ∀ mesh' : List (List (PNode ℝ)), ∀ c ∈ mesh', meshHull n (n + 1) c ⊆ meshDomain n (n + 1) mesh' :=
    fun mesh' c h => Set.subset_biUnion_of_mem (u := meshHull n (n + 1)) (show c ∈ {c | c ∈ mesh'} from h)
  have hsub' : ∀ e ∈ (tetra N k mesh).2, meshHull n (n + 1) e ⊆ meshDomain n (n + 1) mesh := fun e he => by
    rw [← meshDomain_refine hn mesh hc N k]
    exact hsub _ e he
  have hint : ∀ c ∈ mesh, IntegrableOn f (meshHull n (n + 1) c) := fun c h =>
    (hf.mono (hsub mesh c h)).integrableOn_compact (meshHull_compact c)
  rw [← refine_integral hn mesh hc N f hint k, ← refine_volume hn mesh hc N k]
  refine mesh_error hn _ (fun e he => (refine_nonneg hn mesh hc hv N k e he).2) f fun e he => ?_
  have hl := (refine_nonneg hn mesh hc hv N k e he).1
  have hsz : ∀ a b, dist (coords n (n + 1) e a) (coords n (n + 1) e b) ≤ h / 2 ^ (if n = 2 then N / 2 else N) := by
    have hs' : ∀ c ∈ mesh, SizeLe (maxSize (n + 1)) h c := fun c h' => (coords_dist (hc c h')).mpr (hs c h')
    rw [← coords_dist hl]
    split
    · rename_i h2
      exact refine_size_tetrahedra (maxSize (n + 1)) h N k mesh (fun c h' => by have := hc c h'; omega) hs' e he
    · exact refine_size (maxSize (n + 1)) h N k mesh (fun c h' => by have := hc c h'; omega) hs' e he
  have hm : coords n (n + 1) e 0 ∈ meshHull n (n + 1) e := subset_convexHull ℝ _ (Set.mem_range_self 0)
  obtain ⟨p, hp, hpy⟩ := hT _ (hsub' e he hm)
  refine cell_order ht hsum hacc (coords n (n + 1) e) f ((hf.mono (hsub' e he)).integrableOn_compact (meshHull_compact e)) p hp
    fun y hy => (hpy y (hsub' e he hy)).trans ?_
  exact mul_le_mul_of_nonneg_left (pow_le_pow_left₀ dist_nonneg (hull_dist hsz hm hy) _) hC

/-- C88.  For every continuous integrand the value on the refined meshes tends to the integral. -/
theorem refine_integral_converges (debug : Bool) (hn : n ≤ 2) {t : Table (n + 1)} (ht : Inside t) (hsum : (t.map Prod.snd).sum = 1)
    (mesh : List (List (PNode ℝ))) (hc : ∀ c ∈ mesh, c.length = n + 2) (hv : ∀ c ∈ mesh, 0 ≤ simplexVolume (coords n (n + 1) c))
    (f : Val (.vec (n + 1)) → ℝ) (hf : ContinuousOn f (meshDomain n (n + 1) mesh)) (k : Nat) :
    ∃ i : Nat → ℝ, (∀ N, integrate debug t (fun c => (cartesian (n + 1)).volume c.nodes)
        (meshCells n (n + 1) (tetra N k mesh).2) f = .value (i N)) ∧
      Tendsto i atTop (𝓝 (mesh.map fun c => ∫ y in meshHull n (n + 1) c, f y).sum) := by
  refine ⟨fun N => _, fun N => integrate_value _ _ _ _ _ (meshCells_key _), ?_⟩
  rw [Metric.tendsto_atTop]
  intro ε hε
  set V := (mesh.map fun c => volume.real (meshHull n (n + 1) c)).sum
  have hV : 0 ≤ V := List.sum_nonneg fun x hx => by
    obtain ⟨c, _, rfl⟩ := List.mem_map.mp hx
    exact measureReal_nonneg
  have huc := (meshDomain_compact mesh).uniformContinuousOn_of_continuous hf
  rw [Metric.uniformContinuousOn_iff] at huc
  obtain ⟨δ, hδ, hu⟩ := huc (ε / (V + 1)) (by positivity)
  obtain ⟨N₀, hN⟩ := refine_size_tends (maxSize (n + 1)) k mesh (fun c h => by unfold IsCell; have := hc c h; omega) (δ / 2) (by positivity)
  refine ⟨N₀, fun N hNN => ?_⟩
  obtain ⟨i, hi, hb⟩ := refine_integral_variation debug hn ht hsum mesh hc hv f hf N k (ε / (V + 1)) fun e he y hy z hz => by
    have h2 := hull_dist ((coords_dist (refine_nonneg hn mesh hc hv N k e he).1).mp (hN N hNN e he)) hy hz
    have hm : ∀ y ∈ meshHull n (n + 1) e, y ∈ meshDomain n (n + 1) mesh := fun y hy => by
      rw [← meshDomain_refine hn mesh hc N k]
      exact Set.mem_biUnion (show e ∈ {e | e ∈ (tetra N k mesh).2} from he) hy
    have h3 := hu y (hm y hy) z (hm z hz) (by linarith)
    rw [Real.dist_eq] at h3
    exact h3.le
  rw [integrate_value _ _ _ _ _ (meshCells_key _)] at hi
  injection hi with hi
  rw [Real.dist_eq, hi]
  refine hb.trans_lt ?_
  change ε / (V + 1) * V < ε
  rw [div_mul_eq_mul_div, div_lt_iff₀ (by positivity)]
  nlinarith

/-- the sum of the integrals over the cells is the integral over the domain if the cells do not overlap -/
theorem mesh_integral (mesh : List (List (PNode ℝ))) (f : Val (.vec (n + 1)) → ℝ) (hf : ContinuousOn f (meshDomain n (n + 1) mesh))
    (hd : mesh.Pairwise fun c c' => volume (meshHull n (n + 1) c ∩ meshHull n (n + 1) c') = 0) :
    (mesh.map fun c => ∫ y in meshHull n (n + 1) c, f y).sum = ∫ y in meshDomain n (n + 1) mesh, f y := by
  induction mesh with
  | nil => simp [meshDomain]
  | cons c mesh ih =>
    rw [List.pairwise_cons] at hd
    rw [meshDomain_cons] at hf ⊢
    have h1 := hf.mono (Set.subset_union_left (s := meshHull n (n + 1) c) (t := meshDomain n (n + 1) mesh))
    have h2 := hf.mono (Set.subset_union_right (s := meshHull n (n + 1) c) (t := meshDomain n (n + 1) mesh))
    rw [List.map_cons, List.sum_cons, ih h2 hd.2, setIntegral_union₀ _ (meshDomain_compact mesh).measurableSet.nullMeasurableSet
      (h1.integrableOn_compact (meshHull_compact c)) (h2.integrableOn_compact (meshDomain_compact mesh))]
    rw [AEDisjoint, meshDomain, Set.inter_iUnion₂]
    exact (measure_biUnion_null_iff (Set.Finite.countable (List.finite_toSet mesh))).mpr hd.1

/-- the rules of the code whose weights add up to one -/
theorem rules_converge : (∀ t ∈ [segment1, segment2], Inside t ∧ (t.map Prod.snd).sum = 1) ∧
    (∀ t ∈ [triangle1, triangle2], Inside t ∧ (t.map Prod.snd).sum = 1) ∧
    ∀ t ∈ [tetrahedron1, tetrahedron2], Inside t ∧ (t.map Prod.snd).sum = 1 := by
  obtain ⟨h1, h2, h3, h4, _, _, h7, h8⟩ := tables_inside
  simp only [List.mem_cons, List.not_mem_nil, or_false, forall_eq_or_imp, forall_eq]
  refine ⟨⟨⟨h1, ?_⟩, h2, ?_⟩, ⟨⟨h3, ?_⟩, h4, ?_⟩, ⟨h7, ?_⟩, h8, ?_⟩ <;>
    norm_num [segment1, segment2, triangle1, triangle2, tetrahedron1, tetrahedron2]

/-- the unit triangle -/
def unitTriangle : List (PNode ℝ) :=
  [⟨0, fun _ => 0⟩, ⟨1, fun i => if i = 0 then 1 else 0⟩, ⟨2, fun i => if i = 1 then 1 else 0⟩]

theorem unitTriangle_volume : simplexVolume (coords 1 2 unitTriangle) = 1 / 2 := by
  rw [coords_volume (by norm_num) _ rfl]
  norm_num [unitTriangle, signedVolume, Nat.factorial]

theorem unitTriangle_size (a b : Fin 3) : dist (coords 1 2 unitTriangle a) (coords 1 2 unitTriangle b) ≤ 1 := by
  rw [dist_pi_le_iff (by norm_num)]
  intro i
  rw [Real.dist_eq]
  fin_cases a <;> fin_cases b <;> fin_cases i <;> norm_num [coords, unitTriangle]

/-- the midpoint rule for the absolute value of `x - y`, which is not differentiable, on the unit triangle -/
example (N : Nat) : ∃ i, integrate true triangle1 (fun c => (cartesian 2).volume c.nodes)
      (meshCells 1 2 (tetra N 3 [unitTriangle]).2) (fun x => |x 0 - x 1|) = .value i ∧
    |i - ∫ y in meshHull 1 2 unitTriangle, (|y 0 - y 1|)| ≤ 1 / 2 ^ N := by
  have hL : LipschitzOnWith 2 (fun x : Val (.vec 2) => |x 0 - x 1|) (meshDomain 1 2 [unitTriangle]) := by
    refine LipschitzOnWith.of_dist_le_mul fun x _ y _ => ?_
    have h0 := dist_le_pi_dist x y 0
    have h1 := dist_le_pi_dist x y 1
    rw [Real.dist_eq] at h0 h1 ⊢
    have h2 := abs_abs_sub_abs_le_abs_sub (x 0 - x 1) (y 0 - y 1)
    have h3 : |x 0 - x 1 - (y 0 - y 1)| ≤ |x 0 - y 0| + |x 1 - y 1| := by
      rw [show x 0 - x 1 - (y 0 - y 1) = (x 0 - y 0) - (x 1 - y 1) by ring]
      exact abs_sub _ _
    change _ ≤ (2 : ℝ) * _
    linarith
  obtain ⟨h1, h2⟩ := rules_converge.2.1 triangle1 (by simp)
  obtain ⟨i, hi, hb⟩ := refine_integral_error true (n := 1) (by norm_num) h1 h2 [unitTriangle] (by simp [unitTriangle])
    (by
      simp only [List.mem_singleton, forall_eq]
      exact le_of_le_of_eq (by norm_num) unitTriangle_volume.symm) 1
    (by simpa using unitTriangle_size) (fun x => |x 0 - x 1|) 2 hL N 3
  refine ⟨i, hi, ?_⟩
  simp only [List.map_cons, List.map_nil, List.sum_cons, List.sum_nil, add_zero] at hb
  refine hb.trans (le_of_eq ?_)
  rw [meshHull, volume_hull, unitTriangle_volume, abs_of_pos (by norm_num)]
  change (2 : ℝ) * _ * _ = _
  ring

/-- the square of a coordinate is smooth to the second order -/
theorem square_taylor (D : Set (Val (.vec 2))) : TaylorOn (fun x => x 0 ^ 2) D 1 1 := by
  intro x _
  refine ⟨MvPolynomial.C (2 * x 0) * MvPolynomial.X 0 - MvPolynomial.C (x 0 ^ 2), ?_, fun y _ => ?_⟩
  · refine (MvPolynomial.totalDegree_sub _ _).trans (max_le ?_ (by rw [MvPolynomial.totalDegree_C]; norm_num))
    refine (MvPolynomial.totalDegree_mul _ _).trans ?_
    rw [MvPolynomial.totalDegree_C, MvPolynomial.totalDegree_X]
  · have h0 := dist_le_pi_dist x y 0
    rw [Real.dist_eq, abs_sub_comm] at h0
    simp only [map_sub, map_mul, MvPolynomial.eval_C, MvPolynomial.eval_X, one_mul, Nat.reduceAdd]
    rw [show y 0 ^ 2 - (2 * x 0 * y 0 - x 0 ^ 2) = (y 0 - x 0) ^ 2 by ring, abs_of_nonneg (sq_nonneg _), ← sq_abs]
    exact pow_le_pow_left₀ (abs_nonneg _) h0 2

/-- the midpoint rule for the square of a coordinate on the unit triangle -/
example (N : Nat) : ∃ i, integrate true triangle1 (fun c => (cartesian 2).volume c.nodes)
      (meshCells 1 2 (tetra N 3 [unitTriangle]).2) (fun x => x 0 ^ 2) = .value i ∧
    |i - ∫ y in meshHull 1 2 unitTriangle, y 0 ^ 2| ≤ (1 / 2 ^ N) ^ 2 := by
  obtain ⟨h1, h2⟩ := rules_converge.2.1 triangle1 (by simp)
  obtain ⟨i, hi, hb⟩ := refine_integral_order true (n := 1) (by norm_num) h1 h2 (accurate_two triangle1_accurate) [unitTriangle]
    (by simp [unitTriangle])
    (by
      simp only [List.mem_singleton, forall_eq]
      exact le_of_le_of_eq (by norm_num) unitTriangle_volume.symm) 1
    (by simpa using unitTriangle_size) (fun x => x 0 ^ 2) ((continuous_apply 0).pow 2).continuousOn 1 zero_le_one
    (square_taylor _) N 3
  refine ⟨i, hi, ?_⟩
  simp only [List.map_cons, List.map_nil, List.sum_cons, List.sum_nil, add_zero] at hb
  refine hb.trans (le_of_eq ?_)
  rw [meshHull, volume_hull, unitTriangle_volume, abs_of_pos (by norm_num)]
  norm_num
  ring

end Mito.Quadrature
