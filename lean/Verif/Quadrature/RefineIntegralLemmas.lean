import Verif.Spec.RefineIntegral
import Verif.Props.Integrator
import Verif.Props.RefineShape
import Mathlib.Analysis.Normed.Affine.Convex

/-! # Helper lemmas for integrals on refined meshes -/

namespace Mito.Quadrature

open Mito.Functions Mito.Geometry Mito.Refine MeasureTheory

variable {n d : Nat}

/-! ### partitions -/

/-- sets that fill a set of the same measure as all of them together do not overlap -/
theorem integral_partition {E : Type*} [MeasurableSpace E] {μ : Measure E} (f : E → ℝ) (l : List (Set E))
    (hm : ∀ s ∈ l, MeasurableSet s) (hfin : ∀ s ∈ l, μ s ≠ ⊤)
    (hsum : (l.map μ.real).sum = μ.real (⋃ s ∈ l, s)) (hf : IntegrableOn f (⋃ s ∈ l, s) μ) :
    (l.map fun s => ∫ x in s, f x ∂μ).sum = ∫ x in ⋃ s ∈ l, s, f x ∂μ := by
  have hU : ∀ l : List (Set E), (∀ s ∈ l, MeasurableSet s) → MeasurableSet (⋃ s ∈ l, s) := fun l h =>
    MeasurableSet.biUnion (Set.Finite.countable (List.finite_toSet l)) h
  have hfU : ∀ l : List (Set E), (∀ s ∈ l, μ s ≠ ⊤) → μ (⋃ s ∈ l, s) ≠ ⊤ ∧ μ.real (⋃ s ∈ l, s) ≤ (l.map μ.real).sum := by
    intro l
    induction l with
    | nil => simp
    | cons s l ih =>
      intro h
      have hs := h s (List.mem_cons_self ..)
      obtain ⟨h1, h2⟩ := ih fun s' hs' => h s' (List.mem_cons_of_mem _ hs')
      have e : (⋃ s' ∈ s :: l, s') = s ∪ ⋃ s' ∈ l, s' := by simp [Set.iUnion_or, Set.iUnion_union_distrib]
      rw [e, List.map_cons, List.sum_cons]
      refine ⟨measure_union_ne_top hs h1, (measureReal_union_le _ _).trans ?_⟩
      linarith
  induction l with
  | nil => simp
  | cons s l ih =>
    have e : (⋃ s' ∈ s :: l, s') = s ∪ ⋃ s' ∈ l, s' := by simp [Set.iUnion_or, Set.iUnion_union_distrib]
    have hm' : ∀ s' ∈ l, MeasurableSet s' := fun s' h => hm s' (List.mem_cons_of_mem _ h)
    have hfin' : ∀ s' ∈ l, μ s' ≠ ⊤ := fun s' h => hfin s' (List.mem_cons_of_mem _ h)
    have hs := hfin s (List.mem_cons_self ..)
    obtain ⟨h1, h2⟩ := hfU l hfin'
    rw [e] at hsum hf ⊢
    have h3 := measureReal_union_add_inter (μ := μ) (s := s) (hU l hm') hs h1
    rw [List.map_cons, List.sum_cons] at hsum ⊢
    have h4 : 0 ≤ μ.real (s ∩ ⋃ s' ∈ l, s') := measureReal_nonneg
    have h5 : μ.real (s ∩ ⋃ s' ∈ l, s') = 0 := by linarith
    have h6 : (l.map μ.real).sum = μ.real (⋃ s' ∈ l, s') := by linarith
    rw [ih hm' hfin' h6 (hf.mono_set Set.subset_union_right),
      setIntegral_union₀ _ (hU l hm').nullMeasurableSet (hf.mono_set Set.subset_union_left) (hf.mono_set Set.subset_union_right)]
    rw [AEDisjoint]
    exact (measureReal_eq_zero_iff (measure_ne_top_of_subset Set.inter_subset_left hs)).mp h5

/-! ### the two descriptions of a cell -/

theorem coords_getElem (c : List (PNode ℝ)) (hc : c.length = n + 2) (a : Fin (n + 2)) (i : Fin d) :
    coords n d c a i = (c[a.val]'(by rw [hc]; exact a.isLt)).pos i.val := by
  rw [coords, List.getElem?_eq_getElem (by rw [hc]; exact a.isLt)]

theorem zipWith_sum (w : List ℝ) (c : List (PNode ℝ)) (hw : w.length = n + 2) (hc : c.length = n + 2) (i : Nat) :
    (List.zipWith (fun a p => a * PNode.pos p i) w c).sum =
      ∑ a : Fin (n + 2), w[a.val]'(by rw [hw]; exact a.isLt) * (c[a.val]'(by rw [hc]; exact a.isLt)).pos i := by
  rw [← Fin.sum_univ_getElem]
  have hl : (List.zipWith (fun a p => a * PNode.pos p i) w c).length = n + 2 := by simp [hw, hc]
  refine Fintype.sum_equiv (finCongr hl) _ _ fun a => ?_
  simp

theorem sum_getElem (w : List ℝ) (hw : w.length = n + 2) : w.sum = ∑ a : Fin (n + 2), w[a.val]'(by rw [hw]; exact a.isLt) := by
  rw [← Fin.sum_univ_getElem]
  exact Fintype.sum_equiv (finCongr hw) _ _ fun a => by simp

theorem hull_of_inHull {c : List (PNode ℝ)} (hc : c.length = n + 2) {x : Nat → ℝ} (h : InHull c x) :
    (fun i : Fin d => x i.val) ∈ meshHull n d c := by
  obtain ⟨w, hw, h0, h1, hx⟩ := h
  rw [hc] at hw
  refine mem_convexHull_of_exists_fintype (fun a : Fin (n + 2) => w[a.val]'(by rw [hw]; exact a.isLt)) (coords n d c)
    (fun a => h0 _ (List.getElem_mem _)) ?_ (fun a => Set.mem_range_self a) ?_
  · rw [← sum_getElem w hw, h1]
  · funext i
    rw [hx, zipWith_sum w c hw hc, Finset.sum_apply]
    refine Finset.sum_congr rfl fun a _ => ?_
    rw [Pi.smul_apply, smul_eq_mul, coords_getElem c hc]

theorem inHull_of_hull {c : List (PNode ℝ)} (hc : c.length = n + 2) {y : Val (.vec d)} (h : y ∈ meshHull n d c) :
    ∃ x, InHull c x ∧ ∀ i : Fin d, x i.val = y i := by
  rw [meshHull, ← parametrization_image] at h
  obtain ⟨ξ, hξ, rfl⟩ := h
  have hw : (List.ofFn (barycentric ξ)).length = n + 2 := by simp
  refine ⟨fun i => (List.zipWith (fun a p => a * PNode.pos p i) (List.ofFn (barycentric ξ)) c).sum,
    ⟨List.ofFn (barycentric ξ), by rw [hw, hc], ?_, ?_, fun i => rfl⟩, fun i => ?_⟩
  · intro a ha
    obtain ⟨j, rfl⟩ := (List.mem_ofFn' _ _).mp ha
    exact barycentric_nonneg hξ j
  · rw [List.sum_ofFn, barycentric_sum]
  · change (List.zipWith (fun a p => a * PNode.pos p i.val) (List.ofFn (barycentric ξ)) c).sum = _
    rw [zipWith_sum _ c hw hc, parametrization_barycentric, Finset.sum_apply]
    refine Finset.sum_congr rfl fun a _ => ?_
    rw [Pi.smul_apply, smul_eq_mul, coords_getElem c hc]
    rw [List.getElem_ofFn]

theorem coords_volume (hn : n ≤ 2) (c : List (PNode ℝ)) (hc : c.length = n + 2) :
    simplexVolume (coords n (n + 1) c) = ((n + 1).factorial : ℝ)⁻¹ * signedVolume 0 1 2 c := by
  rw [simplexVolume]
  congr 1
  match n, hn with
  | 0, _ =>
    match c, hc with
    | [a, b], _ => simp [coords, signedVolume]
  | 1, _ =>
    match c, hc with
    | [a, b, e], _ =>
      rw [Matrix.det_fin_two]
      simp [coords, signedVolume]
  | 2, _ =>
    match c, hc with
    | [a, b, e, f], _ =>
      rw [Matrix.det_fin_three]
      simp [coords, signedVolume]
      ring

theorem meshHull_compact (c : List (PNode ℝ)) : IsCompact (meshHull n d c) :=
  (Set.finite_range _).isCompact_convexHull ℝ

theorem meshDomain_compact (mesh : List (List (PNode ℝ))) : IsCompact (meshDomain n d mesh) :=
  (List.finite_toSet mesh).isCompact_biUnion fun c _ => meshHull_compact c

theorem meshDomain_cons (c : List (PNode ℝ)) (mesh : List (List (PNode ℝ))) :
    meshDomain n d (c :: mesh) = meshHull n d c ∪ meshDomain n d mesh := by
  simp [meshDomain, Set.iUnion_or, Set.iUnion_union_distrib]

/-- refinement keeps the domain -/
theorem meshDomain_refine (hn : n ≤ 2) (mesh : List (List (PNode ℝ))) (hc : ∀ c ∈ mesh, c.length = n + 2) (N k : Nat) :
    meshDomain n d (tetra N k mesh).2 = meshDomain n d mesh := by
  have hcell : ∀ c ∈ mesh, IsCell c := fun c h => by unfold IsCell; have := hc c h; omega
  have hl : ∀ e ∈ (tetra N k mesh).2, e.length = n + 2 := fun e he => by
    obtain ⟨_, _, h, _⟩ := refine_children (n + 1) N k mesh hc (by omega) (by omega) e he
    exact h
  ext y
  simp only [meshDomain, Set.mem_iUnion, exists_prop]
  constructor
  · rintro ⟨e, he, hy⟩
    obtain ⟨x, hx, hxy⟩ := inHull_of_hull (hl e he) hy
    obtain ⟨c, h, hcx⟩ := (refine_fills N k mesh hcell x).mp ⟨e, he, hx⟩
    exact ⟨c, h, by simpa [hxy] using hull_of_inHull (d := d) (hc c h) hcx⟩
  · rintro ⟨c, h, hy⟩
    obtain ⟨x, hx, hxy⟩ := inHull_of_hull (hc c h) hy
    obtain ⟨e, he, hex⟩ := (refine_fills N k mesh hcell x).mpr ⟨c, h, hx⟩
    exact ⟨e, he, by simpa [hxy] using hull_of_inHull (d := d) (hl e he) hex⟩

theorem meshHull_volume (hn : n ≤ 2) (c : List (PNode ℝ)) (hc : c.length = n + 2) :
    volume.real (meshHull n (n + 1) c) = ((n + 1).factorial : ℝ)⁻¹ * |signedVolume 0 1 2 c| := by
  rw [meshHull, volume_hull, coords_volume hn c hc, abs_mul, abs_of_nonneg (by positivity)]

/-- the parts of a cell have its volume -/
theorem refine_cell_volume (hn : n ≤ 2) (c : List (PNode ℝ)) (hc : c.length = n + 2) (N k : Nat) :
    ((tetra N k [c]).2.map fun e => volume.real (meshHull n (n + 1) e)).sum = volume.real (meshHull n (n + 1) c) := by
  have hc' : ∀ c' ∈ [c], c'.length = n + 1 + 1 := by simpa using hc
  have h1 := refine_count (n + 1) N k [c] hc' (by omega) (by omega)
  have h2 : ∀ e ∈ (tetra N k [c]).2, volume.real (meshHull n (n + 1) e) =
      volume.real (meshHull n (n + 1) c) / (2 ^ (n + 1)) ^ N := by
    intro e he
    obtain ⟨c', h', hl, hv, _⟩ := refine_children (n + 1) N k [c] hc' (by omega) (by omega) e he
    rw [List.mem_singleton.mp h'] at hv
    rw [meshHull_volume hn e hl, meshHull_volume hn c hc, hv, abs_div, abs_of_pos (a := ((2 : ℝ) ^ (n + 1)) ^ N) (by positivity), mul_div_assoc]
  rw [List.map_congr_left h2, List.map_const', List.sum_replicate, h1, nsmul_eq_mul]
  push_cast
  rw [List.length_singleton, Nat.cast_one, mul_one, mul_div_cancel₀ _ (by positivity)]

/-- the integral over a cell is the sum of the integrals over its parts -/
theorem refine_cell_integral (hn : n ≤ 2) (c : List (PNode ℝ)) (hc : c.length = n + 2) (N k : Nat) (f : Val (.vec (n + 1)) → ℝ)
    (hf : IntegrableOn f (meshHull n (n + 1) c)) :
    ((tetra N k [c]).2.map fun e => ∫ y in meshHull n (n + 1) e, f y).sum = ∫ y in meshHull n (n + 1) c, f y := by
  have e1 : (⋃ s ∈ (tetra N k [c]).2.map (meshHull n (n + 1)), s) = meshHull n (n + 1) c := by
    have := meshDomain_refine (d := n + 1) hn [c] (by simpa using hc) N k
    rw [meshDomain_cons] at this
    simpa [meshDomain] using this
  have h := integral_partition (μ := volume) f ((tetra N k [c]).2.map (meshHull n (n + 1)))
    (fun s hs => by
      obtain ⟨e, _, rfl⟩ := List.mem_map.mp hs
      exact (meshHull_compact e).measurableSet)
    (fun s hs => by
      obtain ⟨e, _, rfl⟩ := List.mem_map.mp hs
      exact (meshHull_compact e).measure_ne_top)
    (by
      rw [e1, ← refine_cell_volume hn c hc N k, List.map_map]
      rfl)
    (by rwa [e1])
  rw [e1, List.map_map] at h
  exact h

theorem refine_integral (hn : n ≤ 2) (mesh : List (List (PNode ℝ))) (hc : ∀ c ∈ mesh, c.length = n + 2) (N : Nat)
    (f : Val (.vec (n + 1)) → ℝ) (hf : ∀ c ∈ mesh, IntegrableOn f (meshHull n (n + 1) c)) (k : Nat) :
    ((tetra N k mesh).2.map fun e => ∫ y in meshHull n (n + 1) e, f y).sum =
      (mesh.map fun c => ∫ y in meshHull n (n + 1) c, f y).sum := by
  induction mesh generalizing k with
  | nil => cases N <;> simp [tetra, each]
  | cons c mesh ih =>
    have := refine_append N k [c] mesh
    rw [List.singleton_append] at this
    rw [this]
    simp only [List.map_append, List.sum_append, List.map_cons, List.sum_cons]
    rw [refine_cell_integral hn c (hc c (List.mem_cons_self ..)) N k f (hf c (List.mem_cons_self ..)),
      ih (fun c' h => hc c' (List.mem_cons_of_mem _ h)) (fun c' h => hf c' (List.mem_cons_of_mem _ h))]

theorem refine_volume (hn : n ≤ 2) (mesh : List (List (PNode ℝ))) (hc : ∀ c ∈ mesh, c.length = n + 2) (N k : Nat) :
    ((tetra N k mesh).2.map fun e => volume.real (meshHull n (n + 1) e)).sum =
      (mesh.map fun c => volume.real (meshHull n (n + 1) c)).sum := by
  have := refine_integral hn mesh hc N (fun _ => 1) (fun c _ => by
    exact (continuous_const.continuousOn).integrableOn_compact (meshHull_compact c)) k
  simpa using this

/-! ### the error on one cell -/

theorem hull_dist {x : Fin (n + 2) → Val (.vec d)} {h : ℝ} (hx : ∀ a b, dist (x a) (x b) ≤ h) {y z : Val (.vec d)}
    (hy : y ∈ convexHull ℝ (Set.range x)) (hz : z ∈ convexHull ℝ (Set.range x)) : dist y z ≤ h := by
  obtain ⟨_, ⟨a, rfl⟩, _, ⟨b, rfl⟩, hab⟩ := convexHull_exists_dist_ge2 hy hz
  exact hab.trans (hx a b)

theorem rule_mem {t : Table (n + 1)} (ht : Inside t) (p : (Fin (n + 1) → ℝ) × ℝ) (hp : p ∈ t.rule) :
    0 < p.2 ∧ p.1 ∈ Simplex (n + 1) 1 := by
  obtain ⟨q, hq, rfl⟩ := List.mem_map.mp hp
  obtain ⟨h1, h2, h3⟩ := ht q hq
  refine ⟨by simpa using h1, fun i => by simpa using (h2 i).le, ?_⟩
  have : ((∑ i, q.1 i : ℚ) : ℝ) ≤ ((1 : ℚ) : ℝ) := Rat.cast_le.mpr h3.le
  simpa using this

theorem rule_sum {t : Table (n + 1)} (ht : (t.map Prod.snd).sum = 1) : (t.rule.map Prod.snd).sum = 1 := by
  have h : ∀ t : Table (n + 1), (t.rule.map Prod.snd).sum = ((t.map Prod.snd).sum : ℚ) := by
    intro t
    induction t with
    | nil => simp [Table.rule]
    | cons p t ih =>
      simp only [Table.rule, List.map_cons, List.sum_cons] at ih ⊢
      rw [ih]
      push_cast
      ring
  rw [h, ht, Rat.cast_one]

/-- on a cell where the integrand varies by `ε` the error is at most `ε` times the volume -/
theorem cell_error {t : Table (n + 1)} (ht : Inside t) (hsum : (t.map Prod.snd).sum = 1) (x : Fin (n + 2) → Val (.vec (n + 1)))
    (f : Val (.vec (n + 1)) → ℝ) (hf : IntegrableOn f (convexHull ℝ (Set.range x))) {ε : ℝ}
    (hε : ∀ y ∈ convexHull ℝ (Set.range x), ∀ z ∈ convexHull ℝ (Set.range x), |f y - f z| ≤ ε) :
    |volume.real (convexHull ℝ (Set.range x)) * apply t (fun ξ => f ((parametrization x).eval ξ)) -
      ∫ y in convexHull ℝ (Set.range x), f y| ≤ ε * volume.real (convexHull ℝ (Set.range x)) := by
  set S := convexHull ℝ (Set.range x)
  set V := volume.real S
  have hS : IsCompact S := (Set.finite_range _).isCompact_convexHull ℝ
  have key : ∀ p ∈ t.rule, |V * f ((parametrization x).eval p.1) - ∫ y in S, f y| ≤ ε * V := by
    intro p hp
    have hm : (parametrization x).eval p.1 ∈ S := by
      rw [show S = _ from (parametrization_image x).symm]
      exact ⟨p.1, (rule_mem ht p hp).2, rfl⟩
    have h1 : V * f ((parametrization x).eval p.1) - ∫ y in S, f y = ∫ y in S, (f ((parametrization x).eval p.1) - f y) := by
      have hi : IntegrableOn (fun _ : Val (.vec (n + 1)) => f ((parametrization x).eval p.1)) S :=
        continuous_const.continuousOn.integrableOn_compact hS
      rw [integral_sub hi hf, setIntegral_const, smul_eq_mul]
    rw [h1, ← Real.norm_eq_abs]
    exact norm_setIntegral_le_of_norm_le_const hS.measure_lt_top fun y hy => by
      rw [Real.norm_eq_abs]
      exact hε _ hm y hy
  have h2 : V * apply t (fun ξ => f ((parametrization x).eval ξ)) - ∫ y in S, f y =
      (t.rule.map fun p => p.2 * (V * f ((parametrization x).eval p.1) - ∫ y in S, f y)).sum := by
    have h3 : ∀ l : List ((Fin (n + 1) → ℝ) × ℝ), (l.map fun p => p.2 * (V * f ((parametrization x).eval p.1) - ∫ y in S, f y)).sum =
        V * (l.map fun p => p.2 * f ((parametrization x).eval p.1)).sum - (l.map Prod.snd).sum * ∫ y in S, f y := by
      intro l
      induction l with
      | nil => simp
      | cons p l ih =>
        simp only [List.map_cons, List.sum_cons, ih]
        ring
    rw [h3, rule_sum hsum, one_mul, apply]
  rw [h2]
  have h4 : ∀ l : List ((Fin (n + 1) → ℝ) × ℝ), (∀ p ∈ l, p ∈ t.rule) →
      |(l.map fun p => p.2 * (V * f ((parametrization x).eval p.1) - ∫ y in S, f y)).sum| ≤ (l.map Prod.snd).sum * (ε * V) := by
    intro l
    induction l with
    | nil => simp
    | cons p l ih =>
      intro h
      have hp := h p (List.mem_cons_self ..)
      have h5 := ih fun q hq => h q (List.mem_cons_of_mem _ hq)
      have h6 := mul_le_mul_of_nonneg_left (key p hp) (rule_mem ht p hp).1.le
      rw [← abs_of_pos (rule_mem ht p hp).1, ← abs_mul, abs_of_pos (rule_mem ht p hp).1] at h6
      simp only [List.map_cons, List.sum_cons]
      calc _ ≤ _ := abs_add_le _ _
        _ ≤ _ := add_le_add h6 h5
        _ = _ := by ring
  have := h4 t.rule fun p hp => hp
  rwa [rule_sum hsum, one_mul] at this

theorem apply_abs_le {t : Table (n + 1)} (ht : Inside t) (hsum : (t.map Prod.snd).sum = 1) (g : (Fin (n + 1) → ℝ) → ℝ) {η : ℝ}
    (hg : ∀ ξ ∈ Simplex (n + 1) 1, |g ξ| ≤ η) : |apply t g| ≤ η := by
  have h4 : ∀ l : List ((Fin (n + 1) → ℝ) × ℝ), (∀ p ∈ l, p ∈ t.rule) →
      |(l.map fun p => p.2 * g p.1).sum| ≤ (l.map Prod.snd).sum * η := by
    intro l
    induction l with
    | nil => simp
    | cons p l ih =>
      intro h
      have hp := h p (List.mem_cons_self ..)
      have h5 := ih fun q hq => h q (List.mem_cons_of_mem _ hq)
      have h6 := mul_le_mul_of_nonneg_left (hg p.1 (rule_mem ht p hp).2) (rule_mem ht p hp).1.le
      rw [← abs_of_pos (rule_mem ht p hp).1, ← abs_mul, abs_of_pos (rule_mem ht p hp).1] at h6
      simp only [List.map_cons, List.sum_cons]
      calc _ ≤ _ := abs_add_le _ _
        _ ≤ _ := add_le_add h6 h5
        _ = _ := by ring
  have := h4 t.rule fun p hp => hp
  rwa [rule_sum hsum, one_mul] at this

theorem apply_sub (t : Table (n + 1)) (g g' : (Fin (n + 1) → ℝ) → ℝ) : apply t (fun ξ => g ξ - g' ξ) = apply t g - apply t g' := by
  unfold apply
  induction t.rule with
  | nil => simp
  | cons p l ih =>
    simp only [List.map_cons, List.sum_cons, ih]
    ring

/-- on a cell where the integrand is within `η` of a polynomial that the rule integrates the error is at most `2 η` times the volume -/
theorem cell_order {t : Table (n + 1)} (ht : Inside t) (hsum : (t.map Prod.snd).sum = 1) {r : Nat}
    (hacc : Accurate (meanOver (n + 1)) t r 0) (x : Fin (n + 2) → Val (.vec (n + 1)))
    (f : Val (.vec (n + 1)) → ℝ) (hf : IntegrableOn f (convexHull ℝ (Set.range x))) {η : ℝ} (p : MvPolynomial (Fin (n + 1)) ℝ)
    (hp : p.totalDegree ≤ r) (hη : ∀ y ∈ convexHull ℝ (Set.range x), |f y - MvPolynomial.eval y p| ≤ η) :
    |volume.real (convexHull ℝ (Set.range x)) * apply t (fun ξ => f ((parametrization x).eval ξ)) -
      ∫ y in convexHull ℝ (Set.range x), f y| ≤ 2 * η * volume.real (convexHull ℝ (Set.range x)) := by
  set S := convexHull ℝ (Set.range x)
  set V := volume.real S
  have hS : IsCompact S := (Set.finite_range _).isCompact_convexHull ℝ
  have hV : 0 ≤ V := measureReal_nonneg
  have hpi : IntegrableOn (fun y => MvPolynomial.eval y p) S :=
    (MvPolynomial.continuous_eval p).continuousOn.integrableOn_compact hS
  -- the rule is exact for the polynomial
  have h1 : V * apply t (fun ξ => MvPolynomial.eval ((parametrization x).eval ξ) p) = ∫ y in S, MvPolynomial.eval y p := by
    have h2 := hacc (Cell.pullback ⟨0, x⟩ p) ((pullback_degree _ p).trans hp)
    simp only [pullback_eval, zero_mul] at h2
    have h3 := sub_eq_zero.mp (abs_eq_zero.mp (le_antisymm h2 (abs_nonneg _)))
    rw [h3, integral_hull, ← volume_hull]
  have h2 : |apply t (fun ξ => f ((parametrization x).eval ξ) - MvPolynomial.eval ((parametrization x).eval ξ) p)| ≤ η := by
    refine apply_abs_le ht hsum _ fun ξ hξ => hη _ ?_
    rw [show S = _ from (parametrization_image x).symm]
    exact ⟨ξ, hξ, rfl⟩
  have h3 : |∫ y in S, (f y - MvPolynomial.eval y p)| ≤ η * V := by
    rw [← Real.norm_eq_abs]
    exact norm_setIntegral_le_of_norm_le_const hS.measure_lt_top fun y hy => by
      rw [Real.norm_eq_abs]
      exact hη y hy
  rw [apply_sub] at h2
  rw [integral_sub hf hpi] at h3
  have h4 := mul_le_mul_of_nonneg_left h2 hV
  rw [← abs_of_nonneg hV, ← abs_mul, abs_of_nonneg hV, mul_sub, h1] at h4
  rw [abs_le] at h3 h4 ⊢
  constructor <;> nlinarith [h3.1, h3.2, h4.1, h4.2]

theorem meshCells_key (mesh : List (List (PNode ℝ))) : ((meshCells n d mesh).map Cell.key).Nodup := by
  rw [meshCells, List.map_map]
  have : (Cell.key ∘ fun c : List (PNode ℝ) × Nat => (⟨c.2, coords n d c.1⟩ : Cell n d)) = Prod.snd := rfl
  rw [this, List.zipIdx_map_snd]
  exact List.nodup_range'

theorem meshCells_sum (mesh : List (List (PNode ℝ))) (g : (Fin (n + 2) → Val (.vec d)) → ℝ) :
    ((meshCells n d mesh).map fun c => g c.nodes).sum = (mesh.map fun c => g (coords n d c)).sum := by
  rw [meshCells, List.map_map]
  congr 1
  have : ((fun c : Cell n d => g c.nodes) ∘ fun c : List (PNode ℝ) × Nat => (⟨c.2, coords n d c.1⟩ : Cell n d)) =
      (fun c => g (coords n d c)) ∘ Prod.fst := rfl
  rw [this, ← List.map_map, List.zipIdx_map_fst]

/-- the error on a mesh from the errors on its cells -/
theorem mesh_error (hn : n ≤ 2) {t : Table (n + 1)} (mesh : List (List (PNode ℝ)))
    (hv : ∀ c ∈ mesh, 0 ≤ simplexVolume (coords n (n + 1) c)) (f : Val (.vec (n + 1)) → ℝ) {ε : ℝ}
    (hε : ∀ c ∈ mesh, |volume.real (meshHull n (n + 1) c) * apply t (fun ξ => f ((parametrization (coords n (n + 1) c)).eval ξ)) -
      ∫ y in meshHull n (n + 1) c, f y| ≤ ε * volume.real (meshHull n (n + 1) c)) :
    |quadratureSum t (fun c => (cartesian (n + 1)).volume c.nodes) (meshCells n (n + 1) mesh) f -
      (mesh.map fun c => ∫ y in meshHull n (n + 1) c, f y).sum| ≤
      ε * (mesh.map fun c => volume.real (meshHull n (n + 1) c)).sum := by
  have h0 := meshCells_sum (n := n) (d := n + 1) mesh fun x => (cartesian (n + 1)).volume x * apply t fun ξ => f ((parametrization x).eval ξ)
  rw [quadratureSum, h0]
  clear h0
  induction mesh with
  | nil => simp
  | cons c mesh ih =>
    have h1 := ih (fun c' h => hv c' (List.mem_cons_of_mem _ h)) (fun c' h => hε c' (List.mem_cons_of_mem _ h))
    have h2 := hε c (List.mem_cons_self ..)
    have h3 : (cartesian (n + 1)).volume (coords n (n + 1) c) = volume.real (meshHull n (n + 1) c) := by
      rw [volume_cartesian (by omega) (by omega), meshHull, volume_hull, abs_of_nonneg (hv c (List.mem_cons_self ..))]
    simp only [List.map_cons, List.sum_cons]
    rw [h3]
    rw [mul_add]
    refine le_trans (le_of_eq ?_) ((abs_add_le _ _).trans (add_le_add h2 h1))
    congr 1
    ring

end Mito.Quadrature
