import Verif.Quadrature.IntegratorLemmas
import Verif.Props.Quadrature
import Verif.Props.DiscreteField
import Mathlib.Topology.Algebra.MvPolynomial

/-! # C49, C74: integration on meshes -/

namespace Mito.Quadrature

open Mito.Functions Mito.Geometry MeasureTheory

variable {n d : Nat}

/-! ## C49 -/

theorem addCell_eq (f : Val (.vec d) → ℝ) (v : ℝ) (rule : List ((Fin (n + 1) → ℝ) × ℝ)) (φ : (Fin (n + 1) → ℝ) → Val (.vec d)) (r : ℝ) :
    addCell f v (rule.map fun p => φ p.1) (rule.map Prod.snd) r = r + v * (rule.map fun p => p.2 * f (φ p.1)).sum := by
  rw [addCell, List.zip_map']
  induction rule generalizing r with
  | nil => simp
  | cons p rule ih =>
    rw [List.map_cons, List.foldl_cons, ih]
    simp only [List.map_cons, List.sum_cons]
    ring

theorem inserted_map {κ V : Type} {α : Type} (l : List α) (k : α → κ) (v : α → V) :
    DiscreteField.inserted (l.map fun c => .insert (k c) (v c)) = l.map k := by
  induction l with
  | nil => rfl
  | cons a l ih => rw [List.map_cons, DiscreteField.inserted, ih, List.map_cons]

theorem valueOf_map {κ V : Type} [DecidableEq κ] {α : Type} (l : List α) (k : α → κ) (v : α → V) (q : κ) :
    DiscreteField.valueOf q (l.map fun c => .insert (k c) (v c)) = (l.find? fun c => k c = q).map v := by
  induction l with
  | nil => rfl
  | cons a l ih =>
    rw [List.map_cons, DiscreteField.valueOf, List.find?_cons]
    split
    · rename_i h
      have h1 : (l.map fun c => (DiscreteField.Op.insert (k c) (v c))).filterMap (DiscreteField.writes q) = [] := by
        rw [List.filterMap_eq_nil_iff]
        intro op hop
        obtain ⟨c, _, rfl⟩ := List.mem_map.mp hop
        rfl
      simp [h, h1]
    · rename_i h
      rw [ih]
      simp [h]

theorem integrateLoop_value {field : DiscreteField.Field Nat (List (Val (.vec d)))} (t : Table (n + 1)) (volume : Cell n d → ℝ)
    (f : Val (.vec d) → ℝ) (g : Cell n d → Cell n d) (cells : List (Cell n d))
    (h : ∀ c ∈ cells, DiscreteField.read field c.key = some (quadraturePoints t (g c))) (r : ℝ) :
    integrateLoop field t volume f cells r =
      .value (r + (cells.map fun c => volume c * apply t fun ξ => f ((parametrization (g c).nodes).eval ξ)).sum) := by
  induction cells generalizing r with
  | nil => simp [integrateLoop]
  | cons c cells ih =>
    rw [integrateLoop, h c (List.mem_cons_self ..)]
    simp only
    rw [ih fun c' hc' => h c' (List.mem_cons_of_mem _ hc'), quadraturePoints,
      addCell_eq f (volume c) t.rule (fun ξ => (parametrization (g c).nodes).eval ξ)]
    rw [List.map_cons, List.sum_cons, apply, ← add_assoc]

/-- if the cells have different simplices the integrator returns the sum over all cells and quadrature points -/
theorem integrate_value (debug : Bool) (t : Table (n + 1)) (volume : Cell n d → ℝ) (cells : List (Cell n d)) (f : Val (.vec d) → ℝ)
    (h : (cells.map Cell.key).Nodup) : integrate debug t volume cells f = .value (quadratureSum t volume cells f) := by
  have hi := inserted_map cells Cell.key (quadraturePoints t)
  have hs : (coordinatesField debug t cells).isSome = true := by
    have h1 : (coordinatesField true t cells).isSome = true := by
      rw [coordinatesField, DiscreteField.field_debug, hi]
      exact h
    cases debug with
    | true => exact h1
    | false =>
      obtain ⟨fl, hfl⟩ := Option.isSome_iff_exists.mp h1
      have := DiscreteField.field_release _ _ _ hfl
      rw [coordinatesField, this]
      rfl
  obtain ⟨field, hfield⟩ := Option.isSome_iff_exists.mp hs
  rw [integrate, hfield]
  simp only
  rw [integrateLoop_value t volume f id cells, zero_add]
  · rfl
  · intro c hc
    rw [DiscreteField.field_value debug _ field hfield, valueOf_map]
    have : (cells.find? fun c' => c'.key = c.key) = some c := by
      rw [List.find?_eq_some_iff_append]
      obtain ⟨l1, l2, rfl⟩ := List.append_of_mem hc
      refine ⟨by simp, l1, l2, rfl, fun c' hc' => ?_⟩
      rw [List.map_append, List.nodup_append] at h
      have := h.2.2 _ (List.mem_map_of_mem hc') _ (List.mem_map_of_mem (List.mem_cons_self ..))
      simpa using this
    rw [this]
    rfl

/-- In a debug build cells with the same simplex end the program. -/
theorem integrate_aborts (t : Table (n + 1)) (volume : Cell n d → ℝ) (cells : List (Cell n d)) (f : Val (.vec d) → ℝ) :
    integrate true t volume cells f = .aborts ↔ ¬ (cells.map Cell.key).Nodup := by
  constructor
  · intro h hn
    rw [integrate_value _ _ _ _ _ hn] at h
    exact Outcome.noConfusion h
  · intro hn
    have : coordinatesField true t cells = none := by
      rw [← Option.not_isSome_iff_eq_none, coordinatesField, DiscreteField.field_debug,
        inserted_map cells Cell.key (quadraturePoints t)]
      exact hn
    rw [integrate, this]

theorem run_release {κ V : Type} [DecidableEq κ] (ops : List (DiscreteField.Op κ V)) (f : DiscreteField.Field κ V) :
    (DiscreteField.run false f ops).isSome = true := by
  induction ops generalizing f with
  | nil => rfl
  | cons op ops ih =>
    rw [DiscreteField.run]
    cases op with
    | insert k v => simpa [DiscreteField.step] using ih _
    | write k v =>
      rw [DiscreteField.step]
      split
      · exact absurd ‹_› (by split <;> simp)
      · exact ih _

/-- In a release build the cells with the same simplex are integrated at the points of the first of them. -/
theorem integrate_release (t : Table (n + 1)) (volume : Cell n d → ℝ) (cells : List (Cell n d)) (f : Val (.vec d) → ℝ) :
    integrate false t volume cells f = .value ((cells.map fun c => volume c *
      apply t fun ξ => f ((parametrization ((cells.find? fun c' => c'.key = c.key).getD c).nodes).eval ξ)).sum) := by
  obtain ⟨field, hfield⟩ := Option.isSome_iff_exists.mp
    (run_release (cells.map fun c => .insert c.key (quadraturePoints t c)) ([] : DiscreteField.Field Nat _))
  rw [integrate, coordinatesField, hfield]
  simp only
  rw [integrateLoop_value t volume f (fun c => (cells.find? fun c' => c'.key = c.key).getD c) cells, zero_add]
  intro c hc
  rw [DiscreteField.field_value false _ field hfield, valueOf_map]
  have : (cells.find? fun c' => c'.key = c.key).isSome = true := by
    rw [List.find?_isSome]
    exact ⟨c, hc, by simp⟩
  obtain ⟨c', hc'⟩ := Option.isSome_iff_exists.mp this
  rw [hc']
  rfl

/-- the integral is linear -/
theorem integrate_linear (debug : Bool) (t : Table (n + 1)) (volume : Cell n d → ℝ) (cells : List (Cell n d)) (f g : Val (.vec d) → ℝ)
    (a b : ℝ) (h : (cells.map Cell.key).Nodup) : ∃ i j, integrate debug t volume cells f = .value i ∧
      integrate debug t volume cells g = .value j ∧ integrate debug t volume cells (fun x => a * f x + b * g x) = .value (a * i + b * j) := by
  refine ⟨_, _, integrate_value _ _ _ _ f h, integrate_value _ _ _ _ g h, ?_⟩
  rw [integrate_value _ _ _ _ _ h]
  congr 1
  have key : ∀ ξs : (Fin (n + 1) → ℝ) → Val (.vec d), (apply t fun ξ => a * f (ξs ξ) + b * g (ξs ξ)) =
      a * (apply t fun ξ => f (ξs ξ)) + b * apply t fun ξ => g (ξs ξ) := by
    intro ξs
    unfold apply
    induction t.rule with
    | nil => simp
    | cons p l ih =>
      simp only [List.map_cons, List.sum_cons, ih]
      ring
  unfold quadratureSum
  simp only [key]
  clear h
  induction cells with
  | nil => simp
  | cons c cells ih =>
    simp only [List.map_cons, List.sum_cons, ih]
    ring

/-- the integral over two meshes without a common simplex is the sum of the integrals -/
theorem integrate_append (debug : Bool) (t : Table (n + 1)) (volume : Cell n d → ℝ) (cells cells' : List (Cell n d))
    (f : Val (.vec d) → ℝ) (h : ((cells ++ cells').map Cell.key).Nodup) : ∃ i j, integrate debug t volume cells f = .value i ∧
      integrate debug t volume cells' f = .value j ∧ integrate debug t volume (cells ++ cells') f = .value (i + j) := by
  have h' := h
  rw [List.map_append, List.nodup_append] at h'
  refine ⟨_, _, integrate_value _ _ _ _ f h'.1, integrate_value _ _ _ _ f h'.2.1, ?_⟩
  rw [integrate_value _ _ _ _ _ h, quadratureSum, quadratureSum, quadratureSum, List.map_append, List.sum_append]

/-- the order of the cells does not matter -/
theorem integrate_perm (debug : Bool) (t : Table (n + 1)) (volume : Cell n d → ℝ) {cells cells' : List (Cell n d)}
    (f : Val (.vec d) → ℝ) (hp : cells.Perm cells') (h : (cells.map Cell.key).Nodup) :
    integrate debug t volume cells f = integrate debug t volume cells' f := by
  rw [integrate_value _ _ _ _ _ h, integrate_value _ _ _ _ _ ((hp.map _).nodup_iff.mp h), quadratureSum, quadratureSum,
    (hp.map _).sum_eq]

/-- constants are integrated to the constant times the total volume, times the sum of the weights -/
theorem integrate_const (debug : Bool) (t : Table (n + 1)) (volume : Cell n d → ℝ) (cells : List (Cell n d)) (k : ℝ)
    (h : (cells.map Cell.key).Nodup) : integrate debug t volume cells (fun _ => k) =
      .value (k * ((t.map Prod.snd).sum : ℚ) * (cells.map volume).sum) := by
  rw [integrate_value _ _ _ _ _ h]
  congr 1
  have h1 : (apply t fun _ => k) = k * ((t.map Prod.snd).sum : ℚ) := by
    unfold apply Table.rule
    induction t with
    | nil => simp
    | cons p t ih =>
      simp only [List.map_cons, List.sum_cons] at ih ⊢
      rw [ih]
      push_cast
      ring
  unfold quadratureSum
  simp only [h1]
  clear h h1
  induction cells with
  | nil => simp
  | cons c cells ih =>
    simp only [List.map_cons, List.sum_cons, ih]
    ring

/-- the tables whose weights sum to one give the volume exactly -/
theorem integrate_one (debug : Bool) (t : Table (n + 1)) (ht : (t.map Prod.snd).sum = 1) (volume : Cell n d → ℝ)
    (cells : List (Cell n d)) (k : ℝ) (h : (cells.map Cell.key).Nodup) :
    integrate debug t volume cells (fun _ => k) = .value (k * (cells.map volume).sum) := by
  rw [integrate_const _ _ _ _ _ h, ht, Rat.cast_one, mul_one]

/-! ## C74: accuracy on meshes -/

theorem accurate_one {t : Table 1} {r : Nat} {ε : ℝ} (h : Accurate mean1 t r ε) : Accurate (meanOver 1) t r ε := by
  intro p hp
  have := h p hp
  rw [mean1_simplex (MvPolynomial.continuous_eval p)] at this
  simpa [meanOver] using this

theorem accurate_two {t : Table 2} {r : Nat} {ε : ℝ} (h : Accurate mean2 t r ε) : Accurate (meanOver 2) t r ε := by
  intro p hp
  have := h p hp
  rw [mean2_simplex (MvPolynomial.continuous_eval p)] at this
  simpa [meanOver, Nat.factorial] using this

theorem accurate_three {t : Table 3} {r : Nat} {ε : ℝ} (h : Accurate mean3 t r ε) : Accurate (meanOver 3) t r ε := by
  intro p hp
  have := h p hp
  rw [mean3_simplex (MvPolynomial.continuous_eval p)] at this
  have h6 : ((Nat.factorial 3 : ℕ) : ℝ) = 6 := by norm_num [Nat.factorial]
  rw [meanOver, h6]
  exact this

/-- the volume that a manifold reports for a cell without reversed orientation is the Lebesgue measure of the cell -/
theorem volume_lebesgue (hn : n ≤ 2) (c : Cell n (n + 1)) :
    |(cartesian (n + 1)).volume c.nodes| = volume.real c.hull := by
  rw [volume_cartesian (by omega) (by omega), Cell.hull, volume_hull]

/-- polynomials of the degree of the rule are integrated over the cells -/
theorem integrate_accurate (debug : Bool) (hn : n ≤ 2) {t : Table (n + 1)} {r : Nat} {ε : ℝ} (ht : Accurate (meanOver (n + 1)) t r ε)
    (cells : List (Cell n (n + 1))) (hc : (cells.map Cell.key).Nodup) (hv : ∀ c ∈ cells, 0 ≤ simplexVolume c.nodes)
    (p : MvPolynomial (Fin (n + 1)) ℝ) (hp : p.totalDegree ≤ r) :
    ∃ i, integrate debug t (fun c => (cartesian (n + 1)).volume c.nodes) cells (fun x => MvPolynomial.eval x p) = .value i ∧
      |i - (cells.map fun c => ∫ y in c.hull, MvPolynomial.eval y p).sum| ≤
        ε * (cells.map fun c => volume.real c.hull * size (c.pullback p)).sum := by
  refine ⟨_, integrate_value _ _ _ _ _ hc, ?_⟩
  unfold quadratureSum
  clear hc
  induction cells with
  | nil => simp
  | cons c cells ih =>
    have h1 := ih fun c' hc' => hv c' (List.mem_cons_of_mem _ hc')
    have hc := hv c (List.mem_cons_self ..)
    have h2 := ht (c.pullback p) ((pullback_degree c p).trans hp)
    simp only [pullback_eval] at h2
    simp only [List.map_cons, List.sum_cons]
    have h3 : ∫ y in c.hull, MvPolynomial.eval y p = simplexVolume c.nodes *
        meanOver (n + 1) fun ξ => MvPolynomial.eval ((parametrization c.nodes).eval ξ) p := by
      rw [Cell.hull, integral_hull, abs_of_nonneg hc]
    have h4 : volume.real c.hull = simplexVolume c.nodes := by rw [Cell.hull, volume_hull, abs_of_nonneg hc]
    rw [h3, h4, volume_cartesian (by omega) (by omega)]
    set V := simplexVolume c.nodes
    have h5 := mul_le_mul_of_nonneg_left h2 hc
    rw [← abs_of_nonneg hc, ← abs_mul, abs_of_nonneg hc] at h5
    rw [mul_sub] at h5
    calc _ = |(V * apply t (fun ξ => MvPolynomial.eval ((parametrization c.nodes).eval ξ) p) -
            V * meanOver (n + 1) fun ξ => MvPolynomial.eval ((parametrization c.nodes).eval ξ) p) + _| := by
          congr 1
          ring
      _ ≤ _ := abs_add_le _ _
      _ ≤ _ := add_le_add h5 h1
      _ = _ := by ring

/-- the exact rules give the integral over the domain that the cells fill -/
theorem integrate_exact (debug : Bool) (hn : n ≤ 2) {t : Table (n + 1)} {r : Nat} (ht : Accurate (meanOver (n + 1)) t r 0)
    (cells : List (Cell n (n + 1))) (hc : (cells.map Cell.key).Nodup) (hv : ∀ c ∈ cells, 0 ≤ simplexVolume c.nodes)
    (hd : cells.Pairwise fun c c' => volume (c.hull ∩ c'.hull) = 0)
    (p : MvPolynomial (Fin (n + 1)) ℝ) (hp : p.totalDegree ≤ r) :
    integrate debug t (fun c => (cartesian (n + 1)).volume c.nodes) cells (fun x => MvPolynomial.eval x p) =
      .value (∫ y in ⋃ c ∈ cells, c.hull, MvPolynomial.eval y p) := by
  obtain ⟨i, hi, h⟩ := integrate_accurate debug hn ht cells hc hv p hp
  rw [zero_mul] at h
  have h1 := sub_eq_zero.mp (abs_eq_zero.mp (le_antisymm h (abs_nonneg _)))
  rw [hi, h1]
  congr 1
  clear hi h h1 hc hv
  have hm : ∀ c : Cell n (n + 1), IsCompact c.hull := by
    intro c
    rw [Cell.hull, image_edges]
    refine (simplex_compact (n + 1) 1).image ?_
    exact continuous_const.add (LinearMap.continuous_of_finiteDimensional (Matrix.toLin' (edges c.nodes)))
  have hm' : ∀ l : List (Cell n (n + 1)), IsCompact (⋃ c ∈ l, c.hull) := by
    intro l
    induction l with
    | nil => simp
    | cons c l ih => simpa [Set.iUnion_or, Set.iUnion_union_distrib] using (hm c).union ih
  have hint : ∀ s : Set (Val (.vec (n + 1))), IsCompact s → IntegrableOn (fun y => MvPolynomial.eval y p) s := fun s hs =>
    (MvPolynomial.continuous_eval p).continuousOn.integrableOn_compact hs
  induction cells with
  | nil => simp
  | cons c cells ih =>
    rw [List.pairwise_cons] at hd
    rw [List.map_cons, List.sum_cons, ih hd.2]
    have hU : (⋃ c' ∈ c :: cells, c'.hull) = c.hull ∪ ⋃ c' ∈ cells, c'.hull := by
      simp [Set.iUnion_or, Set.iUnion_union_distrib]
    rw [hU, setIntegral_union₀ _ (hm' cells).measurableSet.nullMeasurableSet (hint _ (hm c)) (hint _ (hm' cells))]
    rw [AEDisjoint, Set.inter_iUnion₂]
    exact (measure_biUnion_null_iff (Set.Finite.countable (List.finite_toSet cells))).mpr hd.1

/-- the rules of segments, triangles and tetrahedra on meshes -/
theorem integrate_tables (debug : Bool) :
    (∀ cells : List (Cell 0 1), (cells.map Cell.key).Nodup → (∀ c ∈ cells, 0 ≤ simplexVolume c.nodes) →
      cells.Pairwise (fun c c' => volume (c.hull ∩ c'.hull) = 0) → ∀ p : MvPolynomial (Fin 1) ℝ, p.totalDegree ≤ 1 →
      integrate debug segment1 (fun c => (cartesian 1).volume c.nodes) cells (fun x => MvPolynomial.eval x p) =
        .value (∫ y in ⋃ c ∈ cells, c.hull, MvPolynomial.eval y p)) ∧
    (∀ cells : List (Cell 1 2), (cells.map Cell.key).Nodup → (∀ c ∈ cells, 0 ≤ simplexVolume c.nodes) →
      cells.Pairwise (fun c c' => volume (c.hull ∩ c'.hull) = 0) →
      (∀ p : MvPolynomial (Fin 2) ℝ, p.totalDegree ≤ 1 →
        integrate debug triangle1 (fun c => (cartesian 2).volume c.nodes) cells (fun x => MvPolynomial.eval x p) =
          .value (∫ y in ⋃ c ∈ cells, c.hull, MvPolynomial.eval y p)) ∧
      ∀ p : MvPolynomial (Fin 2) ℝ, p.totalDegree ≤ 2 →
        integrate debug triangle2 (fun c => (cartesian 2).volume c.nodes) cells (fun x => MvPolynomial.eval x p) =
          .value (∫ y in ⋃ c ∈ cells, c.hull, MvPolynomial.eval y p)) ∧
    (∀ cells : List (Cell 2 3), (cells.map Cell.key).Nodup → (∀ c ∈ cells, 0 ≤ simplexVolume c.nodes) →
      cells.Pairwise (fun c c' => volume (c.hull ∩ c'.hull) = 0) → ∀ p : MvPolynomial (Fin 3) ℝ, p.totalDegree ≤ 1 →
      integrate debug tetrahedron1 (fun c => (cartesian 3).volume c.nodes) cells (fun x => MvPolynomial.eval x p) =
        .value (∫ y in ⋃ c ∈ cells, c.hull, MvPolynomial.eval y p)) :=
  ⟨fun cells hc hv hd p hp => integrate_exact debug (by norm_num) (accurate_one segment1_accurate) cells hc hv hd p hp,
   fun cells hc hv hd => ⟨fun p hp => integrate_exact debug (by norm_num) (accurate_two triangle1_accurate) cells hc hv hd p hp,
    fun p hp => integrate_exact debug (by norm_num) (accurate_two triangle2_accurate) cells hc hv hd p hp⟩,
   fun cells hc hv hd p hp => integrate_exact debug (by norm_num) (accurate_three tetrahedron1_accurate) cells hc hv hd p hp⟩

/-- every rule of the code, up to the accuracy of its decimals -/
theorem rules_accurate :
    Accurate (meanOver 1) segment1 1 1e-15 ∧ Accurate (meanOver 1) segment2 2 1e-15 ∧
    Accurate (meanOver 2) triangle1 1 1e-15 ∧ Accurate (meanOver 2) triangle2 2 1e-15 ∧ Accurate (meanOver 2) triangle3 3 1e-15 ∧
    Accurate (meanOver 2) triangle4 4 1e-15 ∧ Accurate (meanOver 3) tetrahedron1 1 1e-15 ∧
    Accurate (meanOver 3) tetrahedron2 2 1e-15 := by
  obtain ⟨h1, h2, h3, h4, h5, h6, h7, h8⟩ := tables_accurate
  exact ⟨accurate_one h1, accurate_one h2, accurate_two h3, accurate_two h4, accurate_two h5, accurate_two h6, accurate_three h7,
    accurate_three h8⟩

/-! ## The premises can be met -/

/-- the lower right half of the unit square -/
def lower : Cell 1 2 := ⟨0, ![![0, 0], ![1, 0], ![1, 1]]⟩

/-- the upper left half of the unit square -/
def upper : Cell 1 2 := ⟨1, ![![0, 0], ![1, 1], ![0, 1]]⟩

theorem lower_volume : simplexVolume lower.nodes = 1 / 2 := by
  rw [simplexVolume, Matrix.det_fin_two]
  simp [lower]

theorem upper_volume : simplexVolume upper.nodes = 1 / 2 := by
  rw [simplexVolume, Matrix.det_fin_two]
  simp [upper]

theorem mem_lower {y : Val (.vec 2)} (h : y ∈ lower.hull) : y 1 ≤ y 0 := by
  rw [Cell.hull, ← parametrization_image] at h
  obtain ⟨ξ, ⟨h1, h2⟩, rfl⟩ := h
  have h3 := h1 0
  rw [Fem.tri_parametrization, Fem.tri_parametrization]
  have h4 := h1 1
  rw [Fin.sum_univ_two] at h2
  simp [lower]
  linarith

theorem mem_upper {y : Val (.vec 2)} (h : y ∈ upper.hull) : y 0 ≤ y 1 := by
  rw [Cell.hull, ← parametrization_image] at h
  obtain ⟨ξ, ⟨h1, h2⟩, rfl⟩ := h
  have h3 := h1 0
  rw [Fem.tri_parametrization, Fem.tri_parametrization]
  have h4 := h1 1
  rw [Fin.sum_univ_two] at h2
  simp [upper]
  linarith

/-- the diagonal of the plane is a null set -/
theorem diagonal_null : volume {y : Val (.vec 2) | y 0 = y 1} = 0 := by
  have h : {y : Val (.vec 2) | y 0 = y 1} =
      (LinearMap.ker ((LinearMap.proj 0 : (Fin 2 → ℝ) →ₗ[ℝ] ℝ) - LinearMap.proj 1) : Set (Fin 2 → ℝ)) := by
    ext y
    simp [sub_eq_zero]
  rw [h]
  refine Measure.addHaar_submodule _ _ fun hk => ?_
  have : (![1, 0] : Fin 2 → ℝ) ∈ LinearMap.ker ((LinearMap.proj 0 : (Fin 2 → ℝ) →ₗ[ℝ] ℝ) - LinearMap.proj 1) := by
    rw [hk]
    trivial
  simp at this

example : ([lower, upper].map Cell.key).Nodup ∧ (∀ c ∈ [lower, upper], 0 ≤ simplexVolume c.nodes) ∧
    [lower, upper].Pairwise (fun c c' => volume (c.hull ∩ c'.hull) = 0) := by
  refine ⟨by simp [lower, upper], ?_, ?_⟩
  · intro c hc
    simp only [List.mem_cons, List.not_mem_nil, or_false] at hc
    rcases hc with rfl | rfl
    · rw [lower_volume]; norm_num
    · rw [upper_volume]; norm_num
  · simp only [List.pairwise_cons, List.mem_cons, List.not_mem_nil, or_false, forall_eq, false_imp_iff, implies_true, List.Pairwise.nil,
      and_true]
    exact measure_mono_null (fun y hy => le_antisymm (mem_upper hy.2) (mem_lower hy.1)) diagonal_null

/-- the integral of `x y` over the square -/
example : integrate true triangle2 (fun c => simplexVolume c.nodes) [lower, upper] (fun x => x 0 * x 1) = .value (1 / 4) := by
  rw [integrate_value _ _ _ _ _ (by simp [lower, upper])]
  simp only [quadratureSum, List.map_cons, List.map_nil, List.sum_cons, List.sum_nil, lower_volume, upper_volume, apply, Table.rule,
    triangle2, Fem.tri_parametrization]
  simp [lower, upper]
  norm_num

/-- two cells with the same simplex -/
example : integrate true triangle2 (fun c => simplexVolume c.nodes) [lower, lower] (fun _ => 1) = .aborts := by
  rw [integrate_aborts]
  simp

end Mito.Quadrature
