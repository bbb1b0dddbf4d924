import Verif.Fem.WeakformsLemmas
import Verif.Props.PoissonElements
import Verif.Props.Elements

/-!
# C107: weak forms with gradient and mass blocks

The system of a weak form is solvable exactly when its blocks see every function of the space at their quadrature points.  With a mass
block no constraints are needed, provided that the rule determines the functions of an element; the rules of degree 1 of mito never do
and that of degree 2 does not for quadratic triangles.  Solving with a mass block alone yields the best approximation, in the norm that
`compute_l2_norm` computes.
-/

namespace Mito.Fem

open Mito.Functions Mito.DiscreteSystem Mito.Geometry Mito.Assoc

variable {d n : Nat} {lhs : List (LhsBlock d)} {rhs : List (RhsBlock d)} {space : Space Nat d n} {constrained : List Nat}

/-- **C107.**  The weak form of the Poisson problem is one of these weak forms. -/
theorem weakform_poisson (rule : Rule d) (f : Expr (.vec d) .scalar) (space : Space Nat d n) :
    weakform [.gradGrad rule] [⟨f, rule⟩] space = poisson rule (fun x => f.eval x ()) space := rfl

/-- **C107.**  The system is regular exactly if the blocks together see every function of the space that is not zero. -/
theorem weakform_wellposed_iff (h : Sound lhs space) : WellPosed lhs rhs space constrained ↔
    ∀ u, Admissible (functionSpace space constrained) u → (∀ ec ∈ space, Unseen lhs ec.1 fun a => u (ec.2 a)) →
      ∀ ec ∈ space, ∀ a, u (ec.2 a) = 0 := by
  unfold WellPosed
  rw [isUnit_iff_ne_zero, ne_eq, det_eq_zero_iff]
  constructor
  · intro hK u hu hz ec hec a
    by_contra hne
    exact hK ⟨u, hu, ⟨_, mem_nodes.mpr ⟨ec, hec, a, rfl⟩, hne⟩, fun w _ => unseen_form h hz w⟩
  · rintro hz ⟨u, hu, ⟨x, hx, hne⟩, hform⟩
    obtain ⟨ec, hec, a, rfl⟩ := mem_nodes.mp hx
    exact hne (hz u hu ((energy_zero_iff h u).mp (hform u hu)) ec hec a)

/-- **C107.**  With a mass block whose rule determines the functions of each element, every system is regular, without constraints too. -/
theorem mass_wellposed (h : Sound lhs space) {rule : Rule d} (hm : .mass rule ∈ lhs) (hu : ∀ ec ∈ space, Unisolvent rule ec.1) :
    WellPosed lhs rhs space constrained :=
  (weakform_wellposed_iff h).mpr fun u _ hz ec hec a =>
    hu ec hec (fun a => u (ec.2 a)) (fun p hp hpos => hz ec hec _ hm p hp hpos) a

/-- **C107.**  With a gradient block whose rule does not underintegrate and a mass block with any rule, every system is regular. -/
theorem reaction_wellposed (h : Sound lhs space) {r r' : Rule d} (hg : .gradGrad r ∈ lhs) (hm : .mass r' ∈ lhs)
    (hs : ∀ ec ∈ space, Stiff r ec.1) (hp : ∃ p ∈ r', 0 < p.2) (he : ∀ ec ∈ space, IsElement ec.1) :
    WellPosed lhs rhs space constrained := by
  refine (weakform_wellposed_iff h).mpr fun u _ hz ec hec a => ?_
  have hc : ∀ a b, u (ec.2 a) = u (ec.2 b) := by
    refine (hs ec hec).definite (fun a => u (ec.2 a)) ?_
    rw [gradGrad_form]
    refine List.sum_eq_zero fun y hy => ?_
    obtain ⟨p, hp, rfl⟩ := List.mem_map.mp hy
    rcases (h.1 _ hg p hp).eq_or_lt with h0 | hpos
    · simp [factor, ← h0]
    · have := hz ec hec _ hg p hp hpos
      simp only [LhsBlock.Blind] at this
      simp [this]
  obtain ⟨p, hp, hpos⟩ := hp
  have h1 := hz ec hec _ hm p hp hpos
  simp only [LhsBlock.Blind] at h1
  rw [Finset.sum_congr rfl fun b _ => by rw [hc b a], ← Finset.mul_sum, shape_sum (he ec hec), mul_one] at h1
  exact h1

/-- **C107.**  A mass block alone is singular if there are more equations than quadrature points. -/
theorem mass_singular {rule : Rule d} (h : Sound [.mass rule] space)
    (hn : space.length * rule.length < (buildEquationMap (functionSpace space constrained)).2) :
    ¬ WellPosed [.mass rule] rhs space constrained := by
  classical
  rw [weakform_wellposed_iff h]
  intro hz
  let N := (buildEquationMap (functionSpace space constrained)).2
  let ext : (Fin N → ℝ) → Nat → ℝ := fun v => DiscreteSystem.extend (functionSpace space constrained) fun j =>
    if h : j < N then v ⟨j, h⟩ else 0
  have hadd : ∀ v w x, ext (v + w) x = ext v x + ext w x := by
    intro v w x
    simp only [ext, DiscreteSystem.extend]
    rcases equationOf (buildEquationMap (functionSpace space constrained)).1 x with _ | i
    · simp
    · simp only [Option.map_some, Option.getD_some]
      split <;> simp
  have hsmul : ∀ (c : ℝ) v x, ext (c • v) x = c * ext v x := by
    intro c v x
    simp only [ext, DiscreteSystem.extend]
    rcases equationOf (buildEquationMap (functionSpace space constrained)).1 x with _ | i
    · simp
    · simp only [Option.map_some, Option.getD_some]
      split <;> simp
  let L : (Fin N → ℝ) →ₗ[ℝ] (Fin space.length × Fin rule.length → ℝ) :=
    { toFun := fun v ep => ∑ a, ext v (space[ep.1].2 a) * (space[ep.1].1.shape a).eval rule[ep.2].1 ()
      map_add' := by
        intro v w
        funext ep
        simp only [hadd, add_mul, Finset.sum_add_distrib, Pi.add_apply]
      map_smul' := by
        intro c v
        funext ep
        simp only [hsmul, mul_assoc, ← Finset.mul_sum, Pi.smul_apply, smul_eq_mul, RingHom.id_apply] }
  have hker : L.ker ≠ ⊥ := by
    refine LinearMap.ker_ne_bot_of_finrank_lt ?_
    simpa [Module.finrank_fintype_fun_eq_card] using hn
  obtain ⟨v, hv, hv0⟩ := (Submodule.ne_bot_iff _).mp hker
  refine hv0 (funext fun i => ?_)
  obtain ⟨x, hx⟩ := (equations_number (functionSpace space constrained)).1.surj i i.isLt
  obtain ⟨ec, hec, a, rfl⟩ := mem_nodes.mp
    (((equations_number (functionSpace space constrained)).1.isSome x).mp (by rw [hx]; rfl)).1
  have := hz (ext v) (extend_admissible _ _) (fun ec hec b hb p hp _ => ?_) ec hec a
  · simpa [ext, DiscreteSystem.extend, hx, N] using this
  · obtain rfl := List.mem_singleton.mp hb
    obtain ⟨e, he, rfl⟩ := List.getElem_of_mem hec
    obtain ⟨q, hq, rfl⟩ := List.getElem_of_mem hp
    exact congrFun (LinearMap.mem_ker.mp hv) (⟨e, he⟩, ⟨q, hq⟩)

/-! ## The rules of mito -/

/-- **C107.**  For segments, the rule of degree 2 determines the functions, that of degree 1 does not. -/
theorem unisolvent_seg1 (x : Fin 2 → Val (.vec 1)) :
    ¬ Unisolvent Quadrature.segment1.rule (segP1 x) ∧ Unisolvent Quadrature.segment2.rule (segP1 x) := by
  constructor
  · intro h
    have := h ![1, -1] (by
      simp [Quadrature.Table.rule, Quadrature.segment1, segP1, Fin.sum_univ_two, seg1_eval]
      norm_num) 0
    simp at this
  · intro u hu
    simp [Quadrature.Table.rule, Quadrature.segment2, segP1, Fin.sum_univ_two, seg1_eval] at hu
    norm_num at hu
    obtain ⟨h1, h2⟩ := hu
    intro a
    fin_cases a
    · simp; linarith
    · simp; linarith

/-- **C107.**  For linear triangles, all rules but that of degree 1 determine the functions. -/
theorem unisolvent_tri1 (x : Fin 3 → Val (.vec 2)) :
    ¬ Unisolvent Quadrature.triangle1.rule (triP1 x) ∧ Unisolvent Quadrature.triangle2.rule (triP1 x) ∧
      Unisolvent Quadrature.triangle3.rule (triP1 x) ∧ Unisolvent Quadrature.triangle4.rule (triP1 x) := by
  refine ⟨fun h => ?_, fun u hu => ?_, fun u hu => ?_, fun u hu => ?_⟩
  · have := h ![1, -1, 0] (by
      simp [Quadrature.Table.rule, Quadrature.triangle1, triP1, Fin.sum_univ_three, tri1_eval]) 0
    simp at this
  · simp [Quadrature.Table.rule, Quadrature.triangle2, triP1, Fin.sum_univ_three, tri1_eval] at hu
    norm_num at hu
    obtain ⟨h1, h2, h3⟩ := hu
    intro a
    fin_cases a <;> simp <;> linarith
  · simp [Quadrature.Table.rule, Quadrature.triangle3, triP1, Fin.sum_univ_three, tri1_eval] at hu
    norm_num at hu
    obtain ⟨h1, h2, h3, -⟩ := hu
    intro a
    fin_cases a <;> simp <;> linarith
  · simp [Quadrature.Table.rule, Quadrature.triangle4, triP1, Fin.sum_univ_three, tri1_eval] at hu
    norm_num at hu
    obtain ⟨h1, h2, h3, -⟩ := hu
    intro a
    fin_cases a <;> simp <;> linarith

/-- **C107.**  For quadratic triangles, the rules of degree 3 and 4 determine the functions, those of degree 1 and 2 do not. -/
theorem unisolvent_tri2 (x : Fin 3 → Val (.vec 2)) :
    ¬ Unisolvent Quadrature.triangle1.rule (triP2 x) ∧ ¬ Unisolvent Quadrature.triangle2.rule (triP2 x) ∧
      Unisolvent Quadrature.triangle3.rule (triP2 x) ∧ Unisolvent Quadrature.triangle4.rule (triP2 x) := by
  refine ⟨fun h => ?_, fun h => ?_, fun u hu => ?_, fun u hu => ?_⟩
  · have := h ![1, -1, 0, 0, 0, 0] (by
      simp [Quadrature.Table.rule, Quadrature.triangle1, triP2, Fin.sum_univ_six, tri2_eval]) 0
    simp at this
  · have := h ![-5, -5, 1, 4, -2, -2] (by
      simp [Quadrature.Table.rule, Quadrature.triangle2, triP2, Fin.sum_univ_six, tri2_eval]
      norm_num) 0
    simp at this
  · simp [Quadrature.Table.rule, Quadrature.triangle3, triP2, Fin.sum_univ_six, tri2_eval] at hu
    norm_num at hu
    obtain ⟨h1, h2, h3, h4, h5, h6⟩ := hu
    intro a
    fin_cases a <;> simp <;> linarith
  · simp [Quadrature.Table.rule, Quadrature.triangle4, triP2, Fin.sum_univ_six, tri2_eval] at hu
    norm_num at hu
    obtain ⟨h1, h2, h3, h4, h5, h6⟩ := hu
    intro a
    fin_cases a <;> simp <;> linarith

/-- **C107.**  One quadratic triangle with the rule of degree 2: the mass matrix is singular, with the rule of degree 3 it is regular. -/
theorem mass_tri2 (x : Fin 3 → Val (.vec 2)) (hx : 0 < triangleArea x) (rhs : List (RhsBlock 2)) :
    ¬ WellPosed [.mass Quadrature.triangle2.rule] rhs [(triP2 x, fun a => a.val)] [] ∧
      WellPosed [.mass Quadrature.triangle3.rule] rhs [(triP2 x, fun a => a.val)] [] := by
  have hs : ∀ t ∈ [Quadrature.triangle1, Quadrature.triangle2, Quadrature.triangle3, Quadrature.triangle4],
      Sound [.mass t.rule] [(triP2 x, fun a : Fin 6 => a.val)] := by
    refine fun t ht => ⟨fun b hb p hp => ?_, fun ec hec ξ => ?_⟩
    · obtain rfl := List.mem_singleton.mp hb
      exact (rules_collinear.2.2.2.2 t ht p hp).le
    · obtain rfl := List.mem_singleton.mp hec
      rw [tri2_detJ]; linarith
  refine ⟨mass_singular (hs _ (by simp)) ?_, mass_wellposed (hs _ (by simp)) (List.mem_singleton_self _) fun ec hec => ?_⟩
  · have h1 : (buildEquationMap (functionSpace [(triP2 x, fun a : Fin 6 => a.val)] [])).2 = 6 := by
      have : functionSpace [(triP2 x, fun a : Fin 6 => a.val)] [] = ⟨[[0, 1, 2, 3, 4, 5]], [], fun _ => 0⟩ := by
        simp [functionSpace, List.ofFn_succ]
      rw [this]
      rfl
    rw [h1]
    simp [Quadrature.Table.rule, Quadrature.triangle2]
  · obtain rfl := List.mem_singleton.mp hec
    exact (unisolvent_tri2 x).2.2.1

/-- **C107.**  One linear triangle without constraints, with the rule of degree 1: gradient and mass blocks together are regular, either
of them alone is singular. -/
theorem reaction_tri1 (x : Fin 3 → Val (.vec 2)) (hx : 0 < triangleArea x) (rhs : List (RhsBlock 2)) :
    WellPosed [.gradGrad Quadrature.triangle1.rule, .mass Quadrature.triangle1.rule] rhs [(triP1 x, fun a => a.val)] [] ∧
      ¬ WellPosed [.gradGrad Quadrature.triangle1.rule] rhs [(triP1 x, fun a => a.val)] [] ∧
      ¬ WellPosed [.mass Quadrature.triangle1.rule] rhs [(triP1 x, fun a => a.val)] [] := by
  have hw := rules_collinear.2.2.2.2 _ (List.mem_cons_self ..)
  have hp : ∃ p ∈ (Quadrature.triangle1.rule : Rule 2), (0 : ℝ) < p.2 := ⟨_, List.mem_cons_self .., hw _ (List.mem_cons_self ..)⟩
  have hs : ∀ lhs : List (LhsBlock 2), (∀ b ∈ lhs, b.rule = Quadrature.triangle1.rule) →
      Sound lhs [(triP1 x, fun a : Fin 3 => a.val)] := by
    refine fun lhs h => ⟨fun b hb p hp => ?_, fun ec hec ξ => ?_⟩
    · rw [h b hb] at hp
      exact (hw p hp).le
    · obtain rfl := List.mem_singleton.mp hec
      rw [tri1_detJ]; linarith
  have hone : ∀ (P : Element 2 3 × (Fin 3 → Nat) → Prop), P (triP1 x, fun a => a.val) →
      ∀ ec ∈ [(triP1 x, fun a : Fin 3 => a.val)], P ec := by simp
  refine ⟨reaction_wellposed (hs _ (by simp [LhsBlock.rule])) (List.mem_cons_self ..) (by simp)
    (hone _ (stiff_tri1 (fun p hp => (hw p hp).le) hp hx)) hp (hone _ (.tri1 x)), ?_, mass_singular (hs _ (by simp [LhsBlock.rule])) ?_⟩
  · rw [weakform_wellposed_iff (hs _ (by simp [LhsBlock.rule]))]
    intro h
    have := h (fun _ => 1) (by simp [Admissible, functionSpace]) (hone _ fun b hb p _ _ => ?_) _ (List.mem_singleton_self _) 0
    · simp at this
    · obtain rfl := List.mem_singleton.mp hb
      intro k
      simpa using gradient_sum (.tri1 x) p.1 k
  · have h1 : (buildEquationMap (functionSpace [(triP1 x, fun a : Fin 3 => a.val)] [])).2 = 3 := by
      have : functionSpace [(triP1 x, fun a : Fin 3 => a.val)] [] = ⟨[[0, 1, 2]], [], fun _ => 0⟩ := by
        simp [functionSpace, List.ofFn_succ]
      rw [this]
      rfl
    rw [h1]
    simp [Quadrature.Table.rule, Quadrature.triangle1]

/-! ## Solutions -/

/-- **C107.**  Solving a regular system, with an exact solver, yields the only solution of the discrete weak form. -/
theorem weakform_solved {solver : Nat → (Nat → Nat → ℝ) → (Nat → ℝ) → Nat → ℝ} (hx : Exact solver)
    (hw : WellPosed lhs rhs space constrained) (k : Nat) :
    ∃ S u, solveTimes solver (weakform lhs rhs space) (k + 1) (create (functionSpace space constrained)) = some S ∧
      (∀ ec ∈ space, ∀ a, get S.field (ec.2 a) = some (u (ec.2 a))) ∧
      Galerkin (functionSpace space constrained) (weakform lhs rhs space) u ∧
      ∀ u', Galerkin (functionSpace space constrained) (weakform lhs rhs space) u' → ∀ ec ∈ space, ∀ a, u' (ec.2 a) = u (ec.2 a) := by
  obtain ⟨S, u, h1, h2, h3, h4⟩ := galerkin_of_isUnit hx hw k
  exact ⟨S, u, h1, fun ec hec a => h2 _ (mem_nodes.mpr ⟨ec, hec, a, rfl⟩), h3,
    fun u' hu' ec hec a => h4 u' hu' _ (mem_nodes.mpr ⟨ec, hec, a, rfl⟩)⟩

/-- **C107.**  The solution with a mass block alone is the best approximation of the source in the norm that `compute_l2_norm` computes
with the same rule: the squares of the distances add up. -/
theorem projection_pythagoras {rule : Rule d} {f : Expr (.vec d) .scalar} (hp : Positive rule space) {u : Nat → ℝ}
    (hu : Galerkin (functionSpace space constrained) (weakform [.mass rule] [⟨f, rule⟩] space) u) (v : Nat → ℝ)
    (hv : Admissible (functionSpace space constrained) v) :
    l2Norm rule space (.fem v) (.field f) ^ 2 =
      l2Norm rule space (.fem u) (.field f) ^ 2 + l2Norm rule space (.fem v) (.fem u) ^ 2 := by
  have h0 := hu.2 (fun x => v x - u x) fun x hx => by simp only [hv x hx, hu.1 x hx, sub_zero]
  rw [form_weakform, load_weakform] at h0
  simp only [List.map_cons, List.map_nil, List.sum_cons, List.sum_nil, add_zero, LhsBlock.rule, LhsBlock.density] at h0
  simp only [l2Norm_square hp, list_sum_flat] at h0 ⊢
  rw [← sub_eq_zero, ← sum_map_sub] at h0
  rw [← List.sum_map_add, ← sub_eq_zero, ← sum_map_sub, ← mul_zero (2 : ℝ), ← h0, ← List.sum_map_mul_left]
  congr 2
  funext ep
  simp only [localize_fem, localize_field, sub_mul, Finset.sum_sub_distrib, mul_comm (Expr.eval _ _ _) _]
  ring

/-- **C107.**  So no other function of the space is closer to the source. -/
theorem projection_best {rule : Rule d} {f : Expr (.vec d) .scalar} (hp : Positive rule space) {u : Nat → ℝ}
    (hu : Galerkin (functionSpace space constrained) (weakform [.mass rule] [⟨f, rule⟩] space) u) (v : Nat → ℝ)
    (hv : Admissible (functionSpace space constrained) v) :
    l2Norm rule space (.fem u) (.field f) ≤ l2Norm rule space (.fem v) (.field f) := by
  refine le_of_sq_le_sq ?_ (l2Norm_distance hp _ _ (.field f)).1
  rw [projection_pythagoras hp hu v hv]
  exact le_add_of_nonneg_right (sq_nonneg _)

/-- **C107.**  A source in the space is reproduced. -/
theorem projection_exact {rule : Rule d} {f : Expr (.vec d) .scalar} (h : Sound [.mass rule] space)
    (hs : ∀ ec ∈ space, Unisolvent rule ec.1) {v : Nat → ℝ} (hv : Admissible (functionSpace space constrained) v)
    (hr : Represents rule space f v) {u : Nat → ℝ}
    (hu : Galerkin (functionSpace space constrained) (weakform [.mass rule] [⟨f, rule⟩] space) u) :
    ∀ ec ∈ space, ∀ a, u (ec.2 a) = v (ec.2 a) := by
  have hp : Positive rule space := ⟨h.1 _ (List.mem_singleton_self _), fun ec hec ξ => (h.2 ec hec ξ).le⟩
  have h0 : l2Norm rule space (.fem v) (.field f) ^ 2 = 0 := by
    rw [l2Norm_square hp]
    refine List.sum_eq_zero fun y hy => ?_
    obtain ⟨ec, hec, rfl⟩ := List.mem_map.mp hy
    refine List.sum_eq_zero fun y hy => ?_
    obtain ⟨p, hp, rfl⟩ := List.mem_map.mp hy
    rw [localize_fem, localize_field, hr ec hec p hp]
    simp [mul_comm]
  have h1 := projection_pythagoras hp hu v hv
  rw [h0] at h1
  have h2 : l2Norm rule space (.fem v) (.fem u) ^ 2 = 0 := by
    nlinarith [sq_nonneg (l2Norm rule space (.fem u) (.field f)), sq_nonneg (l2Norm rule space (.fem v) (.fem u))]
  rw [l2Norm_square hp] at h2
  intro ec hec a
  have h3 := list_sum_zero (fun ec hec => list_sum_nonneg _ _ fun p hp' =>
    mul_nonneg (factor_nonneg (hp.1 p hp') (hp.2 ec hec)) (sq_nonneg _)) h2 ec hec
  have := hs ec hec (fun a => v (ec.2 a) - u (ec.2 a)) (fun p hp' hpos => ?_) a
  · linarith
  · have h4 := list_sum_zero (fun p hp' => mul_nonneg (factor_nonneg (hp.1 p hp') (hp.2 ec hec)) (sq_nonneg _)) h3 p hp'
    have h5 := pow_eq_zero_iff (two_ne_zero) |>.mp
      ((mul_eq_zero.mp h4).resolve_left (mul_pos (mul_pos (area_pos d) hpos) (h.2 ec hec _)).ne')
    rw [localize_fem, localize_fem] at h5
    rw [← h5, ← Finset.sum_sub_distrib]
    exact Finset.sum_congr rfl fun b _ => by ring

/-- **C107.**  Affine functions are in the space of linear elements and quadratic ones in that of quadratic triangles. -/
theorem represents_polynomials :
    (∀ (rule : Rule 1) (space : Space Nat 1 2) (f : Expr (.vec 1) .scalar) (v : Nat → ℝ) (c : ℝ) (l : Fin 1 → ℝ),
      (∀ y, f.eval y () = affine c l y) → (∀ ec ∈ space, ∃ x, ec.1 = segP1 x ∧ ∀ a, v (ec.2 a) = affine c l (x a)) →
      Represents rule space f v) ∧
    (∀ (rule : Rule 2) (space : Space Nat 2 3) (f : Expr (.vec 2) .scalar) (v : Nat → ℝ) (c : ℝ) (l : Fin 2 → ℝ),
      (∀ y, f.eval y () = affine c l y) → (∀ ec ∈ space, ∃ x, ec.1 = triP1 x ∧ ∀ a, v (ec.2 a) = affine c l (x a)) →
      Represents rule space f v) ∧
    (∀ (rule : Rule 2) (space : Space Nat 2 6) (f : Expr (.vec 2) .scalar) (v : Nat → ℝ) (c : ℝ) (l : Fin 2 → ℝ)
      (q : Fin 2 → Fin 2 → ℝ), (∀ y, f.eval y () = quadratic c l q y) →
      (∀ ec ∈ space, ∃ x, ec.1 = triP2 x ∧ ∀ a, v (ec.2 a) = quadratic c l q (nodesTri2 x a)) → Represents rule space f v) := by
  refine ⟨fun rule space f v c l hf hv ec hec p _ => ?_, fun rule space f v c l hf hv ec hec p _ => ?_,
    fun rule space f v c l q hf hv ec hec p _ => ?_⟩
  · obtain ⟨x, he, hx⟩ := hv ec hec
    simp only [hf, he, hx, shape_seg1_affine]
  · obtain ⟨x, he, hx⟩ := hv ec hec
    simp only [hf, he, hx, shape_tri1_affine]
  · obtain ⟨x, he, hx⟩ := hv ec hec
    simp only [hf, he, hx, shape_tri2_quadratic]

/-- **C107.**  The solution with a mass block, and with gradient blocks or without, is not larger than the source. -/
theorem reaction_stable {rule : Rule d} {f : Expr (.vec d) .scalar} (h : Sound (.mass rule :: lhs) space) {u : Nat → ℝ}
    (hu : Galerkin (functionSpace space constrained) (weakform (.mass rule :: lhs) [⟨f, rule⟩] space) u) :
    l2Norm rule space (.fem u) (.fem fun _ => 0) ≤ l2Norm rule space (.field f) (.fem fun _ => 0) := by
  have hp : Positive rule space := ⟨h.1 _ (List.mem_cons_self ..), fun ec hec ξ => (h.2 ec hec ξ).le⟩
  refine le_of_sq_le_sq ?_ (l2Norm_distance hp _ _ (.fem fun _ => 0)).1
  have h0 := hu.2 u hu.1
  rw [form_weakform, load_weakform] at h0
  simp only [List.map_cons, List.map_nil, List.sum_cons, List.sum_nil, add_zero] at h0
  rw [List.sum_map_add] at h0
  have h1 := list_sum_nonneg space (fun ec => (lhs.map fun b => (b.rule.map fun p =>
      factor ec.1 p * b.density ec.1 (fun a => u (ec.2 a)) (fun a => u (ec.2 a)) p.1).sum).sum) fun ec hec =>
    list_sum_nonneg _ _ fun b hb => list_sum_nonneg _ _ fun p hp => h.nonneg hec (List.mem_cons_of_mem _ hb) _ hp
  simp only [LhsBlock.rule, LhsBlock.density, l2Norm_square hp, list_sum_flat] at h0 h1 ⊢
  set L := space.flatMap fun a => rule.map fun b => (a, b)
  have h2 : 0 ≤ (L.map fun ep => factor ep.1.1 ep.2 * ((localize ep.1.1 ep.1.2 (.fem u)).eval ep.2.1 () -
      (localize ep.1.1 ep.1.2 (.field f)).eval ep.2.1 ()) ^ 2).sum := by
    refine list_sum_nonneg _ _ fun ep hep => ?_
    simp only [L, List.mem_flatMap, List.mem_map] at hep
    obtain ⟨ec, hec, p, hp', rfl⟩ := hep
    exact mul_nonneg (factor_nonneg (hp.1 p hp') (hp.2 ec hec)) (sq_nonneg _)
  have h3 : (L.map fun ep => factor ep.1.1 ep.2 * ((localize ep.1.1 ep.1.2 (.fem u)).eval ep.2.1 () -
      (localize ep.1.1 ep.1.2 (.field f)).eval ep.2.1 ()) ^ 2).sum =
      (L.map fun ep => factor ep.1.1 ep.2 * ((∑ a, u (ep.1.2 a) * (ep.1.1.shape a).eval ep.2.1 ()) *
        ∑ a, u (ep.1.2 a) * (ep.1.1.shape a).eval ep.2.1 ())).sum +
      (L.map fun ep => factor ep.1.1 ep.2 * ((localize ep.1.1 ep.1.2 (.field f)).eval ep.2.1 () -
        (localize ep.1.1 ep.1.2 (.fem fun _ => 0)).eval ep.2.1 ()) ^ 2).sum -
      2 * (L.map fun ep => factor ep.1.1 ep.2 * (f.eval (ep.1.1.parametrization.eval ep.2.1) () *
        ∑ a, u (ep.1.2 a) * (ep.1.1.shape a).eval ep.2.1 ())).sum := by
    rw [← List.sum_map_mul_left, ← List.sum_map_add, ← sum_map_sub]
    congr 2
    funext ep
    simp only [localize_fem, localize_field, mul_comm (Expr.eval _ _ _) _, zero_mul, Finset.sum_const_zero]
    ring
  have h4 : (L.map fun ep => factor ep.1.1 ep.2 * ((localize ep.1.1 ep.1.2 (.fem u)).eval ep.2.1 () -
      (localize ep.1.1 ep.1.2 (.fem fun _ => 0)).eval ep.2.1 ()) ^ 2).sum =
      (L.map fun ep => factor ep.1.1 ep.2 * ((∑ a, u (ep.1.2 a) * (ep.1.1.shape a).eval ep.2.1 ()) *
        ∑ a, u (ep.1.2 a) * (ep.1.1.shape a).eval ep.2.1 ())).sum := by
    congr 2
    funext ep
    simp only [localize_fem, mul_comm (Expr.eval _ _ _) _, zero_mul, Finset.sum_const_zero]
    ring
  rw [h4]
  linarith

/-- a triangle with positive area, as the theorems on one triangle require -/
example : 0 < triangleArea ![![0, 0], ![1, 0], ![0, 1]] := by simp [triangleArea]

end Mito.Fem
