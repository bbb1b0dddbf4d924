import Verif.Functions.CalculusLemmas

/-! # C111: identities of the symbolic calculus -/

namespace Mito.Functions

open Filter Topology

section
variable {a b : Ty}

/-- partial derivatives of every order depend on how often each component is taken, and not on the order -/
theorem derivatives_perm (f : Expr a b) (hr : f.HasRule) (x : Val a) (hs : f.Smooth x) {is js : List (Idx a)} (h : is.Perm js) :
    (f.derivatives is).eval x = (f.derivatives js).eval x := by
  induction h generalizing f with
  | nil => rfl
  | cons i _ ih => exact ih _ (derivative_hasRule f hr i) (derivative_smooth f x hs i)
  | swap i j is =>
    refine derivatives_congr is _ _ (derivative_hasRule _ (derivative_hasRule f hr j) i)
      (derivative_hasRule _ (derivative_hasRule f hr i) j) x (derivative_smooth _ x (derivative_smooth f x hs j) i)
      (derivative_smooth _ x (derivative_smooth f x hs i) j) ?_
    filter_upwards [smooth_open f hr x hs] with y hy
    exact derivative_comm f hr y hy j i
  | trans _ _ ih1 ih2 => exact (ih1 f hr hs).trans (ih2 f hr hs)

/-- functions that agree near a point have the same derivatives there, however they are written -/
theorem derivatives_values (is : List (Idx a)) (f g : Expr a b) (hf : f.HasRule) (hg : g.HasRule) (x : Val a) (sf : f.Smooth x)
    (sg : g.Smooth x) (h : ∀ᶠ y in 𝓝 x, f.eval y = g.eval y) : (f.derivatives is).eval x = (g.derivatives is).eval x :=
  derivatives_congr is f g hf hg x sf sg h

end

section
variable {d n : Nat}

theorem gradientV_again (f : Expr (.vec d) (.vec n)) (hr : f.HasRule) :
    (gradientV f).HasRule ∧ ∀ x, f.Smooth x → (gradientV f).Smooth x := by
  constructor
  · refine hasRule_sumList _ fun e he => ?_
    obtain ⟨k, _, rfl⟩ := List.mem_map.mp he
    refine hasRule_sumList _ fun e he => ?_
    obtain ⟨i, _, rfl⟩ := List.mem_map.mp he
    exact ⟨derivative_hasRule (Expr.prod (.dot n) f (.const (unitVec i))) ⟨hr, trivial⟩ k, trivial⟩
  · intro x hs
    refine all_sumList _ _ _ fun e he => ?_
    obtain ⟨k, _, rfl⟩ := List.mem_map.mp he
    refine all_sumList _ _ _ fun e he => ?_
    obtain ⟨i, _, rfl⟩ := List.mem_map.mp he
    exact ⟨derivative_smooth (Expr.prod (.dot n) f (.const (unitVec i))) x ⟨hs, trivial⟩ k, trivial⟩

theorem divergence_again (f : Expr (.vec d) (.vec d)) (hr : f.HasRule) :
    (divergence f).HasRule ∧ ∀ x, f.Smooth x → (divergence f).Smooth x := by
  constructor
  · refine hasRule_sumList _ fun e he => ?_
    obtain ⟨i, _, rfl⟩ := List.mem_map.mp he
    exact derivative_hasRule (Expr.prod (.dot d) f (.const (unitVec i))) ⟨hr, trivial⟩ i
  · intro x hs
    refine all_sumList _ _ _ fun e he => ?_
    obtain ⟨i, _, rfl⟩ := List.mem_map.mp he
    exact derivative_smooth (Expr.prod (.dot d) f (.const (unitVec i))) x ⟨hs, trivial⟩ i

/-- the derivatives of the parts of a gradient are second derivatives -/
theorem gradient_derivative (f : Expr (.vec d) .scalar) (hr : f.HasRule) (x : Val (.vec d)) (hs : f.Smooth x) (i k : Fin d) :
    ((gradient f).derivative k).eval x i = ((f.derivative i).derivative k).eval x () := by
  have hg : ∀ y, f.Smooth y → (gradient f).Smooth y := fun y hy => (gradient_again f hr y hy).2
  have h0 := (gradient_again f hr x hs).1
  have h1 := derivative_congr (.subscript (gradient f) i) (f.derivative i) h0 (derivative_hasRule f hr i) x
    (hg x hs) (derivative_smooth f x hs i) (Eventually.of_forall fun y => by
      funext u
      exact gradient_eval f y i) k
  exact congrFun h1 ()

theorem gradientV_derivative (f : Expr (.vec d) (.vec n)) (hr : f.HasRule) (x : Val (.vec d)) (hs : f.Smooth x) (i : Fin n) (j k : Fin d) :
    ((gradientV f).derivative k).eval x (i, j) = ((f.derivative j).derivative k).eval x i := by
  obtain ⟨h0, hg⟩ := gradientV_again f hr
  have h1 := derivative_congr (.subscript (gradientV f) (i, j)) (.subscript (f.derivative j) i) h0 (derivative_hasRule f hr j) x
    (hg x hs) (derivative_smooth f x hs j) (Eventually.of_forall fun y => by
      funext u
      exact gradientV_eval f y i j) k
  exact congrFun h1 ()

theorem divergence_derivative (f : Expr (.vec d) (.vec d)) (hr : f.HasRule) (x : Val (.vec d)) (hs : f.Smooth x) (k : Fin d) :
    ((divergence f).derivative k).eval x () = ∑ i, ((f.derivative i).derivative k).eval x i := by
  obtain ⟨h0, hg⟩ := divergence_again f hr
  have h1 := (hasFDerivAt _ h0 x (hg x hs))
  have h2 : ∀ i : Fin d, HasFDerivAt (fun y => (f.derivative i).eval y i)
      ((ContinuousLinearMap.proj (R := ℝ) (φ := fun _ : Fin d => ℝ) i).comp
        (jac fun l => ((f.derivative i).derivative l).eval x)) x := fun i =>
    (ContinuousLinearMap.proj (R := ℝ) (φ := fun _ : Fin d => ℝ) i).hasFDerivAt.comp x
      (hasFDerivAt _ (derivative_hasRule f hr i) x (derivative_smooth f x hs i))
  have h3 := HasFDerivAt.fun_sum (u := Finset.univ) fun i _ => h2 i
  have h4 : HasFDerivAt (fun y => (divergence f).eval y ())
      ((ContinuousLinearMap.proj (R := ℝ) (φ := fun _ : Unit => ℝ) ()).comp (jac fun l => ((divergence f).derivative l).eval x)) x :=
    (ContinuousLinearMap.proj (R := ℝ) (φ := fun _ : Unit => ℝ) ()).hasFDerivAt.comp x h1
  have h5 : (fun y => (divergence f).eval y ()) = fun y => ∑ i, (f.derivative i).eval y i := by
    funext y; exact divergence_eval f y
  rw [h5] at h4
  have h6 := congrArg (fun L : Val (.vec d) →L[ℝ] ℝ => L (Pi.single k 1)) (h4.unique h3)
  simp only [ContinuousLinearMap.comp_apply, ContinuousLinearMap.sum_apply, ContinuousLinearMap.proj_apply] at h6
  rw [jac_single] at h6
  rw [h6]
  exact Finset.sum_congr rfl fun i _ =>
    congrFun (jac_single (a := .vec d) (b := .vec d) (fun l => ((f.derivative i).derivative l).eval x) k) i

/-- the matrix of second derivatives is symmetric -/
theorem hessian_symmetric (f : Expr (.vec d) .scalar) (hr : f.HasRule) (x : Val (.vec d)) (hs : f.Smooth x) (i k : Fin d) :
    (gradientV (gradient f)).eval x (i, k) = (gradientV (gradient f)).eval x (k, i) := by
  rw [gradientV_eval, gradientV_eval, gradient_derivative f hr x hs, gradient_derivative f hr x hs]
  exact congrFun (derivative_comm f hr x hs i k) ()

/-- the divergence of the transposed gradient is the gradient of the divergence, tests/mito.lib/fields/calculus_identities.cc:22-51 -/
theorem div_grad_transposed (f : Expr (.vec d) (.vec d)) (hr : f.HasRule) (x : Val (.vec d)) (hs : f.Smooth x) :
    (divergenceT (.transpose (gradientV f))).eval x = (gradient (divergence f)).eval x := by
  funext k
  rw [divergenceT_eval, gradient_eval, divergence_derivative f hr x hs]
  refine Finset.sum_congr rfl fun i _ => ?_
  change ((gradientV f).derivative i).eval x (i, k) = _
  rw [gradientV_derivative f hr x hs]
  exact congrFun (derivative_comm f hr x hs k i) i

/-- the divergence of the gradient of a vector field: the laplacians of the components -/
theorem div_grad (f : Expr (.vec d) (.vec d)) (hr : f.HasRule) (x : Val (.vec d)) (hs : f.Smooth x) (k : Fin d) :
    (divergenceT (gradientV f)).eval x k = (divergence (gradient (.subscript f k))).eval x () := by
  rw [divergenceT_eval, divergence_eval]
  refine Finset.sum_congr rfl fun i _ => ?_
  rw [gradientV_derivative f hr x hs, gradient_derivative (.subscript f k) hr x hs]
  rfl

/-- the divergence of a scalar times a vector field -/
theorem divergence_product (f : Expr (.vec d) .scalar) (g : Expr (.vec d) (.vec d)) (x : Val (.vec d)) :
    (divergence (.prod (.scale _) f g)).eval x () =
      ∑ i, (gradient f).eval x i * g.eval x i + f.eval x () * (divergence g).eval x () := by
  rw [divergence_eval, divergence_eval, Finset.mul_sum, ← Finset.sum_add_distrib]
  refine Finset.sum_congr rfl fun i _ => ?_
  rw [gradient_eval]
  simp [Expr.derivative, Expr.eval, mul, add_comm]

/-- the divergence is linear -/
theorem divergence_linear (s t : ℝ) (f g : Expr (.vec d) (.vec d)) (x : Val (.vec d)) :
    (divergence ((Expr.smul s f).add (Expr.smul t g))).eval x () = s * (divergence f).eval x () + t * (divergence g).eval x () := by
  simp only [divergence_eval, Finset.mul_sum, ← Finset.sum_add_distrib]
  refine Finset.sum_congr rfl fun i _ => ?_
  simp [Expr.add, Expr.smul, Expr.derivative, Expr.eval, mul]

/-- the chain rule -/
theorem gradient_comp (f : Expr .scalar .scalar) (g : Expr (.vec d) .scalar) (x : Val (.vec d)) :
    (gradient (.compS f g)).eval x = (f.derivative ()).eval (g.eval x) () • (gradient g).eval x := by
  funext k
  simp only [gradient_eval, Pi.smul_apply, smul_eq_mul]
  simp [Expr.derivative, Expr.eval, mul]

/-- the laplacian of a product -/
theorem laplacian_product (f g : Expr (.vec d) .scalar) (hf : f.HasRule) (hg : g.HasRule) (x : Val (.vec d)) (sf : f.Smooth x)
    (sg : g.Smooth x) :
    (divergence (gradient (f.mul g))).eval x () = f.eval x () * (divergence (gradient g)).eval x () +
      2 * ∑ i, (gradient f).eval x i * (gradient g).eval x i + g.eval x () * (divergence (gradient f)).eval x () := by
  simp only [divergence_eval, Finset.mul_sum, ← Finset.sum_add_distrib]
  refine Finset.sum_congr rfl fun i _ => ?_
  rw [gradient_derivative (f.mul g) ⟨hf, hg⟩ x ⟨sf, sg⟩, gradient_derivative f hf x sf, gradient_derivative g hg x sg, gradient_eval,
    gradient_eval]
  simp [Expr.mul, Expr.derivative, Expr.eval, mul]
  ring

/-- the matrix of the partial derivatives is the gradient -/
theorem jacobian_gradient (f : Expr (.vec d) (.vec n)) (x : Val (.vec d)) : (jacobianVV f).eval x = (gradientV f).eval x := by
  funext p
  obtain ⟨i, k⟩ := p
  rw [jacobianVV_eval, gradientV_eval]

/-- the divergence is the trace of the gradient -/
theorem divergence_trace (f : Expr (.vec d) (.vec d)) (x : Val (.vec d)) :
    (divergence f).eval x () = ∑ i, (gradientV f).eval x (i, i) := by
  rw [divergence_eval]
  exact Finset.sum_congr rfl fun i _ => (gradientV_eval f x i i).symm

end

/-! ## Examples -/

/-- `sin(x₀ x₁) e₀ + cos(x₀ x₁) e₁`, tests/mito.lib/fields/calculus_identities.cc:37-38 -/
noncomputable def identityField : Expr (.vec 2) (.vec 2) :=
  let p : Expr (.vec 2) .scalar := Expr.mul (.component (a := .vec 2) (0 : Fin 2)) (.component (a := .vec 2) (1 : Fin 2))
  .sum (.timesConst (.scale _) (.compS (.prim .sin) p) (unitVec 0)) (.timesConst (.scale _) (.compS (.prim .cos) p) (unitVec 1))

example : identityField.HasRule ∧ ∀ x, identityField.Smooth x := by
  simp [identityField, Expr.HasRule, Expr.Smooth, Expr.All, Expr.mul, Prim.Smooth]

end Mito.Functions
