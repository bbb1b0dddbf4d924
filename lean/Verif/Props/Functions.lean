import Verif.Functions.DerivativeLemmas

/-! # C60, C61, C62: functions, their algebra and their derivatives -/

namespace Mito.Functions

open Finset

/-! ## C62: the algebra is pointwise -/

section
variable {a b c r : Ty}

/-- sums and differences -/
theorem pointwise_sums (f g : Expr a b) (v : Val b) (x : Val a) :
    (f.add g).eval x = f.eval x + g.eval x ∧ (f.sub g).eval x = f.eval x - g.eval x ∧ f.neg.eval x = -f.eval x ∧
    (f.addConst v).eval x = f.eval x + v ∧ (f.subConst v).eval x = f.eval x - v ∧
    (Expr.constSub v f).eval x = v - f.eval x := by
  simp

/-- products with constants, quotients and reciprocals -/
theorem pointwise_quotients (f : Expr a b) (g : Expr a .scalar) (v : Val b) (s : ℝ) (x : Val a) (i : Idx b) :
    (Expr.smul s f).eval x i = s * f.eval x i ∧ (f.divConst s).eval x i = f.eval x i / s ∧
    (f.div g).eval x i = f.eval x i / g.eval x () ∧ (Expr.constDiv v g).eval x i = v i / g.eval x () ∧
    (Expr.recip g).eval x () = (g.eval x ())⁻¹ := by
  refine ⟨by simp, ?_, ?_, ?_, ?_⟩ <;> simp [div_eq_inv_mul, Expr.eval]

/-- products -/
theorem pointwise_products (f : Expr a .scalar) (g : Expr a b) {n : Nat} (u v : Expr a (.vec n)) {m p : Nat}
    (A : Expr a (.mat m n)) (B : Expr a (.mat n p)) (x : Val a) :
    (∀ i, (Expr.prod (.scale b) f g).eval x i = f.eval x () * g.eval x i) ∧
    (Expr.prod (.dot n) u v).eval x () = ∑ k, u.eval x k * v.eval x k ∧
    (∀ i, (Expr.prod (.matVec m n) A u).eval x i = ∑ k, A.eval x (i, k) * u.eval x k) ∧
    (∀ j, (Expr.prod (.vecMat n p) u B).eval x j = ∑ k, u.eval x k * B.eval x (k, j)) ∧
    (∀ i j, (Expr.prod (.matMat m n p) A B).eval x (i, j) = ∑ k, A.eval x (i, k) * B.eval x (k, j)) ∧
    (∀ i j, (Expr.dyadic u v).eval x (i, j) = u.eval x i * v.eval x j) ∧
    (∀ i j, (Expr.transpose A).eval x (i, j) = A.eval x (j, i)) :=
  ⟨fun _ => rfl, rfl, fun _ => rfl, fun _ => rfl, fun _ _ => rfl, fun _ _ => rfl, fun _ _ => rfl⟩

/-- linear combinations -/
theorem pointwise_lin {n : Nat} (cs : Fin n → ℝ) (fs : Fin n → Expr a b) (x : Val a) (i : Idx b) :
    (Expr.lin (.scale b) (fun j => sc (cs j)) fs).eval x i = ∑ j, cs j * (fs j).eval x i := by
  simp [Expr.eval, mul]

/-- compositions, components and constants -/
theorem pointwise_comp (f : Expr .scalar b) (g : Expr a .scalar) (h : Expr c b) (k : Expr a c) (v : Val b) (x : Val a) :
    (Expr.compS f g).eval x = f.eval (g.eval x) ∧ (Expr.compT h k).eval x = h.eval (k.eval x) ∧
    (Expr.const (a := a) v).eval x = v ∧ (∀ i, (Expr.component (a := a) i).eval x () = x i) ∧
    (∀ i, (Expr.subscript k i).eval x () = k.eval x i) :=
  ⟨rfl, rfl, rfl, fun _ => rfl, fun _ => rfl⟩

/-- the powers are powers -/
theorem pointwise_pow (n : Nat) (x : ℝ) : (Expr.prim (.pow n)).eval (sc x) () = x ^ (n + 1) := by
  simp [Expr.eval, Prim.eval, power_eq]

/-- the inverse is the inverse wherever the determinant does not vanish -/
theorem pointwise_inverse {n : Nat} (f : Expr a (.mat n n)) (x : Val a) (hd : (Expr.det f).eval x () ≠ 0) (i j : Fin n) :
    ∑ k, f.eval x (i, k) * (Expr.inverse f).eval x (k, j) = if i = j then 1 else 0 := by
  have h := Matrix.mul_nonsing_inv (Matrix.of fun i j => f.eval x (i, j)) (isUnit_iff_ne_zero.mpr hd)
  have := congrFun (congrFun h i) j
  rwa [Matrix.mul_apply, Matrix.one_apply] at this

end

/-! ## C60: derivatives of functions of reals -/

/-- the derivative of every expression with rules is its derivative, at every point where its parts are differentiable, and it is
itself defined there -/
theorem derivative_correct (f : Expr .scalar .scalar) (hr : f.HasRule) (x : ℝ) (hs : f.Smooth (sc x)) :
    HasDerivAt (fun t => f.eval (sc t) ()) ((f.derivative ()).eval (sc x) ()) x ∧ (f.derivative ()).Defined (sc x) := by
  refine ⟨?_, all_mono prim_defined_of_smooth _ _ (derivative_smooth f _ hs ())⟩
  have h1 : HasDerivAt (fun t : ℝ => (sc t : Val .scalar)) (sc 1) x := by
    rw [hasDerivAt_pi]
    intro i
    exact hasDerivAt_id x
  have h2 := (hasFDerivAt f hr (sc x) hs).comp_hasDerivAt x h1
  have h3 := (hasDerivAt_pi.mp h2) ()
  refine h3.congr_deriv ?_
  simp [jac_apply (a := .scalar) (b := .scalar)]

/-- so are derivatives of every order: each is the derivative of the one before -/
theorem derivative_iterate (f : Expr .scalar .scalar) (hr : f.HasRule) (x : ℝ) (hs : f.Smooth (sc x)) (n : Nat) :
    HasDerivAt (fun t => (f.derivatives (List.replicate n ())).eval (sc t) ())
      ((f.derivatives (List.replicate (n + 1) ())).eval (sc x) ()) x := by
  have key : ∀ is : List (Idx .scalar), ∀ f : Expr .scalar .scalar, f.HasRule → f.Smooth (sc x) →
      (f.derivatives is).HasRule ∧ (f.derivatives is).Smooth (sc x) := by
    intro is
    induction is with
    | nil => exact fun f hr hs => ⟨hr, hs⟩
    | cons i is ih => exact fun f hr hs => ih _ (derivative_hasRule f hr i) (derivative_smooth f _ hs i)
  obtain ⟨h1, h2⟩ := key (List.replicate n ()) f hr hs
  have := (derivative_correct _ h1 x h2).1
  rw [List.replicate_succ']
  simpa [Expr.derivatives] using this

/-- where a function is smooth it is defined -/
theorem smooth_defined {a b : Ty} (f : Expr a b) (x : Val a) (hs : f.Smooth x) : f.Defined x :=
  all_mono prim_defined_of_smooth _ _ hs

/-! ## C61: partial derivatives, gradients and divergences -/

section
variable {a b : Ty}

/-- `derivative<I>` of every expression with rules is its partial derivative -/
theorem partial_correct (f : Expr a b) (hr : f.HasRule) (x : Val a) (hs : f.Smooth x) (i : Idx a) :
    HasPartial f.eval i ((f.derivative i).eval x) x ∧ (f.derivative i).Defined x := by
  refine ⟨?_, smooth_defined _ _ (derivative_smooth f _ hs i)⟩
  have h1 : HasDerivAt (fun t : ℝ => Function.update x i t) (Pi.single i 1) (x i) := hasDerivAt_update x i (x i)
  have h2 : HasFDerivAt f.eval (jac fun i => (f.derivative i).eval x) (Function.update x i (x i)) := by
    rw [Function.update_eq_self]; exact hasFDerivAt f hr x hs
  refine (h2.comp_hasDerivAt (x i) h1).congr_deriv ?_
  exact jac_single _ i

/-- and together they are the total derivative -/
theorem total_correct (f : Expr a b) (hr : f.HasRule) (x : Val a) (hs : f.Smooth x) :
    ∃ L : Val a →L[ℝ] Val b, HasFDerivAt f.eval L x ∧ ∀ v, L v = ∑ i, v i • (f.derivative i).eval x :=
  ⟨_, hasFDerivAt f hr x hs, jac_apply _⟩

/-- mixed partial derivatives of every order -/
theorem partials_correct (f : Expr a b) (hr : f.HasRule) (x : Val a) (hs : f.Smooth x) (is : List (Idx a)) (i : Idx a) :
    HasPartial (f.derivatives is).eval i ((f.derivatives (is ++ [i])).eval x) x := by
  have key : ∀ is : List (Idx a), ∀ f : Expr a b, f.HasRule → f.Smooth x →
      (f.derivatives is).HasRule ∧ (f.derivatives is).Smooth x := by
    intro is
    induction is with
    | nil => exact fun f hr hs => ⟨hr, hs⟩
    | cons i is ih => exact fun f hr hs => ih _ (derivative_hasRule f hr i) (derivative_smooth f _ hs i)
  obtain ⟨h1, h2⟩ := key is f hr hs
  simpa [Expr.derivatives] using (partial_correct _ h1 x h2 i).1

end

section
variable {d n : Nat}

/-- the components of the gradient are the partial derivatives -/
theorem gradient_correct (f : Expr (.vec d) .scalar) (hr : f.HasRule) (x : Val (.vec d)) (hs : f.Smooth x) (k : Fin d) :
    HasDerivAt (fun t => f.eval (Function.update x k t) ()) ((gradient f).eval x k) (x k) := by
  rw [gradient_eval]
  exact hasDerivAt_pi.mp (partial_correct f hr x hs k).1 ()

/-- the gradient of a vector field: row by component, column by direction -/
theorem gradientV_correct (f : Expr (.vec d) (.vec n)) (hr : f.HasRule) (x : Val (.vec d)) (hs : f.Smooth x)
    (i : Fin n) (k : Fin d) :
    HasDerivAt (fun t => f.eval (Function.update x k t) i) ((gradientV f).eval x (i, k)) (x k) := by
  rw [gradientV_eval]
  exact hasDerivAt_pi.mp (partial_correct f hr x hs k).1 i

/-- the matrix of the partial derivatives -/
theorem jacobian_correct (f : Expr (.vec d) (.vec n)) (hr : f.HasRule) (x : Val (.vec d)) (hs : f.Smooth x)
    (i : Fin n) (k : Fin d) :
    HasDerivAt (fun t => f.eval (Function.update x k t) i) ((jacobianVV f).eval x (i, k)) (x k) := by
  rw [jacobianVV_eval]
  exact hasDerivAt_pi.mp (partial_correct f hr x hs k).1 i

theorem jacobianVS_correct (f : Expr (.vec d) .scalar) (hr : f.HasRule) (x : Val (.vec d)) (hs : f.Smooth x) (k : Fin d) :
    HasDerivAt (fun t => f.eval (Function.update x k t) ()) ((jacobianVS f).eval x (0, k)) (x k) := by
  rw [jacobianVS_eval]
  exact hasDerivAt_pi.mp (partial_correct f hr x hs k).1 ()

theorem jacobianSV_correct (f : Expr .scalar (.vec n)) (hr : f.HasRule) (x : ℝ) (hs : f.Smooth (sc x)) (i : Fin n) :
    HasDerivAt (fun t => f.eval (sc t) i) ((jacobianSV f).eval (sc x) (i, 0)) x := by
  rw [jacobianSV_eval]
  have h := hasDerivAt_pi.mp (partial_correct f hr (sc x) hs ()).1 i
  have he : ∀ t : ℝ, Function.update (sc x) () t = sc t := fun t => by funext u; simp
  simpa only [he] using h

/-- the divergence of a vector field is the sum of the partial derivatives of its components -/
theorem divergence_correct (f : Expr (.vec d) (.vec d)) (hr : f.HasRule) (x : Val (.vec d)) (hs : f.Smooth x) :
    (divergence f).eval x () = ∑ i : Fin d, deriv (fun t => f.eval (Function.update x i t) i) (x i) := by
  rw [divergence_eval]
  exact Finset.sum_congr rfl fun i _ => (hasDerivAt_pi.mp (partial_correct f hr x hs i).1 i).deriv.symm

/-- the divergence of a tensor field is the vector of the divergences of its rows -/
theorem divergenceT_correct (f : Expr (.vec d) (.mat d d)) (hr : f.HasRule) (x : Val (.vec d)) (hs : f.Smooth x) (k : Fin d) :
    (divergenceT f).eval x k = ∑ i : Fin d, deriv (fun t => f.eval (Function.update x i t) (k, i)) (x i) := by
  rw [divergenceT_eval]
  exact Finset.sum_congr rfl fun i _ => (hasDerivAt_pi.mp (partial_correct f hr x hs i).1 (k, i)).deriv.symm

/-- gradients may be differentiated again -/
theorem gradient_again (f : Expr (.vec d) .scalar) (hr : f.HasRule) (x : Val (.vec d)) (hs : f.Smooth x) :
    (gradient f).HasRule ∧ (gradient f).Smooth x := by
  constructor
  · refine hasRule_sumList _ fun e he => ?_
    obtain ⟨i, _, rfl⟩ := List.mem_map.mp he
    exact ⟨derivative_hasRule f hr i, trivial⟩
  · refine all_sumList _ _ _ fun e he => ?_
    obtain ⟨i, _, rfl⟩ := List.mem_map.mp he
    exact ⟨derivative_smooth f x hs i, trivial⟩

/-- the divergence of the gradient is the sum of the second partial derivatives -/
theorem laplacian_correct (f : Expr (.vec d) .scalar) (hr : f.HasRule) (x : Val (.vec d)) (hs : f.Smooth x) :
    (divergence (gradient f)).eval x () =
      ∑ i : Fin d, deriv (fun t => (f.derivative i).eval (Function.update x i t) ()) (x i) := by
  obtain ⟨h1, h2⟩ := gradient_again f hr x hs
  rw [divergence_correct _ h1 x h2]
  refine Finset.sum_congr rfl fun i _ => ?_
  congr 1
  funext t
  rw [gradient_eval]

/-- the gradient is linear -/
theorem gradient_linear (s t : ℝ) (f g : Expr (.vec d) .scalar) (x : Val (.vec d)) :
    (gradient ((Expr.smul s f).add (Expr.smul t g))).eval x = s • (gradient f).eval x + t • (gradient g).eval x := by
  funext k
  simp only [gradient_eval, Pi.add_apply, Pi.smul_apply]
  simp [Expr.add, Expr.smul, Expr.derivative, Expr.eval, mul]

/-- the product rule -/
theorem gradient_product (f g : Expr (.vec d) .scalar) (x : Val (.vec d)) :
    (gradient (f.mul g)).eval x = f.eval x () • (gradient g).eval x + g.eval x () • (gradient f).eval x := by
  funext k
  simp only [gradient_eval, Pi.add_apply, Pi.smul_apply]
  simp [Expr.mul, Expr.derivative, Expr.eval, mul, mul_comm]

end

/-! ## Examples -/

/-- `log(1 + x²) / √x` is smooth for positive `x` ... -/
noncomputable def exampleFunction : Expr .scalar .scalar :=
  (Expr.compS (.prim .log) ((Expr.prim (.pow 1)).addConst (sc 1))).div (.prim .sqrt)

example : exampleFunction.HasRule := by
  simp [exampleFunction, Expr.div, Expr.HasRule, Expr.addConst]

theorem exampleFunction_smooth (x : ℝ) (h : 0 < x) : exampleFunction.Smooth (sc x) := by
  simp only [exampleFunction, Expr.div, Expr.Smooth, Expr.All, Expr.addConst, Prim.Smooth, Expr.eval, Prim.eval, power_eq]
  refine ⟨⟨?_, trivial⟩, h, (Real.sqrt_pos.mpr h).ne'⟩
  simp only [Pi.add_apply]
  positivity

/-- ... so its derivative is found, -/
example (x : ℝ) (h : 0 < x) :
    HasDerivAt (fun t => Real.log (t ^ 2 + 1) / Real.sqrt t) ((exampleFunction.derivative ()).eval (sc x) ()) x := by
  have := (derivative_correct exampleFunction (by simp [exampleFunction, Expr.div, Expr.HasRule, Expr.addConst]) x
    (exampleFunction_smooth x h)).1
  refine this.congr_of_eventuallyEq (Filter.Eventually.of_forall fun t => ?_)
  simp [exampleFunction, Expr.eval, Prim.eval, power_eq, div_eq_inv_mul]

/-- but the logarithm is not smooth at zero -/
example : ¬ (Expr.prim .log).Smooth (sc 0) := by
  simp [Expr.Smooth, Expr.All, Prim.Smooth]

/-- `sin(x₀ x₁)` and its gradient -/
noncomputable def exampleField : Expr (.vec 2) .scalar :=
  .compS (.prim .sin) ((Expr.component (a := .vec 2) 0).mul (.component (a := .vec 2) 1))

example (x : Val (.vec 2)) : (gradient exampleField).eval x 0 = Real.cos (x 0 * x 1) * x 1 := by
  rw [gradient_eval]
  simp [exampleField, Expr.derivative, Expr.eval, mul, Prim.derivative, Prim.eval, Expr.mul]

/-- a composition through vectors: `f(y) = y₀ y₁` after `y = (x₀ e₀ + x₁ e₁) x₀` -/
example : (Expr.compT (a := .vec 2) (m := .vec 2) ((Expr.component (a := .vec 2) 0).mul (.component (a := .vec 2) 1))
    (.prod (.scaleR _) (gradient exampleField) (.component (a := .vec 2) 0))).HasRule := by
  have h : exampleField.HasRule := by simp [exampleField, Expr.HasRule, Expr.mul]
  refine ⟨by simp, by simp [Expr.HasRule, Expr.mul], ?_, trivial⟩
  refine hasRule_sumList _ fun e he => ?_
  obtain ⟨i, _, rfl⟩ := List.mem_map.mp he
  exact ⟨derivative_hasRule _ h i, trivial⟩

end Mito.Functions
