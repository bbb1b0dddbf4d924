import Verif.Spec.Functions
import Mathlib.Analysis.Calculus.FDeriv.Comp
import Mathlib.Topology.Algebra.Module.FiniteDimension
import Mathlib.Analysis.Normed.Module.FiniteDimension
import Mathlib.Analysis.Calculus.FDeriv.Add
import Mathlib.Analysis.Calculus.FDeriv.Mul
import Mathlib.Analysis.Calculus.FDeriv.Pi
import Mathlib.Analysis.Calculus.Deriv.Inv
import Mathlib.Analysis.Calculus.Deriv.Mul
import Mathlib.Analysis.Calculus.Deriv.Pi
import Mathlib.Analysis.SpecialFunctions.Pow.Deriv
import Mathlib.Analysis.SpecialFunctions.Log.Deriv
import Mathlib.Analysis.SpecialFunctions.Sqrt
import Mathlib.Analysis.SpecialFunctions.ExpDeriv
import Mathlib.Analysis.SpecialFunctions.Trigonometric.Deriv
import Mathlib.Analysis.SpecialFunctions.Trigonometric.ArctanDeriv
import Mathlib.Analysis.SpecialFunctions.Trigonometric.InverseDeriv
import Mathlib.Tactic.FieldSimp
import Mathlib.Tactic.Positivity

/-! # Helper lemmas on symbolic differentiation -/

namespace Mito.Functions

open Finset

theorem power_eq (x : ℝ) (n : Nat) : power x n = x ^ n := by
  induction n with
  | zero => simp [power]
  | succ n ih => simp [power, ih, pow_succ]

/-! ## Evaluation of derived operations -/

section
variable {a b : Ty}

@[simp] theorem eval_smul (s : ℝ) (f : Expr a b) (x : Val a) : (Expr.smul s f).eval x = s • f.eval x := by
  funext i; simp [Expr.smul, Expr.eval, mul]

@[simp] theorem eval_neg (f : Expr a b) (x : Val a) : f.neg.eval x = -f.eval x := by
  simp [Expr.neg]

@[simp] theorem eval_add (f g : Expr a b) (x : Val a) : (f.add g).eval x = f.eval x + g.eval x := by
  simp [Expr.add, Expr.eval]

@[simp] theorem eval_sub (f g : Expr a b) (x : Val a) : (f.sub g).eval x = f.eval x - g.eval x := by
  simp [Expr.sub, sub_eq_add_neg]

@[simp] theorem eval_addConst (f : Expr a b) (v : Val b) (x : Val a) : (f.addConst v).eval x = f.eval x + v := by
  simp [Expr.addConst, Expr.eval]

@[simp] theorem eval_constSub (f : Expr a b) (v : Val b) (x : Val a) : (Expr.constSub v f).eval x = v - f.eval x := by
  simp [Expr.constSub, sub_eq_add_neg, add_comm]

@[simp] theorem eval_subConst (f : Expr a b) (v : Val b) (x : Val a) : (f.subConst v).eval x = f.eval x - v := by
  simp [Expr.subConst, sub_eq_add_neg]

@[simp] theorem eval_divConst (f : Expr a b) (s : ℝ) (x : Val a) : (f.divConst s).eval x = s⁻¹ • f.eval x := by
  simp [Expr.divConst]

@[simp] theorem eval_constDiv (v : Val b) (f : Expr a .scalar) (x : Val a) :
    (Expr.constDiv v f).eval x = (f.eval x ())⁻¹ • v := by
  funext i; simp [Expr.constDiv, Expr.eval, mul, mul_comm]

@[simp] theorem eval_div (f : Expr a b) (g : Expr a .scalar) (x : Val a) :
    (f.div g).eval x = (g.eval x ())⁻¹ • f.eval x := by
  funext i; simp [Expr.div, Expr.eval, mul, mul_comm]

@[simp] theorem eval_mul (f g : Expr a .scalar) (x : Val a) : (f.mul g).eval x = f.eval x * g.eval x := by
  funext i; simp [Expr.mul, Expr.eval, mul]

theorem eval_sumList (l : List (Expr a b)) (x : Val a) : (sumList l).eval x = (l.map fun f => f.eval x).sum := by
  induction l with
  | nil => simp [sumList, Expr.eval]
  | cons f l ih =>
    cases l with
    | nil => simp [sumList]
    | cons g l => rw [sumList, Expr.eval, ih]; simp

theorem hasRule_sumList (l : List (Expr a b)) (h : ∀ f ∈ l, f.HasRule) : (sumList l).HasRule := by
  induction l with
  | nil => simp [sumList, Expr.HasRule]
  | cons f l ih =>
    cases l with
    | nil => simpa [sumList] using h f (by simp)
    | cons g l =>
      rw [sumList, Expr.HasRule]
      exact ⟨h f (by simp), ih fun f' hf' => h f' (by simp [hf'])⟩

theorem all_sumList (P : Prim → ℝ → Prop) (l : List (Expr a b)) (x : Val a) (h : ∀ f ∈ l, f.All P x) :
    (sumList l).All P x := by
  induction l with
  | nil => simp [sumList, Expr.All]
  | cons f l ih =>
    cases l with
    | nil => simpa [sumList] using h f (by simp)
    | cons g l =>
      rw [sumList, Expr.All]
      exact ⟨h f (by simp), ih fun f' hf' => h f' (by simp [hf'])⟩

end

/-! ## The enumeration of the components -/

theorem sum_enum (t : Ty) {M : Type} [AddCommMonoid M] (f : Idx t → M) : ((enum t).map f).sum = ∑ i, f i := by
  cases t with
  | scalar => simp [enum]
  | vec n =>
    simp only [enum]
    rw [← List.ofFn_eq_map, List.sum_ofFn]
  | mat m n =>
    have h : ((enum (.mat m n)).map f).sum = ∑ i : Fin m, ∑ j : Fin n, f (i, j) := by
      simp only [enum, List.map_flatMap, List.map_map]
      rw [List.flatMap_def, List.sum_flatten, List.map_map, ← List.ofFn_eq_map, List.sum_ofFn]
      refine Finset.sum_congr rfl fun i _ => ?_
      simp only [Function.comp_apply]
      rw [← List.ofFn_eq_map, List.sum_ofFn]
      rfl
    rw [h, ← Fintype.sum_prod_type' (f := fun i j => f (i, j))]

/-! ## The products are bilinear -/

theorem mul_add_right {a b c : Ty} (k : MulKind a b c) (u : Val a) (v w : Val b) :
    mul k u (v + w) = mul k u v + mul k u w := by
  cases k <;> funext i <;> simp [mul, mul_add, Finset.sum_add_distrib]

theorem mul_add_left {a b c : Ty} (k : MulKind a b c) (u v : Val a) (w : Val b) :
    mul k (u + v) w = mul k u w + mul k v w := by
  cases k <;> funext i <;> simp [mul, add_mul, Finset.sum_add_distrib]

theorem mul_smul_right {a b c : Ty} (k : MulKind a b c) (s : ℝ) (u : Val a) (v : Val b) :
    mul k u (s • v) = s • mul k u v := by
  cases k <;> funext i <;> simp [mul, Finset.mul_sum, mul_left_comm]

theorem mul_smul_left {a b c : Ty} (k : MulKind a b c) (s : ℝ) (u : Val a) (v : Val b) :
    mul k (s • u) v = s • mul k u v := by
  cases k <;> funext i <;> simp [mul, Finset.mul_sum, mul_assoc]

/-- the product as a continuous bilinear map -/
noncomputable def mulL {a b c : Ty} (k : MulKind a b c) : Val a →L[ℝ] Val b →L[ℝ] Val c :=
  LinearMap.toContinuousLinearMap
    { toFun := fun u => LinearMap.toContinuousLinearMap
        { toFun := fun v => mul k u v
          map_add' := mul_add_right k u
          map_smul' := fun s v => mul_smul_right k s u v }
      map_add' := fun u v => by ext1 w; exact mul_add_left k u v w
      map_smul' := fun s u => by ext1 w; exact mul_smul_left k s u w }

@[simp] theorem mulL_apply {a b c : Ty} (k : MulKind a b c) (u : Val a) (v : Val b) : mulL k u v = mul k u v := rfl

/-! ## Linear maps given by their values on the unit vectors -/

/-- the linear map with the given partial derivatives -/
noncomputable def jac {a b : Ty} (d : Idx a → Val b) : Val a →L[ℝ] Val b :=
  ∑ i, (ContinuousLinearMap.proj (R := ℝ) (φ := fun _ : Idx a => ℝ) i).smulRight (d i)

theorem jac_apply {a b : Ty} (d : Idx a → Val b) (v : Val a) : jac d v = ∑ i, v i • d i := by
  simp [jac, ContinuousLinearMap.sum_apply]

theorem jac_single {a b : Ty} (d : Idx a → Val b) (i : Idx a) : jac d (Pi.single i 1) = d i := by
  rw [jac_apply, Finset.sum_eq_single i]
  · simp
  · intro j _ hj; simp [hj]
  · intro h; exact absurd (Finset.mem_univ i) h

/-! ## The derivatives of the functions of the library -/

theorem hasDerivAt_cbrt {x : ℝ} (hx : x ≠ 0) : HasDerivAt cbrt ((cbrt x ^ 2)⁻¹ * (1 / 3)) x := by
  have key : ∀ y : ℝ, 0 < y → HasDerivAt (fun y : ℝ => y ^ ((1 : ℝ) / 3)) (((y ^ ((1 : ℝ) / 3)) ^ 2)⁻¹ * (1 / 3)) y := by
    intro y hy
    have h := Real.hasDerivAt_rpow_const (x := y) (p := 1 / 3) (Or.inl hy.ne')
    refine h.congr_deriv ?_
    rw [← Real.rpow_natCast, ← Real.rpow_mul hy.le, ← Real.rpow_neg hy.le, mul_comm]
    norm_num
  rcases lt_or_gt_of_ne hx with h | h
  · have h1 : cbrt =ᶠ[nhds x] fun y => -((-y) ^ ((1 : ℝ) / 3)) := by
      filter_upwards [gt_mem_nhds h] with y hy
      simp [cbrt, not_le.mpr hy]
    have h2 := ((key (-x) (by linarith)).comp x (hasDerivAt_neg x)).neg
    refine (h2.congr_of_eventuallyEq h1).congr_deriv ?_
    simp [cbrt, not_le.mpr h]
  · have h1 : cbrt =ᶠ[nhds x] fun y => y ^ ((1 : ℝ) / 3) := by
      filter_upwards [lt_mem_nhds h] with y hy
      simp [cbrt, (hy : 0 < y).le]
    refine ((key x h).congr_of_eventuallyEq h1).congr_deriv ?_
    simp [cbrt, h.le]

theorem cbrt_ne_zero {x : ℝ} (hx : x ≠ 0) : cbrt x ≠ 0 := by
  unfold cbrt
  split
  · next h => exact (Real.rpow_pos_of_pos (lt_of_le_of_ne h hx.symm) _).ne'
  · next h => exact neg_ne_zero.mpr (Real.rpow_pos_of_pos (by linarith [not_le.mp h]) _).ne'

theorem prim_hasDerivAt (p : Prim) {x : ℝ} (h : p.Smooth x) :
    HasDerivAt p.eval (p.derivative.eval (sc x) ()) x := by
  cases p with
  | sin =>
    refine (Real.hasDerivAt_sin x).congr_deriv ?_
    simp [Prim.derivative, Expr.eval, Prim.eval]
  | cos =>
    refine (Real.hasDerivAt_cos x).congr_deriv ?_
    simp [Prim.derivative, Expr.eval, Prim.eval]
  | tan =>
    refine (Real.hasDerivAt_tan h).congr_deriv ?_
    simp [Prim.derivative, Expr.eval, Prim.eval, power_eq]
  | acos =>
    refine (Real.hasDerivAt_arccos (by have := h.1; linarith) (by have := h.2; linarith)).congr_deriv ?_
    simp [Prim.derivative, Expr.eval, Prim.eval, power_eq]
  | asin =>
    refine (Real.hasDerivAt_arcsin (by have := h.1; linarith) (by have := h.2; linarith)).congr_deriv ?_
    simp [Prim.derivative, Expr.eval, Prim.eval, power_eq]
  | atan =>
    refine (Real.hasDerivAt_arctan x).congr_deriv ?_
    simp [Prim.derivative, Expr.eval, Prim.eval, power_eq, add_comm]
  | exp =>
    refine (Real.hasDerivAt_exp x).congr_deriv ?_
    simp [Prim.derivative, Expr.eval, Prim.eval]
  | log =>
    refine (Real.hasDerivAt_log (ne_of_gt h)).congr_deriv ?_
    simp [Prim.derivative, Expr.eval, Prim.eval, power_eq]
  | sqrt =>
    refine (Real.hasDerivAt_sqrt (ne_of_gt h)).congr_deriv ?_
    simp [Prim.derivative, Expr.eval, Prim.eval, mul_comm]
  | cbrt =>
    refine (hasDerivAt_cbrt h).congr_deriv ?_
    simp [Prim.derivative, Expr.eval, Prim.eval, power_eq]
  | pow n =>
    have h := hasDerivAt_pow (n + 1) x
    have he : Prim.eval (.pow n) = fun x => x ^ (n + 1) := by
      funext y; simp only [Prim.eval, power_eq]
    rw [he]
    refine h.congr_deriv ?_
    cases n with
    | zero => simp [Prim.derivative, Expr.eval]
    | succ n => simp [Prim.derivative, Expr.eval, Prim.eval, power_eq]; left; ring

/-! ## The derivative of an expression -/

theorem hasFDerivAt {a b : Ty} (f : Expr a b) (hr : f.HasRule) (x : Val a) (hs : f.Smooth x) :
    HasFDerivAt f.eval (jac fun i => (f.derivative i).eval x) x := by
  induction f with
  | functor f => exact hr.elim
  | const c =>
    refine (hasFDerivAt_const c x).congr_fderiv ?_
    ext1 v
    simp [jac_apply, Expr.derivative, Expr.eval]
  | prim p =>
    have h := prim_hasDerivAt p (x := x ()) hs
    rw [hasFDerivAt_pi']
    intro j
    have h1 : HasFDerivAt (fun y : Val .scalar => y ())
        (ContinuousLinearMap.proj (R := ℝ) (φ := fun _ : Idx .scalar => ℝ) ()) x := hasFDerivAt_apply () x
    refine (h.hasFDerivAt.comp x h1).congr_fderiv ?_
    ext1 v
    have hx : sc (x ()) = x := by funext u; rfl
    rw [hx]
    simp [jac_apply (a := .scalar) (b := .scalar), Expr.derivative]
  | component i =>
    rw [hasFDerivAt_pi']
    intro j
    refine (hasFDerivAt_apply i x).congr_fderiv ?_
    ext1 v
    simp [jac_apply (b := .scalar), Expr.derivative, Expr.eval]
  | sum f g hf hg =>
    refine ((hf hr.1 x hs.1).add (hg hr.2 x hs.2)).congr_fderiv ?_
    ext1 v
    simp [jac_apply, Expr.derivative, Expr.eval, Finset.sum_add_distrib]
  | lin k cs fs ih =>
    have h : ∀ i ∈ Finset.univ, HasFDerivAt (fun y => mulL k (cs i) ((fs i).eval y))
        ((mulL k (cs i)).comp (jac fun j => ((fs i).derivative j).eval x)) x := fun i _ =>
      (mulL k (cs i)).hasFDerivAt.comp x (ih i (hr i) x (hs i))
    refine HasFDerivAt.congr_fderiv (f := (Expr.lin k cs fs).eval) (HasFDerivAt.fun_sum h) ?_
    ext1 v
    simp only [ContinuousLinearMap.sum_apply, ContinuousLinearMap.comp_apply, jac_apply, map_sum, map_smul, Expr.derivative,
      Expr.eval, mulL_apply, Finset.smul_sum]
    exact Finset.sum_comm
  | plusConst f c hf => exact (hf hr x hs).add_const c
  | prod k f g hf hg =>
    have h := (mulL k).hasFDerivAt_of_bilinear (hf hr.1 x hs.1) (hg hr.2 x hs.2)
    refine HasFDerivAt.congr_fderiv (f := (Expr.prod k f g).eval) h ?_
    ext1 v
    simp only [ContinuousLinearMap.add_apply, ContinuousLinearMap.precompR_apply, ContinuousLinearMap.compL_apply,
      ContinuousLinearMap.comp_apply, ContinuousLinearMap.precompL_apply, jac_apply,
      map_sum, map_smul, Expr.derivative, Expr.eval, mulL_apply, smul_add, Finset.sum_add_distrib,
      ContinuousLinearMap.sum_apply, ContinuousLinearMap.smul_apply]
  | timesConst k f v hf =>
    have h := ((mulL k).flip v).hasFDerivAt.comp x (hf hr x hs)
    refine HasFDerivAt.congr_fderiv (f := (Expr.timesConst k f v).eval) h ?_
    ext1 w
    simp only [ContinuousLinearMap.comp_apply, jac_apply, map_sum, map_smul, Expr.derivative, Expr.eval, 
      ContinuousLinearMap.flip_apply, mulL_apply]
  | constTimes k v f hf =>
    have h := (mulL k v).hasFDerivAt.comp x (hf hr x hs)
    refine HasFDerivAt.congr_fderiv (f := (Expr.constTimes k v f).eval) h ?_
    ext1 w
    simp only [ContinuousLinearMap.comp_apply, jac_apply, map_sum, map_smul, Expr.derivative, Expr.eval, mulL_apply]
  | recip f hf =>
    rw [hasFDerivAt_pi']
    intro j
    have h1 := (hasFDerivAt_pi'.mp (hf hr x hs.1)) ()
    have h2 := (hasDerivAt_inv hs.2).hasFDerivAt.comp x h1
    have he : (fun y => (Expr.recip f).eval y j) = (fun y => y⁻¹) ∘ fun y => f.eval y () := by
      funext y; simp [Expr.eval]
    rw [he]
    refine h2.congr_fderiv ?_
    ext1 v
    have hne := hs.2
    simp only [ContinuousLinearMap.comp_apply, jac_apply (b := .scalar), ContinuousLinearMap.proj_apply, Finset.sum_apply, Pi.smul_apply,
      Expr.derivative, eval_div, eval_smul, eval_mul, smul_eq_mul, ContinuousLinearMap.toSpanSingleton_apply, Pi.mul_apply]
    rw [Finset.sum_mul]
    refine Finset.sum_congr rfl fun i _ => ?_
    field_simp
  | compS f g hf hg =>
    have h := (hf hr.1 _ hs.1).comp x (hg hr.2 x hs.2)
    refine HasFDerivAt.congr_fderiv (f := (Expr.compS f g).eval) h ?_
    ext1 v
    simp only [ContinuousLinearMap.comp_apply, jac_apply (a := .scalar), jac_apply (b := .scalar), jac_apply, Expr.derivative,
      Expr.eval, mul, Finset.univ_unique,
      Finset.sum_singleton, Finset.sum_apply, Pi.smul_apply, smul_eq_mul, PUnit.default_eq_unit]
    funext j
    simp only [Finset.sum_apply, Pi.smul_apply, smul_eq_mul]
    rw [Finset.sum_mul]
    refine Finset.sum_congr rfl fun i _ => ?_
    rw [mul_assoc, mul_comm ((g.derivative i).eval x _)]
  | @compT a m b f g hf hg =>
    have h := (hf hr.2.1 _ hs.1).comp x (hg hr.2.2 x hs.2)
    refine HasFDerivAt.congr_fderiv (f := (Expr.compT f g).eval) h ?_
    ext1 v
    simp only [ContinuousLinearMap.comp_apply, jac_apply, Expr.derivative, eval_sumList, List.map_map, Function.comp_def]
    funext j
    simp only [sum_enum, Expr.eval, mul, Finset.sum_apply, Pi.smul_apply, smul_eq_mul, Finset.sum_mul, Finset.mul_sum]
    rw [Finset.sum_comm]
    refine Finset.sum_congr rfl fun i _ => Finset.sum_congr rfl fun l _ => ?_
    ring
  | subscript f i hf =>
    rw [hasFDerivAt_pi']
    intro j
    refine ((hasFDerivAt_pi'.mp (hf hr x hs)) i).congr_fderiv ?_
    ext1 v
    simp [jac_apply, jac_apply (b := .scalar), Expr.derivative, Expr.eval]
  | transpose f hf =>
    rw [hasFDerivAt_pi']
    intro j
    refine ((hasFDerivAt_pi'.mp (hf hr x hs)) (j.2, j.1)).congr_fderiv ?_
    ext1 v
    simp [jac_apply (b := .mat _ _), Expr.derivative, Expr.eval]
  | det f hf => exact hr.elim
  | inverse f hf => exact hr.elim
  | dyadic f g hf hg => exact hr.elim

/-! ## Derivatives have rules and are smooth -/

theorem prim_derivative_hasRule (p : Prim) : p.derivative.HasRule := by
  cases p with
  | pow n => cases n <;> simp [Prim.derivative, Expr.HasRule, Expr.smul]
  | _ => simp [Prim.derivative, Expr.HasRule, Expr.smul, Expr.neg, Expr.constDiv, Expr.constSub, Expr.addConst]

theorem prim_derivative_smooth (p : Prim) {x : ℝ} (h : p.Smooth x) : p.derivative.Smooth (sc x) := by
  cases p with
  | pow n => cases n <;> simp [Prim.derivative, Expr.Smooth, Expr.All, Expr.smul, Prim.Smooth]
  | tan =>
    simpa [Prim.derivative, Expr.Smooth, Expr.All, Expr.constDiv, Prim.Smooth, Expr.eval, Prim.eval, power_eq] using h
  | acos =>
    have h1 : 0 < 1 - x ^ 2 := by have := h.1; have := h.2; nlinarith
    have h2 := (Real.sqrt_pos.mpr h1).ne'
    simp [Prim.derivative, Expr.Smooth, Expr.All, Expr.constDiv, Prim.Smooth, Expr.eval, Prim.eval, power_eq, Expr.constSub,
      Expr.addConst, Expr.neg, Expr.smul, mul]
    refine ⟨abs_lt.mpr h, ?_⟩
    rwa [neg_add_eq_sub]
  | asin =>
    have h1 : 0 < 1 - x ^ 2 := by have := h.1; have := h.2; nlinarith
    have h2 := (Real.sqrt_pos.mpr h1).ne'
    simp [Prim.derivative, Expr.Smooth, Expr.All, Expr.constDiv, Prim.Smooth, Expr.eval, Prim.eval, power_eq, Expr.constSub,
      Expr.addConst, Expr.neg, Expr.smul, mul]
    refine ⟨abs_lt.mpr h, ?_⟩
    rwa [neg_add_eq_sub]
  | atan =>
    simp [Prim.derivative, Expr.Smooth, Expr.All, Expr.constDiv, Prim.Smooth, Expr.eval, Prim.eval, power_eq, Expr.addConst]
    positivity
  | log =>
    simpa [Prim.derivative, Expr.Smooth, Expr.All, Expr.constDiv, Prim.Smooth, Expr.eval, Prim.eval, power_eq] using
      ne_of_gt h
  | sqrt =>
    simp [Prim.derivative, Expr.Smooth, Expr.All, Expr.constDiv, Prim.Smooth, Expr.eval, Prim.eval]
    exact ⟨h, (Real.sqrt_pos.mpr h).ne'⟩
  | cbrt =>
    simp [Prim.derivative, Expr.Smooth, Expr.All, Expr.constDiv, Prim.Smooth, Expr.eval, Prim.eval, power_eq]
    exact ⟨h, cbrt_ne_zero h⟩
  | _ => simp [Prim.derivative, Expr.Smooth, Expr.All, Expr.neg, Expr.smul, Prim.Smooth]

theorem derivative_hasRule {a b : Ty} (f : Expr a b) (hr : f.HasRule) (j : Idx a) : (f.derivative j).HasRule := by
  induction f with
  | prim p => exact prim_derivative_hasRule p
  | compT f g hf hg =>
    simp only [Expr.derivative]
    refine hasRule_sumList _ fun e he => ?_
    obtain ⟨i, _, rfl⟩ := List.mem_map.mp he
    exact ⟨⟨hr.1, hf hr.2.1 i, hr.2.2⟩, hg hr.2.2 j⟩
  | lin k cs fs ih => exact fun i => ih i (hr i) j
  | prod k f g hf hg => exact ⟨⟨hr.1, hg hr.2 j⟩, hf hr.1 j, hr.2⟩
  | recip f hf => exact ⟨hf hr j, hr, hr⟩
  | compS f g hf hg => exact ⟨⟨hf hr.1 (), hr.2⟩, hg hr.2 j⟩
  | sum f g hf hg => exact ⟨hf hr.1 j, hg hr.2 j⟩
  | plusConst f c hf => exact hf hr j
  | timesConst k f v hf => exact hf hr j
  | constTimes k v f hf => exact hf hr j
  | subscript f i hf => exact hf hr j
  | transpose f hf => exact hf hr j
  | const c => trivial
  | component i => trivial
  | functor f => exact hr.elim
  | det f => exact hr.elim
  | inverse f => exact hr.elim
  | dyadic f g => exact hr.elim

theorem derivative_smooth {a b : Ty} (f : Expr a b) (x : Val a) (hs : f.Smooth x) (j : Idx a) :
    (f.derivative j).Smooth x := by
  induction f with
  | prim p => exact prim_derivative_smooth p (x := x ()) hs
  | compT f g hf hg =>
    simp only [Expr.derivative]
    refine all_sumList _ _ _ fun e he => ?_
    obtain ⟨i, _, rfl⟩ := List.mem_map.mp he
    exact ⟨⟨hf _ hs.1 i, hs.2⟩, hg _ hs.2 j⟩
  | lin k cs fs ih => exact fun i => ih i x (hs i) j
  | prod k f g hf hg => exact ⟨⟨hs.1, hg x hs.2 j⟩, hf x hs.1 j, hs.2⟩
  | recip f hf =>
    refine ⟨hf x hs.1 j, ⟨hs.1, hs.1⟩, ?_⟩
    have := hs.2
    simp only [Expr.mul, Expr.eval, mul]
    exact mul_ne_zero hs.2 hs.2
  | compS f g hf hg => exact ⟨⟨hf _ hs.1 (), hs.2⟩, hg x hs.2 j⟩
  | sum f g hf hg => exact ⟨hf x hs.1 j, hg x hs.2 j⟩
  | plusConst f c hf => exact hf x hs j
  | timesConst k f v hf => exact hf x hs j
  | constTimes k v f hf => exact hf x hs j
  | subscript f i hf => exact hf x hs j
  | transpose f hf => exact hf x hs j
  | const c => trivial
  | component i => trivial
  | functor f => trivial
  | det f => trivial
  | inverse f => trivial
  | dyadic f g => trivial

theorem all_mono {P Q : Prim → ℝ → Prop} (h : ∀ p x, P p x → Q p x) {a b : Ty} (f : Expr a b) (x : Val a) (hs : f.All P x) :
    f.All Q x := by
  induction f with
  | prim p => exact h _ _ hs
  | compT f g hf hg => exact ⟨hf _ hs.1, hg _ hs.2⟩
  | lin k cs fs ih => exact fun i => ih i x (hs i)
  | prod k f g hf hg => exact ⟨hf _ hs.1, hg _ hs.2⟩
  | recip f hf => exact ⟨hf _ hs.1, hs.2⟩
  | compS f g hf hg => exact ⟨hf _ hs.1, hg _ hs.2⟩
  | sum f g hf hg => exact ⟨hf _ hs.1, hg _ hs.2⟩
  | plusConst f c hf => exact hf x hs
  | timesConst k f v hf => exact hf x hs
  | constTimes k v f hf => exact hf x hs
  | subscript f i hf => exact hf x hs
  | transpose f hf => exact hf x hs
  | const c => trivial
  | component i => trivial
  | functor f => trivial
  | det f hf => exact hf x hs
  | inverse f hf => exact ⟨hf x hs.1, hs.2⟩
  | dyadic f g hf hg => exact ⟨hf _ hs.1, hg _ hs.2⟩

theorem prim_defined_of_smooth (p : Prim) (x : ℝ) (h : p.Smooth x) : p.Defined x := by
  cases p <;> simp_all [Prim.Smooth, Prim.Defined]
  all_goals first | exact ⟨h.1.le, h.2.le⟩ | exact h.le

/-! ## The values of gradients, divergences and matrices of partial derivatives -/

section
variable {d n : Nat}

theorem gradient_eval (f : Expr (.vec d) .scalar) (x : Val (.vec d)) (k : Fin d) :
    (gradient f).eval x k = (f.derivative k).eval x () := by
  rw [gradient, eval_sumList, List.map_map, ← List.ofFn_eq_map, List.sum_ofFn, Finset.sum_apply]
  simp [Expr.eval, mul, unitVec]

theorem derivative_dot (f : Expr (.vec d) (.vec n)) (x : Val (.vec d)) (i : Fin n) (k : Fin d) (j : Unit) :
    ((Expr.prod (.dot n) f (.const (unitVec i))).derivative k).eval x j = (f.derivative k).eval x i := by
  simp [Expr.derivative, Expr.eval, mul, unitVec]

theorem gradientV_eval (f : Expr (.vec d) (.vec n)) (x : Val (.vec d)) (i : Fin n) (k : Fin d) :
    (gradientV f).eval x (i, k) = (f.derivative k).eval x i := by
  rw [gradientV, eval_sumList, List.map_map, ← List.ofFn_eq_map, List.sum_ofFn, Finset.sum_apply,
    Finset.sum_eq_single k]
  · rw [Function.comp_apply, eval_sumList, List.map_map, ← List.ofFn_eq_map, List.sum_ofFn, Finset.sum_apply,
      Finset.sum_eq_single i]
    · simp [Expr.eval, mul, unitMat, derivative_dot]
    · intro l _ hl
      simp [Expr.eval, mul, unitMat, hl.symm]
    · simp
  · intro l _ hl
    rw [Function.comp_apply, eval_sumList, List.map_map, ← List.ofFn_eq_map, List.sum_ofFn, Finset.sum_apply]
    refine Finset.sum_eq_zero fun m _ => ?_
    simp [Expr.eval, mul, unitMat, hl.symm]
  · simp

theorem divergence_eval (f : Expr (.vec d) (.vec d)) (x : Val (.vec d)) :
    (divergence f).eval x () = ∑ i, (f.derivative i).eval x i := by
  rw [divergence, eval_sumList, List.map_map, ← List.ofFn_eq_map, List.sum_ofFn, Finset.sum_apply]
  refine Finset.sum_congr rfl fun i _ => ?_
  rw [Function.comp_apply, derivative_dot]

theorem divergenceT_eval (f : Expr (.vec d) (.mat d d)) (x : Val (.vec d)) (k : Fin d) :
    (divergenceT f).eval x k = ∑ i, (f.derivative i).eval x (k, i) := by
  have key : ∀ k l i : Fin d, ((Expr.prod (.dot d) (.prod (.matVec d d) f (.const (unitVec i)))
      (.const (unitVec l))).derivative i).eval x () = (f.derivative i).eval x (l, i) := by
    intro k l i
    simp [Expr.derivative, Expr.eval, mul, unitVec]
  rw [divergenceT, eval_sumList, List.map_map, ← List.ofFn_eq_map, List.sum_ofFn, Finset.sum_apply,
    Finset.sum_eq_single k]
  · rw [Function.comp_apply, eval_sumList, List.map_map, ← List.ofFn_eq_map, List.sum_ofFn, Finset.sum_apply]
    refine Finset.sum_congr rfl fun i _ => ?_
    have := key k k i
    rw [Function.comp_apply, Expr.eval, mul, this]
    simp [Expr.eval, unitVec]
  · intro l _ hl
    rw [Function.comp_apply, eval_sumList, List.map_map, ← List.ofFn_eq_map, List.sum_ofFn, Finset.sum_apply]
    refine Finset.sum_eq_zero fun m _ => ?_
    simp [Expr.eval, mul, unitVec, hl.symm]
  · simp

theorem jacobianVV_eval (f : Expr (.vec d) (.vec n)) (x : Val (.vec d)) (i : Fin n) (k : Fin d) :
    (jacobianVV f).eval x (i, k) = (f.derivative k).eval x i := by
  rw [jacobianVV, eval_sumList, List.map_map, ← List.ofFn_eq_map, List.sum_ofFn, Finset.sum_apply,
    Finset.sum_eq_single k]
  · rw [Function.comp_apply, eval_sumList, List.map_map, ← List.ofFn_eq_map, List.sum_ofFn, Finset.sum_apply,
      Finset.sum_eq_single i]
    · simp [Expr.eval, mul, unitMat, Expr.derivative]
    · intro l _ hl
      simp [Expr.eval, mul, unitMat, hl.symm]
    · simp
  · intro l _ hl
    rw [Function.comp_apply, eval_sumList, List.map_map, ← List.ofFn_eq_map, List.sum_ofFn, Finset.sum_apply]
    refine Finset.sum_eq_zero fun m _ => ?_
    simp [Expr.eval, mul, unitMat, hl.symm]
  · simp

theorem jacobianVS_eval (f : Expr (.vec d) .scalar) (x : Val (.vec d)) (k : Fin d) :
    (jacobianVS f).eval x (0, k) = (f.derivative k).eval x () := by
  rw [jacobianVS, eval_sumList, List.map_map, ← List.ofFn_eq_map, List.sum_ofFn, Finset.sum_apply,
    Finset.sum_eq_single k]
  · simp [Expr.eval, mul, unitMat]
  · intro l _ hl
    simp [Expr.eval, mul, unitMat, hl.symm]
  · simp

theorem jacobianSV_eval (f : Expr .scalar (.vec n)) (x : Val .scalar) (i : Fin n) :
    (jacobianSV f).eval x (i, 0) = (f.derivative ()).eval x i := by
  rw [jacobianSV, eval_sumList, List.map_map, ← List.ofFn_eq_map, List.sum_ofFn, Finset.sum_apply,
    Finset.sum_eq_single i]
  · simp [Expr.eval, mul, unitMat, Expr.derivative]
  · intro l _ hl
    simp [Expr.eval, mul, unitMat, hl.symm]
  · simp

end

end Mito.Functions
