import Verif.Props.Functions
import Mathlib.Analysis.Calculus.FDeriv.Symmetric

/-! # Lemmas about repeated symbolic differentiation -/

namespace Mito.Functions

open Filter Topology

variable {a b : Ty}

theorem prim_smooth_open (p : Prim) {x : ℝ} (h : p.Smooth x) : ∀ᶠ y in 𝓝 x, p.Smooth y := by
  cases p <;> simp only [Prim.Smooth] at h ⊢ <;> try exact Eventually.of_forall fun _ => trivial
  · exact Real.continuous_cos.continuousAt.eventually_ne h
  · exact (lt_mem_nhds h.1).and (gt_mem_nhds h.2)
  · exact (lt_mem_nhds h.1).and (gt_mem_nhds h.2)
  · exact lt_mem_nhds h
  · exact lt_mem_nhds h
  · exact continuousAt_id.eventually_ne h

/-- the points where an expression is smooth are inner points -/
theorem smooth_open (f : Expr a b) (hr : f.HasRule) (x : Val a) (hs : f.Smooth x) : ∀ᶠ y in 𝓝 x, f.Smooth y := by
  induction f with
  | functor f => exact hr.elim
  | const c => exact Eventually.of_forall fun _ => trivial
  | prim p =>
    have h1 : ContinuousAt (fun y : Val .scalar => y ()) x := (continuous_apply ()).continuousAt
    exact h1.eventually (prim_smooth_open p hs)
  | component i => exact Eventually.of_forall fun _ => trivial
  | sum f g hf hg => exact (hf hr.1 x hs.1).and (hg hr.2 x hs.2)
  | lin k cs fs ih => exact eventually_all.2 fun i => ih i (hr i) x (hs i)
  | plusConst f c hf => exact hf hr x hs
  | prod k f g hf hg => exact (hf hr.1 x hs.1).and (hg hr.2 x hs.2)
  | timesConst k f v hf => exact hf hr x hs
  | constTimes k v f hf => exact hf hr x hs
  | recip f hf =>
    have h1 : ContinuousAt (fun y => f.eval y ()) x :=
      (continuous_apply ()).continuousAt.comp (hasFDerivAt f hr x hs.1).continuousAt
    exact (hf hr x hs.1).and (h1.eventually_ne hs.2)
  | compS f g hf hg =>
    exact ((hasFDerivAt g hr.2 x hs.2).continuousAt.eventually (hf hr.1 _ hs.1)).and (hg hr.2 x hs.2)
  | compT f g hf hg =>
    exact ((hasFDerivAt g hr.2.2 x hs.2).continuousAt.eventually (hf hr.2.1 _ hs.1)).and (hg hr.2.2 x hs.2)
  | subscript f i hf => exact hf hr x hs
  | transpose f hf => exact hf hr x hs
  | det f => exact hr.elim
  | inverse f => exact hr.elim
  | dyadic f g => exact hr.elim

theorem jac_hasFDerivAt {D : Val a → Idx a → Val b} {D' : Idx a → Val a →L[ℝ] Val b} {x : Val a}
    (h : ∀ i, HasFDerivAt (fun y => D y i) (D' i) x) :
    ∃ L : Val a →L[ℝ] Val a →L[ℝ] Val b, HasFDerivAt (fun y => jac (D y)) L x ∧ ∀ v w, L v w = ∑ i, w i • D' i v := by
  have h1 : ∀ i : Idx a, HasFDerivAt
      (fun y => (ContinuousLinearMap.proj (R := ℝ) (φ := fun _ : Idx a => ℝ) i).smulRight (D y i))
      ((ContinuousLinearMap.smulRightL ℝ (Val a) (Val b)
        (ContinuousLinearMap.proj (R := ℝ) (φ := fun _ : Idx a => ℝ) i)).comp (D' i)) x := by
    intro i
    exact (ContinuousLinearMap.smulRightL ℝ (Val a) (Val b)
        (ContinuousLinearMap.proj (R := ℝ) (φ := fun _ : Idx a => ℝ) i)).hasFDerivAt.comp x (h i)
  refine ⟨_, HasFDerivAt.fun_sum fun i _ => h1 i, fun v w => ?_⟩
  simp [ContinuousLinearMap.sum_apply]

/-- the order of two partial derivatives does not matter -/
theorem derivative_comm (f : Expr a b) (hr : f.HasRule) (x : Val a) (hs : f.Smooth x) (i j : Idx a) :
    ((f.derivative i).derivative j).eval x = ((f.derivative j).derivative i).eval x := by
  have h1 : ∀ᶠ y in 𝓝 x, HasFDerivAt f.eval (jac fun i => (f.derivative i).eval y) y :=
    (smooth_open f hr x hs).mono fun y hy => hasFDerivAt f hr y hy
  have h2 : ∀ k, HasFDerivAt (fun y => (f.derivative k).eval y) (jac fun l => ((f.derivative k).derivative l).eval x) x := fun k =>
    hasFDerivAt _ (derivative_hasRule f hr k) x (derivative_smooth f x hs k)
  obtain ⟨L, h3, h4⟩ := jac_hasFDerivAt (D := fun y i => (f.derivative i).eval y) h2
  have h5 := second_derivative_symmetric_of_eventually h1 h3 (Pi.single j 1) (Pi.single i 1)
  simp only [h4, jac_single] at h5
  have h6 : ∀ (l : Idx a) (v : Idx a → Val b), ∑ k, (Pi.single l 1 : Val a) k • v k = v l := by
    intro l v
    rw [Finset.sum_eq_single l]
    · simp
    · intro k _ hk; simp [hk]
    · intro h; exact absurd (Finset.mem_univ l) h
  rwa [h6, h6] at h5

/-- the partial derivatives depend on the values only -/
theorem derivative_congr (f g : Expr a b) (hf : f.HasRule) (hg : g.HasRule) (x : Val a) (sf : f.Smooth x) (sg : g.Smooth x)
    (h : f.eval =ᶠ[𝓝 x] g.eval) (i : Idx a) : (f.derivative i).eval x = (g.derivative i).eval x := by
  have h1 := (hasFDerivAt f hf x sf).unique ((hasFDerivAt g hg x sg).congr_of_eventuallyEq h)
  have h2 := congrArg (fun L : Val a →L[ℝ] Val b => L (Pi.single i 1)) h1
  simpa only [jac_single] using h2

theorem derivatives_again (is : List (Idx a)) (f : Expr a b) (hr : f.HasRule) :
    (f.derivatives is).HasRule ∧ ∀ x, f.Smooth x → (f.derivatives is).Smooth x := by
  induction is generalizing f with
  | nil => exact ⟨hr, fun _ h => h⟩
  | cons i is ih =>
    obtain ⟨h1, h2⟩ := ih _ (derivative_hasRule f hr i)
    exact ⟨h1, fun x hs => h2 x (derivative_smooth f x hs i)⟩

theorem derivatives_congr (is : List (Idx a)) (f g : Expr a b) (hf : f.HasRule) (hg : g.HasRule) (x : Val a) (sf : f.Smooth x)
    (sg : g.Smooth x) (h : f.eval =ᶠ[𝓝 x] g.eval) : (f.derivatives is).eval x = (g.derivatives is).eval x := by
  induction is generalizing f g with
  | nil => exact h.eq_of_nhds
  | cons i is ih =>
    refine ih _ _ (derivative_hasRule f hf i) (derivative_hasRule g hg i) (derivative_smooth f x sf i) (derivative_smooth g x sg i) ?_
    filter_upwards [h.eventually_nhds, smooth_open f hf x sf, smooth_open g hg x sg] with y h1 h2 h3
    exact derivative_congr f g hf hg y h2 h3 h1 i

end Mito.Functions
