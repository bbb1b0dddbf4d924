import Verif.Spec.Gradient
import Verif.Props.Coordinates
import Verif.Props.Functions

/-! # Lemmas about gradients in curvilinear coordinates -/

namespace Mito.Geometry

open Mito.Tensor Mito.Functions Filter Topology

variable {d : Nat} {S : System d} {A : Vec d} {h : Fin d → ℝ} {pos : Vec d → Vec d} {frame : Vec d → Mat d}

theorem update_tendsto (A : Vec d) (I : Fin d) : Tendsto (fun t => Function.update A I t) (𝓝 (A I)) (𝓝 A) := by
  have h1 : ContinuousAt (fun t => Function.update A I t) (A I) := (hasDerivAt_update A I (A I)).continuousAt
  have h2 := h1.tendsto
  rwa [Function.update_eq_self] at h2

theorem orthogonal_right {Q : Mat d} (hQ : Q.transpose * Q = 1) : Q * Q.transpose = 1 := mul_eq_one_comm.1 hQ

theorem orthogonal_mulVec {Q : Mat d} (hQ : Q.transpose * Q = 1) (v : Vec d) : Q.mulVec (Q.transpose.mulVec v) = v := by
  rw [Matrix.mulVec_mulVec, orthogonal_right hQ, Matrix.one_mulVec]

/-- the partial derivatives of a field in coordinates -/
theorem partial_chain (hb : CoordinateBasis S pos frame) {f : Expr (.vec d) .scalar} (hr : f.HasRule) (hs : f.Smooth A) {F : Vec d → ℝ}
    {G : Vec d} (hF : HasGradient F G (pos A)) (hf : Represents pos f F A) (I : Fin d) :
    (f.derivative I).eval A () = G ⬝ᵥ (frame A).mulVec (S.e I A) := by
  obtain ⟨L, h1, h2⟩ := hF
  have h3 : HasDerivAt (fun t => F (pos (Function.update A I t))) (L ((frame A).mulVec (S.e I A))) (A I) := by
    have h4 : HasFDerivAt F L (pos (Function.update A I (A I))) := by rwa [Function.update_eq_self]
    exact h4.comp_hasDerivAt (A I) (hb A I)
  have h5 : HasDerivAt (fun t => f.eval (Function.update A I t) ()) ((f.derivative I).eval A ()) (A I) :=
    hasDerivAt_pi.mp (partial_correct f hr A hs I).1 ()
  have h6 : (fun t => f.eval (Function.update A I t) ()) =ᶠ[𝓝 (A I)] fun t => F (pos (Function.update A I t)) :=
    (update_tendsto A I).eventually hf
  rw [← h2]
  exact h5.unique (h3.congr_of_eventuallyEq h6)

theorem gradientForm_smul (S : System d) (f : Expr (.vec d) .scalar) (A : Vec d) (s : ℝ) (v : Vec d) :
    S.gradientForm f A (s • v) = s * S.gradientForm f A v := by
  simp only [System.gradientForm, System.dx, Tensor.oneForm, dotProduct_smul, smul_eq_mul, Finset.mul_sum]
  exact Finset.sum_congr rfl fun I _ => by ring

theorem Diagonal.gradientVector (H : Diagonal S A h) (f : Expr (.vec d) .scalar) (K : Fin d) :
    S.gradientVector f A K = (f.derivative K).eval A () / h K := by
  rw [System.gradientVector, H.sharp (gradientForm_smul S f A)]
  simp only [System.gradientForm]
  rw [Finset.sum_eq_single K]
  · rw [H.dx, Pi.single_eq_same]
    ring
  · intro J _ hJ
    rw [H.dx, Pi.single_eq_of_ne hJ]
    simp
  · simp

/-- the trace does not depend on the orthonormal basis -/
theorem trace_frame {Q : Mat d} (hQ : Q.transpose * Q = 1) (L : Vec d →L[ℝ] Vec d) :
    ∑ i, L (Pi.single i 1) i = ∑ I, Q.transpose.mulVec (L (Q.mulVec (Pi.single I 1))) I := by
  have h1 : ∀ v, L v = ∑ k, v k • L (Pi.single k 1) := by
    intro v
    conv_lhs => rw [← Finset.univ_sum_single v]
    rw [map_sum]
    refine Finset.sum_congr rfl fun k _ => ?_
    rw [← map_smul, ← Pi.single_smul, smul_eq_mul, mul_one]
  have h2 : ∀ I, L (Q.mulVec (Pi.single I 1)) = ∑ k, Q k I • L (Pi.single k 1) := by
    intro I
    rw [h1]
    exact Finset.sum_congr rfl fun k _ => by rw [Matrix.mulVec_single_one]; rfl
  have h3 : ∀ i k, ∑ I, Q i I * Q k I = if i = k then 1 else 0 := by
    intro i k
    have := congrFun (congrFun (orthogonal_right hQ) i) k
    rwa [Matrix.mul_apply, Matrix.one_apply] at this
  simp only [h2, Matrix.mulVec, dotProduct, Matrix.transpose_apply, Finset.sum_apply, Pi.smul_apply, smul_eq_mul, Finset.mul_sum]
  rw [Finset.sum_comm]
  have h4 : ∀ i : Fin d, ∑ I, ∑ k, Q i I * (Q k I * L (Pi.single k 1) i) = L (Pi.single i 1) i := by
    intro i
    rw [Finset.sum_comm]
    simp only [← mul_assoc, ← Finset.sum_mul, h3]
    simp
  exact (Finset.sum_congr rfl fun i _ => h4 i).symm

/-- the divergence in an orthonormal frame: the derivatives of the components and the turning of the frame -/
theorem divergence_chain (hQ : (frame A).transpose * frame A = 1) (hb : CoordinateBasis S pos frame) (H : Diagonal S A h)
    {D : Fin d → Mat d} (hD : FrameDerivative frame D A) {v : Expr (.vec d) (.vec d)} (hr : v.HasRule) (hs : v.Smooth A)
    {W : Vec d → Vec d} {c : ℝ} (hW : HasDivergence W c (pos A)) (hv : RepresentsV pos frame v W A) :
    c = ∑ I, ((v.derivative I).eval A I + ((frame A).transpose * D I).mulVec (v.eval A) I) / h I := by
  obtain ⟨L, h1, rfl⟩ := hW
  rw [trace_frame hQ]
  refine Finset.sum_congr rfl fun I _ => ?_
  have h3 : HasDerivAt (fun t => W (pos (Function.update A I t))) (L ((frame A).mulVec (S.e I A))) (A I) := by
    have h4 : HasFDerivAt W L (pos (Function.update A I (A I))) := by rwa [Function.update_eq_self]
    exact h4.comp_hasDerivAt (A I) (hb A I)
  have h5 : HasDerivAt (fun t => (frame (Function.update A I t)).mulVec (v.eval (Function.update A I t)))
      ((D I).mulVec (v.eval A) + (frame A).mulVec ((v.derivative I).eval A)) (A I) := by
    rw [hasDerivAt_pi]
    intro i
    simp only [Matrix.mulVec, dotProduct, Pi.add_apply, ← Finset.sum_add_distrib]
    refine HasDerivAt.fun_sum fun k _ => ?_
    have h6 := (hD I i k).fun_mul (hasDerivAt_pi.mp (partial_correct v hr A hs I).1 k)
    simpa only [Function.update_eq_self] using h6
  have h6 : (fun t => (frame (Function.update A I t)).mulVec (v.eval (Function.update A I t))) =ᶠ[𝓝 (A I)]
      fun t => W (pos (Function.update A I t)) := (update_tendsto A I).eventually hv
  have h7 := h5.unique (h3.congr_of_eventuallyEq h6)
  have h8 : S.e I A = h I • Pi.single I (1 : ℝ) := by rw [H.basis, ← Pi.single_smul, smul_eq_mul, mul_one]
  rw [h8, Matrix.mulVec_smul, map_smul] at h7
  have h9 := (H.pos I).ne'
  have h10 := congrArg (fun u => (frame A).transpose.mulVec u I) h7
  simp only [Matrix.mulVec_add, Matrix.mulVec_mulVec, hQ, Matrix.one_mulVec, Matrix.mulVec_smul, Pi.add_apply, Pi.smul_apply, smul_eq_mul] at h10
  rw [eq_div_iff h9, mul_comm, ← h10, add_comm]

end Mito.Geometry
