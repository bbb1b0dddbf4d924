import Verif.Materials.MaterialsLemmas

/-! # C63, C64, C76: materials -/

namespace Mito.Materials

open scoped Matrix.Norms.Operator

theorem lit2 : (2.0 : ℝ) = 2 := by norm_num
theorem lit3 : (3.0 : ℝ) = 3 := by norm_num
theorem lit5 : (0.5 : ℝ) = 1 / 2 := by norm_num
theorem litm : (-0.5 : ℝ) = -(1 / 2) := by norm_num

/-! ## C63: linear elasticity -/

namespace LinearElastic

variable (m : LinearElastic)

theorem tangentsBody_apply (C : Tensor4) (a b i j k l : Fin 3) : m.tangentsBody C a b i j k l = C i j k l +
    ((if i = a ∧ j = a ∧ k = b ∧ l = b then m.lambda else 0) + (if i = a ∧ j = b ∧ k = a ∧ l = b then m.mu else 0) +
      (if i = b ∧ j = a ∧ k = a ∧ l = b then m.mu else 0)) := by
  simp only [tangentsBody, add]
  split_ifs <;> ring

/-- the tangents, entry by entry -/
theorem tangents_apply (F : Mat3) (i j k l : Fin 3) : m.tangents F i j k l =
    m.lambda * ((if i = j then 1 else 0) * if k = l then 1 else 0) +
      m.mu * ((if i = k then 1 else 0) * (if j = l then 1 else 0) + (if i = l then 1 else 0) * if j = k then 1 else 0) := by
  have h1 : ∀ (L : List (Fin 3)) (a : Fin 3) (C : Tensor4), L.foldl (fun C b => m.tangentsBody C a b) C i j k l = C i j k l +
      (L.map fun b => ((if i = a ∧ j = a ∧ k = b ∧ l = b then m.lambda else 0) + (if i = a ∧ j = b ∧ k = a ∧ l = b then m.mu else 0) +
        (if i = b ∧ j = a ∧ k = a ∧ l = b then m.mu else 0))).sum := by
    intro L a
    induction L with
    | nil => simp
    | cons b L ih =>
      intro C
      rw [List.foldl_cons, ih, tangentsBody_apply, List.map_cons, List.sum_cons, add_assoc]
  have h2 : ∀ (L : List (Fin 3)) (C : Tensor4), L.foldl (fun C a => (List.finRange 3).foldl (fun C b => m.tangentsBody C a b) C) C i j k l =
      C i j k l + (L.map fun a => ((List.finRange 3).map fun b => ((if i = a ∧ j = a ∧ k = b ∧ l = b then m.lambda else 0) +
        (if i = a ∧ j = b ∧ k = a ∧ l = b then m.mu else 0) + (if i = b ∧ j = a ∧ k = a ∧ l = b then m.mu else 0))).sum).sum := by
    intro L
    induction L with
    | nil => simp
    | cons a L ih =>
      intro C
      rw [List.foldl_cons, ih, h1, List.map_cons, List.sum_cons, add_assoc]
  rw [tangents, h2]
  simp only [← List.ofFn_eq_map, List.sum_ofFn, Fin.sum_univ_three, zero_add]
  fin_cases i <;> fin_cases j <;> fin_cases k <;> fin_cases l <;> simp <;> ring

theorem hasGradient_strain (F : Mat3) (i j : Fin 3) : HasGradient (fun F => symmetric (F - 1) i j)
    ((1 / 2 : ℝ) • (Matrix.single i j 1 + Matrix.single j i 1)) F := by
  have e : (fun F : Mat3 => symmetric (F - 1) i j) =
      fun F => 1 / 2 * (F i j + F j i) + -(1 / 2 * ((1 : Mat3) i j + (1 : Mat3) j i)) := by
    funext F
    simp only [symmetric, Matrix.smul_apply, Matrix.add_apply, Matrix.sub_apply, Matrix.transpose_apply, smul_eq_mul]
    ring
  rw [e]
  refine (((HasGradient.const (1 / 2) F).mul ((HasGradient.entry i j F).add (HasGradient.entry j i F))).add
    (HasGradient.const _ F)).congr ?_
  simp

theorem hasGradient_stress (F : Mat3) (i j : Fin 3) : HasGradient (fun F => m.stress F i j)
    ((m.lambda * (1 : Mat3) i j) • (1 : Mat3) + m.mu • (Matrix.single i j 1 + Matrix.single j i 1)) F := by
  have e : (fun F : Mat3 => m.stress F i j) = fun F => m.lambda * (1 : Mat3) i j *
      (symmetric (F - 1) 0 0 + symmetric (F - 1) 1 1 + symmetric (F - 1) 2 2) + 2.0 * m.mu * symmetric (F - 1) i j := by
    funext F
    simp only [stress, Matrix.add_apply, Matrix.smul_apply, smul_eq_mul, Matrix.trace_fin_three, lit2]
    ring
  rw [e]
  have h := fun i => hasGradient_strain F i i
  refine (((HasGradient.const _ F).mul (((h 0).add (h 1)).add (h 2))).add
    ((HasGradient.const _ F).mul (hasGradient_strain F i j))).congr ?_
  have h1 : ((1 / 2 : ℝ) • (Matrix.single (0 : Fin 3) 0 1 + Matrix.single 0 0 1) + (1 / 2 : ℝ) • (Matrix.single (1 : Fin 3) 1 1 +
      Matrix.single 1 1 1) + (1 / 2 : ℝ) • (Matrix.single (2 : Fin 3) 2 1 + Matrix.single 2 2 1)) = (1 : Mat3) := by
    ext a b
    fin_cases a <;> fin_cases b <;> simp [Matrix.single_apply] <;> norm_num
  rw [h1, smul_zero, smul_zero, add_zero, add_zero, smul_smul]
  congr 2
  rw [lit2]
  ring

/-- the stress is the gradient of the energy -/
theorem stress_consistent (F : Mat3) : m.material.StressConsistent F := by
  have e : m.energy = fun F => 0.5 * ∑ i, ∑ j, m.stress F i j * symmetric (F - 1) i j := rfl
  unfold Material.StressConsistent material
  simp only
  rw [e]
  refine ((HasGradient.const _ F).mul (HasGradient.sum Finset.univ fun i _ => HasGradient.sum Finset.univ fun j _ =>
    (hasGradient_stress m F i j).mul (hasGradient_strain F i j))).congr ?_
  simp only [stress, Matrix.trace_fin_three, symmetric, lit2, lit5]
  ext a b
  fin_cases a <;> fin_cases b <;> simp [Fin.sum_univ_three, Matrix.single_apply, Matrix.one_apply] <;> ring

/-- the tangents are the gradient of the stress -/
theorem tangents_consistent (F : Mat3) : m.material.TangentsConsistent F := by
  intro i j
  refine (hasGradient_stress m F i j).congr ?_
  ext k l
  simp only [material, Matrix.of_apply, tangents_apply, Matrix.add_apply, Matrix.smul_apply, smul_eq_mul, Matrix.one_apply,
    Matrix.single_apply]
  fin_cases i <;> fin_cases j <;> fin_cases k <;> fin_cases l <;> simp <;> ring

theorem tangents_symmetric (F : Mat3) : MajorSymmetric (m.tangents F) ∧ MinorSymmetric (m.tangents F) := by
  refine ⟨fun i j k l => ?_, fun i j k l => ⟨?_, ?_⟩⟩ <;> rw [tangents_apply, tangents_apply] <;>
    fin_cases i <;> fin_cases j <;> fin_cases k <;> fin_cases l <;> simp

theorem stress_symmetric (F : Mat3) : (m.stress F).transpose = m.stress F := by
  simp [stress, symmetric, add_comm]

/-- an infinitesimal rotation changes nothing -/
theorem rotation (F W : Mat3) (hW : W.transpose = -W) : m.energy (F + W) = m.energy F ∧ m.stress (F + W) = m.stress F := by
  have h : symmetric (F + W - 1) = symmetric (F - 1) := by
    unfold symmetric
    congr 1
    rw [show F + W - 1 = (F - 1) + W by abel, Matrix.transpose_add, hW]
    abel
  have hs : m.stress (F + W) = m.stress F := by rw [stress, stress, h]
  exact ⟨by rw [energy, energy, h, hs], hs⟩

/-- the undeformed state is free of stress -/
theorem undeformed : m.stress 1 = 0 ∧ m.energy 1 = 0 := by
  constructor
  · simp [stress, symmetric]
  · simp [energy, symmetric, dot]

/-- the energy of a stable material is positive unless the strain is zero -/
theorem energy_pos (hE : 0 < m.E) (h1 : -1 < m.nu) (h2 : m.nu < 1 / 2) (F : Mat3) :
    0 ≤ m.energy F ∧ (m.energy F = 0 ↔ symmetric (F - 1) = 0) := by
  have hm : 0 < m.mu := by
    unfold mu
    apply div_pos hE
    norm_num
    linarith
  have hk : 0 < 3 * m.lambda + 2 * m.mu := by
    have a : (1 + m.nu) ≠ 0 := by linarith
    have b : (1 - 2 * m.nu) ≠ 0 := by linarith
    have : 3 * m.lambda + 2 * m.mu = m.E / (1 - 2 * m.nu) := by
      have l1 : (1.0 : ℝ) = 1 := by norm_num
      unfold lambda mu
      rw [l1, lit2]
      generalize hd : 1 - 2 * m.nu = d at b ⊢
      have hn : m.nu = (1 - d) / 2 := by rw [← hd]; ring
      rw [hn] at a ⊢
      have a' : 3 - d ≠ 0 := fun h => a (by linarith)
      have hs : 1 + (1 - d) / 2 = (3 - d) / 2 := by ring
      rw [hs]
      field_simp
      ring
    rw [this]
    apply div_pos hE
    linarith
  set ε := symmetric (F - 1) with hε
  have e : m.energy F = 1 / 2 * (m.lambda * (ε 0 0 + ε 1 1 + ε 2 2) ^ 2 + 2 * m.mu * ∑ i, ∑ j, ε i j ^ 2) := by
    simp only [energy, stress, ← hε, dot, Matrix.trace_fin_three, Fin.sum_univ_three, Matrix.add_apply, Matrix.smul_apply, smul_eq_mul]
    simp
    norm_num
    ring
  have key : m.energy F = 1 / 6 * ((3 * m.lambda + 2 * m.mu) * (ε 0 0 + ε 1 1 + ε 2 2) ^ 2) +
      m.mu * (1 / 3 * ((ε 0 0 - ε 1 1) ^ 2 + (ε 1 1 - ε 2 2) ^ 2 + (ε 2 2 - ε 0 0) ^ 2) +
        (ε 0 1 ^ 2 + ε 1 0 ^ 2 + ε 0 2 ^ 2 + ε 2 0 ^ 2 + ε 1 2 ^ 2 + ε 2 1 ^ 2)) := by
    rw [e]
    simp only [Fin.sum_univ_three]
    ring
  have p1 : 0 ≤ (3 * m.lambda + 2 * m.mu) * (ε 0 0 + ε 1 1 + ε 2 2) ^ 2 := mul_nonneg hk.le (sq_nonneg _)
  constructor
  · rw [key]
    positivity
  · constructor
    · intro h0
      have q : 0 ≤ 1 / 3 * ((ε 0 0 - ε 1 1) ^ 2 + (ε 1 1 - ε 2 2) ^ 2 + (ε 2 2 - ε 0 0) ^ 2) +
        (ε 0 1 ^ 2 + ε 1 0 ^ 2 + ε 0 2 ^ 2 + ε 2 0 ^ 2 + ε 1 2 ^ 2 + ε 2 1 ^ 2) := by positivity
      rw [key] at h0
      have q1 := mul_nonneg hm.le q
      have r1 : (3 * m.lambda + 2 * m.mu) * (ε 0 0 + ε 1 1 + ε 2 2) ^ 2 = 0 := by linarith
      have r2 : m.mu * (1 / 3 * ((ε 0 0 - ε 1 1) ^ 2 + (ε 1 1 - ε 2 2) ^ 2 + (ε 2 2 - ε 0 0) ^ 2) +
        (ε 0 1 ^ 2 + ε 1 0 ^ 2 + ε 0 2 ^ 2 + ε 2 0 ^ 2 + ε 1 2 ^ 2 + ε 2 1 ^ 2)) = 0 := by linarith
      have r3 := (mul_eq_zero.mp r2).resolve_left hm.ne'
      have r4 := pow_eq_zero_iff (two_ne_zero) |>.mp ((mul_eq_zero.mp r1).resolve_left hk.ne')
      have a1 := sq_nonneg (ε 0 0 - ε 1 1)
      have a2 := sq_nonneg (ε 1 1 - ε 2 2)
      have a3 := sq_nonneg (ε 2 2 - ε 0 0)
      have b1 := sq_nonneg (ε 0 1)
      have b2 := sq_nonneg (ε 1 0)
      have b3 := sq_nonneg (ε 0 2)
      have b4 := sq_nonneg (ε 2 0)
      have b5 := sq_nonneg (ε 1 2)
      have b6 := sq_nonneg (ε 2 1)
      have z : ∀ x : ℝ, 0 ≤ x ^ 2 → x ^ 2 ≤ 0 → x = 0 := fun x h1 h2 => (pow_eq_zero_iff two_ne_zero).mp (le_antisymm h2 h1)
      have t1 := z _ a1 (by linarith)
      have t2 := z _ a2 (by linarith)
      have c1 := z _ b1 (by linarith)
      have c2 := z _ b2 (by linarith)
      have c3 := z _ b3 (by linarith)
      have c4 := z _ b4 (by linarith)
      have c5 := z _ b5 (by linarith)
      have c6 := z _ b6 (by linarith)
      clear_value ε
      clear e key a1 a2 a3 b1 b2 b3 b4 b5 b6 z p1 q q1 r1 r2 r3 h0
      ext i j
      rw [Matrix.zero_apply]
      fin_cases i <;> fin_cases j <;> simp only [Fin.zero_eta, Fin.mk_one, Fin.reduceFinMk] <;> linarith
    · intro h0
      rw [e, h0]
      simp

end LinearElastic

/-! ## C64: Gent materials -/

namespace Gent

variable (m : Gent)

/-- `(J² - 1) / 2 - log J` -/
noncomputable def volumetric (J : ℝ) : ℝ := 0.5 * (J * J - 1) - Real.log J

theorem volumetric_deriv {J : ℝ} (h : J ≠ 0) : HasDerivAt volumetric (J - J⁻¹) J := by
  have h1 := (((hasDerivAt_id' J).mul (hasDerivAt_id' J)).sub_const 1).const_mul 0.5
  have := h1.sub (Real.hasDerivAt_log h)
  refine this.congr_deriv ?_
  norm_num
  ring

theorem energy_eq (F : Mat3) : m.energy F = -0.5 * m.mu * m.Jm * Real.log (1 - ((F.transpose * F).trace - 3) / m.Jm) +
    (-m.mu * Real.log F.det + 0.5 * m.kappa * volumetric F.det ^ 4) := by
  simp only [energy, volumetric]
  norm_num
  ring

theorem stress_eq (F : Mat3) (i J : Fin 3) : m.stress F i J = m.mu * m.Jm / (m.Jm - (F.transpose * F).trace + 3) * F i J +
    (2 * m.kappa * volumetric F.det ^ 3 * (F.det * F.det - 1) - m.mu) * F⁻¹ J i := by
  simp only [stress, volumetric, Matrix.add_apply, Matrix.smul_apply, Matrix.transpose_apply, smul_eq_mul]
  ring

theorem denominator_ne {F : Mat3} (h : m.Defined F) : m.Jm - (F.transpose * F).trace + 3 ≠ 0 := by
  obtain ⟨_, h2, h3⟩ := h
  have : m.Jm - (F.transpose * F).trace + 3 = m.Jm * (1 - ((F.transpose * F).trace - 3) / m.Jm) := by
    field_simp
    ring
  rw [this]
  exact mul_ne_zero h2 h3.ne'

/-- the stress is the gradient of the energy -/
theorem stress_consistent {F : Mat3} (h : m.Defined F) : m.material.StressConsistent F := by
  have hd := h.1.ne'
  have hC := m.denominator_ne h
  obtain ⟨h1, h2, h3⟩ := h
  have e : m.energy = fun F => -0.5 * m.mu * m.Jm * Real.log (1 - ((F.transpose * F).trace - 3) / m.Jm) +
    (-m.mu * Real.log F.det + 0.5 * m.kappa * volumetric F.det ^ 4) := funext m.energy_eq
  unfold Material.StressConsistent material
  simp only
  rw [e]
  set x := (F.transpose * F).trace with hx
  have p1 : HasDerivAt (fun x => -0.5 * m.mu * m.Jm * Real.log (1 - (x - 3) / m.Jm))
      (-0.5 * m.mu * m.Jm * (-(1 / m.Jm) / (1 - (x - 3) / m.Jm))) x := by
    have := ((((hasDerivAt_id' x).sub_const 3).div_const m.Jm).const_sub 1)
    exact (this.log h3.ne').const_mul _
  have p2 : HasDerivAt (fun J => -m.mu * Real.log J + 0.5 * m.kappa * volumetric J ^ 4)
      (-m.mu * (F.det)⁻¹ + 0.5 * m.kappa * (4 * volumetric F.det ^ 3 * (F.det - (F.det)⁻¹))) F.det := by
    refine ((Real.hasDerivAt_log hd).const_mul _).add ?_
    have := ((volumetric_deriv hd).pow 4).const_mul (0.5 * m.kappa)
    exact_mod_cast this
  refine ((HasGradient.comp (f := fun F : Mat3 => (F.transpose * F).trace) p1 (hasGradient_trace F)).add
    (HasGradient.comp p2 (hasGradient_det hd))).congr ?_
  ext i J
  rw [stress_eq]
  simp only [Matrix.add_apply, Matrix.smul_apply, Matrix.transpose_apply, smul_eq_mul]
  have q : (1 - (x - 3) / m.Jm) = (m.Jm - x + 3) / m.Jm := by field_simp; ring
  rw [q]
  rw [← hx, litm, lit5]
  congr 1
  · field_simp
  · field_simp
    ring

/-- the tangents are the gradient of the stress -/
theorem tangents_consistent {F : Mat3} (h : m.Defined F) : m.material.TangentsConsistent F := by
  have hd := h.1.ne'
  have hC := m.denominator_ne h
  intro i J
  have e : (fun F => m.stress F i J) = fun F => m.mu * m.Jm / (m.Jm - (F.transpose * F).trace + 3) * F i J +
    (2 * m.kappa * volumetric F.det ^ 3 * (F.det * F.det - 1) - m.mu) * F⁻¹ J i := funext fun F => m.stress_eq F i J
  unfold material
  simp only
  rw [e]
  set x := (F.transpose * F).trace with hx
  have p1 : HasDerivAt (fun x => m.mu * m.Jm / (m.Jm - x + 3)) (m.mu * m.Jm / (m.Jm - x + 3) ^ 2) x := by
    have := (((hasDerivAt_id' x).const_sub m.Jm).add_const 3)
    have h2 := (this.inv hC).const_mul (m.mu * m.Jm)
    simp only [div_eq_mul_inv]
    refine h2.congr_deriv ?_
    rw [neg_neg, div_eq_mul_inv, one_mul]
  have p2 : HasDerivAt (fun J => 2 * m.kappa * volumetric J ^ 3 * (J * J - 1) - m.mu)
      (2 * m.kappa * (3 * volumetric F.det ^ 2 * (F.det - (F.det)⁻¹)) * (F.det * F.det - 1) +
        2 * m.kappa * volumetric F.det ^ 3 * (F.det + F.det)) F.det := by
    have a1 := ((volumetric_deriv hd).pow 3).const_mul (2 * m.kappa)
    have a2 := ((hasDerivAt_id' F.det).mul (hasDerivAt_id' F.det)).sub_const 1
    refine ((a1.mul a2).sub_const m.mu).congr_deriv ?_
    norm_num
  refine (((HasGradient.comp (f := fun F : Mat3 => (F.transpose * F).trace) p1 (hasGradient_trace F)).mul (HasGradient.entry i J F)).add
    ((HasGradient.comp p2 (hasGradient_det hd)).mul (hasGradient_inv hd J i))).congr ?_
  ext k L
  simp only [tangents, Matrix.add_apply, Matrix.smul_apply, Matrix.transpose_apply, smul_eq_mul, Matrix.of_apply, Matrix.single_apply,
    volumetric, ← hx, lit2, lit3, lit5]
  have q : m.mu * (m.Jm / (m.Jm - x + 3)) = m.mu * m.Jm / (m.Jm - x + 3) := by ring
  rw [q]
  have r : (m.mu * m.Jm / (m.Jm - x + 3) * if i = k ∧ J = L then 1 else 0) =
    if i = k ∧ J = L then m.mu * m.Jm / (m.Jm - x + 3) else 0 := by split_ifs <;> simp
  rw [r]
  generalize (if i = k ∧ J = L then m.mu * m.Jm / (m.Jm - x + 3) else 0) = z
  generalize F⁻¹ J i = a, F⁻¹ L k = b, F⁻¹ J k = c, F⁻¹ L i = f
  field_simp
  ring

theorem tangents_symmetric (F : Mat3) : MajorSymmetric (m.tangents F) := by
  intro i j k l
  simp only [tangents, lit2, lit3, lit5]
  have h : (i = k ∧ j = l) = (k = i ∧ l = j) := by rw [eq_comm (a := i), eq_comm (a := j)]
  simp only [h]
  ring

/-- the undeformed state is free of stress -/
theorem undeformed (hJ : m.Jm ≠ 0) : m.stress 1 = 0 ∧ m.energy 1 = 0 := by
  constructor
  · ext i j
    rw [stress_eq]
    simp [Matrix.one_apply, volumetric, Matrix.trace_fin_three, hJ]
    norm_num
    split_ifs <;> simp_all
  · rw [energy_eq]
    simp [volumetric]

/-- the tangents of the undeformed state are the ones of linear elasticity; the bulk modulus has no part in them -/
theorem tangents_undeformed (hJ : m.Jm ≠ 0) (i j k l : Fin 3) : m.tangents 1 i j k l =
    2 * m.mu / m.Jm * ((if i = j then 1 else 0) * if k = l then 1 else 0) +
      m.mu * ((if i = k then 1 else 0) * (if j = l then 1 else 0) + (if i = l then 1 else 0) * if j = k then 1 else 0) := by
  simp only [tangents, Matrix.transpose_one, mul_one, Matrix.det_one, Real.log_one, Matrix.trace_fin_three, inv_one, Matrix.one_apply_eq]
  have : m.Jm - (1 + 1 + 1) + 3 = m.Jm := by ring
  rw [this, div_self hJ, lit2, lit3, lit5]
  fin_cases i <;> fin_cases j <;> fin_cases k <;> fin_cases l <;> simp <;> field_simp <;> ring

/-- the energy is frame indifferent and isotropic, the stress rotates with the frame -/
theorem frame_indifferent (F Q : Mat3) (hQ : Q.transpose * Q = 1) (hdet : Q.det = 1) :
    m.energy (Q * F) = m.energy F ∧ m.energy (F * Q) = m.energy F ∧ m.stress (Q * F) = Q * m.stress F := by
  have t1 : ((Q * F).transpose * (Q * F)).trace = (F.transpose * F).trace := by
    rw [Matrix.transpose_mul, Matrix.mul_assoc, ← Matrix.mul_assoc Q.transpose, hQ, Matrix.one_mul]
  have t2 : ((F * Q).transpose * (F * Q)).trace = (F.transpose * F).trace := by
    rw [Matrix.transpose_mul, Matrix.mul_assoc, Matrix.trace_mul_comm, Matrix.mul_assoc, Matrix.mul_assoc,
      mul_eq_one_comm.mp hQ, Matrix.mul_one]
  have d1 : (Q * F).det = F.det := by rw [Matrix.det_mul, hdet, one_mul]
  have d2 : (F * Q).det = F.det := by rw [Matrix.det_mul, hdet, mul_one]
  refine ⟨by simp only [energy, t1, d1], by simp only [energy, t2, d2], ?_⟩
  have hi : ((Q * F)⁻¹).transpose = Q * (F⁻¹).transpose := by
    rw [Matrix.mul_inv_rev, Matrix.transpose_mul, Matrix.inv_eq_left_inv hQ, Matrix.transpose_transpose]
  simp only [stress, t1, d1, hi, Matrix.mul_add, Matrix.mul_smul]

end Gent

/-- A consistent stress is determined by the energy. -/
theorem stress_unique (m m' : Material) (he : m.energy = m'.energy) {F : Mat3} (h : m.StressConsistent F) (h' : m'.StressConsistent F) :
    m.stress F = m'.stress F := by
  unfold Material.StressConsistent at h h'
  rw [← he] at h'
  exact h.unique h'

/-! ## C76: the consistency test -/

theorem norm_zero : norm 0 = 0 := by simp [norm, dot]

theorem linearElastic_increment (m : LinearElastic) (h : ℝ) (F : Mat3) :
    energyIncrement m.material h F - (2.0 * h) • m.stress F = 0 := by
  ext i j
  simp only [energyIncrement, LinearElastic.material, LinearElastic.energy, LinearElastic.stress, symmetric, perturb, dot, Matrix.of_apply,
    Matrix.sub_apply, Matrix.smul_apply, Matrix.trace_fin_three, Matrix.add_apply, Matrix.transpose_apply, smul_eq_mul, Fin.sum_univ_three,
    Matrix.single_apply, Matrix.one_apply, Matrix.zero_apply]
  simp only [lit2, lit5]
  fin_cases i <;> fin_cases j <;> simp <;> ring

/-- a linear elastic material passes whatever the perturbation and the tolerance -/
theorem linearElastic_testStress (m : LinearElastic) (h tol : ℝ) (F : Mat3) : testStress m.material h tol F ↔ 0 < tol := by
  have e : m.material.stress F = m.stress F := rfl
  rw [testStress, e, linearElastic_increment, norm_zero]

theorem linearElastic_testTangents (m : LinearElastic) (h tol : ℝ) (F : Mat3) : testTangents m.material h tol F ↔ 0 < tol := by
  have : (fun i j k l => stressIncrement m.material h F i j k l - m.tangents F i j k l * 2.0 * h) = fun _ _ _ _ => (0 : ℝ) := by
    funext i j k l
    simp only [stressIncrement, LinearElastic.material, LinearElastic.tangents_apply, LinearElastic.stress, symmetric, perturb,
      Matrix.sub_apply, Matrix.smul_apply, Matrix.trace_fin_three, Matrix.add_apply, Matrix.transpose_apply, smul_eq_mul,
      Matrix.single_apply, Matrix.one_apply]
    simp only [lit2, lit5]
    fin_cases i <;> fin_cases j <;> fin_cases k <;> fin_cases l <;> simp <;> ring
  rw [testTangents]
  have e : m.material.tangents F = m.tangents F := rfl
  rw [e, this, norm4]
  simp

/-- A material whose stress is off by `D` passes as soon as the perturbation is small against the tolerance:
the test compares increments, and does not divide them by the perturbation. -/
theorem linearElastic_wrong_passes (m : LinearElastic) (D : Mat3) (h tol : ℝ) (F : Mat3) :
    testStress { m.material with stress := fun F => m.stress F + D } h tol F ↔ norm ((2 * h) • D) < tol := by
  have h0 := linearElastic_increment m h F
  rw [testStress]
  have e : energyIncrement { m.material with stress := fun F => m.stress F + D } h F = energyIncrement m.material h F := rfl
  simp only [e]
  have : energyIncrement m.material h F - (2.0 * h) • (m.stress F + D) = -((2 * h) • D) := by
    rw [smul_add, ← sub_sub, h0, zero_sub, lit2]
  rw [this]
  unfold norm dot
  simp

/-- Whatever its stress, a material passes the test for all small enough perturbations if its energy is continuous. -/
theorem testStress_vacuous (m : Material) (F : Mat3) (hc : ContinuousAt m.energy F) (tol : ℝ) (ht : 0 < tol) :
    ∃ δ > 0, ∀ h, |h| < δ → testStress m h tol F := by
  have hp : ∀ (i j : Fin 3) (c : ℝ), ContinuousAt (fun h : ℝ => m.energy (perturb F i j (c * h))) 0 := by
    intro i j c
    have h1 : ContinuousAt (fun h : ℝ => perturb F i j (c * h)) 0 := by
      apply Continuous.continuousAt
      unfold perturb
      refine continuous_const.add ?_
      have : (fun h : ℝ => Matrix.single i j (c * h)) = fun h : ℝ => (c * h) • Matrix.single i j (1 : ℝ) := by
        funext h
        rw [Matrix.smul_single]
        simp
      rw [this]
      exact (continuous_const.mul continuous_id).smul continuous_const
    have h2 : perturb F i j (c * 0) = F := by simp [perturb]
    exact ContinuousAt.comp (g := m.energy) (by rw [h2]; exact hc) h1
  have hs : ContinuousAt (fun h : ℝ => norm (energyIncrement m h F - (2.0 * h) • m.stress F)) 0 := by
    unfold norm dot
    refine Real.continuous_sqrt.continuousAt.comp ?_
    refine tendsto_finsetSum _ fun i _ => tendsto_finsetSum _ fun j _ => ?_
    have a : ContinuousAt (fun h : ℝ => (energyIncrement m h F - (2.0 * h) • m.stress F) i j) 0 := by
      have e : (fun h : ℝ => (energyIncrement m h F - (2.0 * h) • m.stress F) i j) =
          fun h : ℝ => m.energy (perturb F i j (1 * h)) - m.energy (perturb F i j (-1 * h)) - 2 * h * m.stress F i j := by
        funext h
        simp [energyIncrement, lit2]
      rw [e]
      exact ((hp i j 1).sub (hp i j (-1))).sub (((continuous_const.mul continuous_id).mul continuous_const).continuousAt)
    exact a.mul a
  have h0 : norm (energyIncrement m 0 F - (2.0 * 0 : ℝ) • m.stress F) = 0 := by
    have : energyIncrement m 0 F - (2.0 * 0 : ℝ) • m.stress F = 0 := by
      ext i j
      simp [energyIncrement, perturb]
    rw [this, norm_zero]
  obtain ⟨δ, hδ, hb⟩ := Metric.continuousAt_iff.mp hs tol ht
  refine ⟨δ, hδ, fun h hh => ?_⟩
  have := hb (x := h) (by rwa [Real.dist_eq, sub_zero])
  rw [h0, Real.dist_eq, sub_zero] at this
  exact lt_of_le_of_lt (le_abs_self _) this

/-! ## Examples -/

/-- the materials of the tests: the Gent material is defined at the identity -/
example : (⟨1, 2, 3⟩ : Gent).Defined 1 := by
  refine ⟨by simp, by norm_num, ?_⟩
  simp

/-- a quarter turn about the last axis -/
example : (!![0, -1, 0; 1, 0, 0; 0, 0, 1] : Mat3).transpose * !![0, -1, 0; 1, 0, 0; 0, 0, 1] = 1 ∧
    (!![0, -1, 0; 1, 0, 0; 0, 0, 1] : Mat3).det = 1 := by
  constructor
  · ext i j
    fin_cases i <;> fin_cases j <;> simp [Matrix.mul_apply, Fin.sum_univ_three]
  · simp [Matrix.det_fin_three]

/-- uniaxial stretch of a linear elastic material without lateral contraction -/
example : (⟨1, 0⟩ : LinearElastic).energy !![3, 0, 0; 0, 1, 0; 0, 0, 1] = 2 := by
  simp [LinearElastic.energy, LinearElastic.stress, LinearElastic.lambda, LinearElastic.mu, symmetric, dot, Fin.sum_univ_three,
    Matrix.one_apply]
  try norm_num

/-- a stress wrong by the identity fails the test at a perturbation of 1 and a tolerance of 1, and passes at a perturbation of 1/10 -/
example : ¬ testStress { (⟨1, 0⟩ : LinearElastic).material with stress := fun F => (⟨1, 0⟩ : LinearElastic).stress F + 1 } 1 1 1 ∧
    testStress { (⟨1, 0⟩ : LinearElastic).material with stress := fun F => (⟨1, 0⟩ : LinearElastic).stress F + 1 } (1 / 10) 1 1 := by
  rw [linearElastic_wrong_passes, linearElastic_wrong_passes]
  unfold norm dot
  rw [Real.sqrt_lt' one_pos, Real.sqrt_lt' one_pos]
  simp [Fin.sum_univ_three, Matrix.one_apply]
  norm_num

end Mito.Materials
