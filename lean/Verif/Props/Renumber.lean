import Verif.Props.Integrator

/-! # C85: the order of the nodes of the cells -/

namespace Mito.Quadrature

open Mito.Functions Mito.Geometry

variable {n d : Nat}

theorem barycentric_cast (ξ : Fin n → ℚ) (a : Fin (n + 1)) :
    barycentric (fun i => (ξ i : ℝ)) a = ((bary ξ a : ℚ) : ℝ) := by
  unfold barycentric bary
  induction a using Fin.lastCases with
  | last => simp
  | cast i => simp

theorem apply_bary (t : Table (n + 1)) (x : Fin (n + 2) → Val (.vec d)) (f : Val (.vec d) → ℝ) :
    apply t (fun ξ => f ((parametrization x).eval ξ)) =
      ((t.map fun p => (bary p.1, p.2)).map fun q => (q.2 : ℝ) * f (∑ a, ((q.1 a : ℚ) : ℝ) • x a)).sum := by
  unfold apply Table.rule
  rw [List.map_map, List.map_map]
  refine congrArg List.sum (List.map_congr_left fun p _ => ?_)
  simp only [Function.comp_apply]
  rw [parametrization_barycentric]
  simp only [barycentric_cast]

/-- **C85.**  A symmetric rule gives the same mean over a cell whatever the order of its nodes. -/
theorem apply_renumber {t : Table (n + 1)} (ht : Symmetric t) (c : Cell n d) (key : Nat)
    (σ : Equiv.Perm (Fin (n + 2))) (f : Val (.vec d) → ℝ) :
    apply t (fun ξ => f ((parametrization (c.renumber key σ).nodes).eval ξ)) =
      apply t fun ξ => f ((parametrization c.nodes).eval ξ) := by
  rw [apply_bary, apply_bary]
  refine Eq.trans ?_ ((ht σ.symm).map _).sum_eq
  rw [List.map_map, List.map_map]
  refine congrArg List.sum (List.map_congr_left fun p _ => ?_)
  simp only [Function.comp_apply, Cell.renumber]
  congr 2
  refine Fintype.sum_equiv σ _ _ fun a => ?_
  rw [Equiv.symm_apply_apply]

/-- **C85.**  Reordering the nodes of the cells of a mesh: if the volumes change by the signs of the
permutations, so do the contributions of the cells to the integral. -/
theorem integrate_renumber (debug : Bool) {t : Table (n + 1)} (ht : Symmetric t) (volume : Cell n d → ℝ)
    (cells : List (Cell n d)) (f : Val (.vec d) → ℝ) (key : Cell n d → Nat)
    (σ : Cell n d → Equiv.Perm (Fin (n + 2))) (hk : (cells.map key).Nodup)
    (hv : ∀ c ∈ cells, volume (c.renumber (key c) (σ c)) = ((Equiv.Perm.sign (σ c) : ℤ) : ℝ) * volume c) :
    integrate debug t volume (cells.map fun c => c.renumber (key c) (σ c)) f =
      .value (quadratureSum t (fun c => ((Equiv.Perm.sign (σ c) : ℤ) : ℝ) * volume c) cells f) := by
  rw [integrate_value]
  · rw [quadratureSum, quadratureSum, List.map_map]
    congr 2
    refine List.map_congr_left fun c hc => ?_
    rw [Function.comp_apply, hv c hc, apply_renumber ht]
  · rw [List.map_map]
    exact hk

/-- **C85.**  The integral over flipped cells is the opposite. -/
theorem integrate_flip (debug : Bool) {t : Table (n + 1)} (ht : Symmetric t) (volume : Cell n d → ℝ)
    (cells : List (Cell n d)) (f : Val (.vec d) → ℝ) (key : Cell n d → Nat)
    (σ : Cell n d → Equiv.Perm (Fin (n + 2))) (hc : (cells.map Cell.key).Nodup) (hk : (cells.map key).Nodup)
    (hσ : ∀ c ∈ cells, Equiv.Perm.sign (σ c) = -1)
    (hv : ∀ c ∈ cells, volume (c.renumber (key c) (σ c)) = ((Equiv.Perm.sign (σ c) : ℤ) : ℝ) * volume c) :
    ∃ i, integrate debug t volume cells f = .value i ∧
      integrate debug t volume (cells.map fun c => c.renumber (key c) (σ c)) f = .value (-i) := by
  refine ⟨_, integrate_value debug t volume cells f hc, ?_⟩
  rw [integrate_renumber debug ht volume cells f key σ hk hv, quadratureSum, quadratureSum]
  congr 1
  rw [List.sum_neg, List.map_map]
  refine congrArg List.sum (List.map_congr_left fun c h => ?_)
  rw [hσ c h]
  simp

/-- **C85.**  The volumes of cells that have the dimension of the space change by the sign. -/
theorem volume_renumber (c : Cell n (n + 1)) (hn : n ≤ 2) (key : Nat) (σ : Equiv.Perm (Fin (n + 2))) :
    (cartesian (n + 1)).volume (c.renumber key σ).nodes =
      ((Equiv.Perm.sign σ : ℤ) : ℝ) * (cartesian (n + 1)).volume c.nodes := by
  rw [volume_cartesian (by omega) (by omega), volume_cartesian (by omega) (by omega)]
  exact volume_permutation c.nodes σ

theorem det_swap {k n : Nat} (u : Fin k → Fin (k + n) → ℝ) (x : Fin (n + 1) → Fin (k + n) → ℝ) {a b : Fin (n + 1)}
    (hab : a ≠ b) :
    Matrix.det (Matrix.of (Fin.append u fun j => x (Equiv.swap a b j.succ) - x (Equiv.swap a b 0))) =
      - Matrix.det (Matrix.of (Fin.append u fun j => x j.succ - x 0)) := by
  wlog h : a ≤ b generalizing a b
  · rw [Equiv.swap_comm]
    exact this hab.symm (le_of_not_ge h)
  obtain ⟨b, rfl⟩ : ∃ b', Fin.succ b' = b :=
    Fin.exists_succ_eq.mpr fun hb => hab (le_antisymm h (by rw [hb]; exact Fin.zero_le _))
  set M : Matrix (Fin (k + n)) (Fin (k + n)) ℝ := Matrix.of (Fin.append u fun j => x j.succ - x 0) with hM
  have hu : ∀ i, M (Fin.castAdd n i) = u i := fun i => by rw [hM]; exact Fin.append_left u (fun j => x j.succ - x 0) i
  have hx : ∀ i, M (Fin.natAdd k i) = x i.succ - x 0 := fun i => by rw [hM]; exact Fin.append_right u (fun j => x j.succ - x 0) i
  induction a using Fin.cases with
  | zero =>
    have h1 : (M.updateRow (Fin.natAdd k b) ((-1 : ℝ) • M (Fin.natAdd k b))).det = - M.det := by
      rw [Matrix.det_updateRow_smul, Matrix.updateRow_eq_self, neg_one_mul]
    rw [← h1]
    refine Matrix.det_eq_of_forall_row_eq_smul_add_const
      (Fin.append (fun _ => 0) fun i => if i = b then 0 else 1) (Fin.natAdd k b) (by simp) fun i j => ?_
    rw [Matrix.updateRow_self]
    induction i using Fin.addCases with
    | left i =>
      rw [Matrix.updateRow_ne (by intro h; have := congrArg Fin.val h; simp at this; omega), hu]
      simp
    | right i =>
      by_cases e : i = b
      · subst e
        rw [Matrix.updateRow_self, hx]
        simp
      · rw [Matrix.updateRow_ne (by simpa using e), hx, hx]
        have e' : i.succ ≠ b.succ := by simpa using e
        simp [e, Equiv.swap_apply_of_ne_of_ne (Fin.succ_ne_zero i) e']
  | succ a =>
    have hab' : a ≠ b := fun h => hab (by rw [h])
    have h1 := Matrix.det_permute (Equiv.swap (Fin.natAdd k a) (Fin.natAdd k b)) M
    rw [Equiv.Perm.sign_swap (by simpa using hab')] at h1
    simp only [Units.val_neg, Units.val_one, Int.cast_neg, Int.cast_one, neg_mul, one_mul] at h1
    rw [← h1]
    congr 1
    ext i j
    have h0 : Equiv.swap a.succ b.succ 0 = 0 :=
      Equiv.swap_apply_of_ne_of_ne (Fin.succ_ne_zero a).symm (Fin.succ_ne_zero b).symm
    rw [Matrix.submatrix_apply, id, h0]
    induction i using Fin.addCases with
    | left i =>
      rw [Equiv.swap_apply_of_ne_of_ne (by intro h; have := congrArg Fin.val h; simp at this; omega)
        (by intro h; have := congrArg Fin.val h; simp at this; omega), hu]
      simp
    | right i =>
      have h2 : Equiv.swap a.succ b.succ i.succ = (Equiv.swap a b i).succ :=
        ((Fin.succ_injective n).map_swap ..).symm
      have h3 : Equiv.swap (Fin.natAdd k a) (Fin.natAdd k b) (Fin.natAdd k i) = Fin.natAdd k (Equiv.swap a b i) :=
        ((Fin.natAdd_injective n k).map_swap ..).symm
      rw [h3, hx]
      simp [h2]

/-- **C85.**  The volumes of cells of submanifolds with constant normal fields change by the sign. -/
theorem subVolume_renumber {k n : Nat} (hk : 1 ≤ k + n) (hk' : k + n ≤ 3) (normals : Fin k → Tensor.Vec (k + n))
    (x : Fin (n + 1) → Tensor.Vec (k + n)) (σ : Equiv.Perm (Fin (n + 1))) :
    System.subVolume (cartesian (k + n)) (fun a _ => normals a) (fun a => x (σ a)) =
      ((Equiv.Perm.sign σ : ℤ) : ℝ) * System.subVolume (cartesian (k + n)) (fun a _ => normals a) x := by
  have key : ∀ x : Fin (n + 1) → Tensor.Vec (k + n),
      System.subVolume (cartesian (k + n)) (fun a _ => normals a) x = (n.factorial : ℝ)⁻¹ *
        Matrix.det (Matrix.of (Fin.append normals fun j => x j.succ - x 0)) := by
    intro x
    rw [System.subVolume, cartesian_w hk hk', show (1.0 : ℝ) / (n.factorial : ℝ) = (n.factorial : ℝ)⁻¹ by norm_num]
    rfl
  induction σ using Equiv.Perm.swap_induction_on generalizing x with
  | one => simp
  | swap_mul τ a b hab ih =>
    have h1 := ih fun c => x (Equiv.swap a b c)
    rw [show (fun c => x ((Equiv.swap a b * τ) c)) = fun c => x (Equiv.swap a b (τ c)) from rfl, h1,
      key, key, det_swap _ _ hab, Equiv.Perm.sign_mul, Equiv.Perm.sign_swap hab]
    push_cast
    ring

/-- **C85.**  The rules are symmetric, except that of order 4 on triangles, whose decimals do not add up
to one. -/
theorem rules_symmetric : Symmetric segment1 ∧ Symmetric segment2 ∧ Symmetric triangle1 ∧ Symmetric triangle2 ∧
    Symmetric triangle3 ∧ ¬ Symmetric triangle4 ∧ Symmetric tetrahedron1 ∧ Symmetric tetrahedron2 := by
  refine ⟨?_, ?_, ?_, ?_, ?_, ?_, ?_, ?_⟩ <;> decide +kernel

/-- With normals that are not constant the sign is not that of the permutation: the normal is taken at the
first node, and here it points to the other side at the other node. -/
theorem subVolume_order_fails : ∃ (normal : Tensor.Vec 2 → Tensor.Vec 2) (x : Fin 2 → Tensor.Vec 2),
    (∀ a, normal (x a) ⬝ᵥ normal (x a) = 1 ∧ normal (x a) ⬝ᵥ (x 1 - x 0) = 0) ∧
      System.subVolume (k := 1) (n := 1) (cartesian 2) (fun _ => normal) (fun a => x (Equiv.swap 0 1 a)) =
        System.subVolume (k := 1) (n := 1) (cartesian 2) (fun _ => normal) x ∧
      System.subVolume (k := 1) (n := 1) (cartesian 2) (fun _ => normal) x ≠ 0 := by
  have key : ∀ (normal : Tensor.Vec 2 → Tensor.Vec 2) (x : Fin 2 → Tensor.Vec 2),
      System.subVolume (k := 1) (n := 1) (cartesian 2) (fun _ => normal) x =
        normal (x 0) 0 * (x 1 1 - x 0 1) - normal (x 0) 1 * (x 1 0 - x 0 0) := by
    intro normal x
    rw [System.subVolume, cartesian_w (d := 1 + 1) (by norm_num) (by norm_num), Matrix.det_fin_two]
    simp [Fin.append, Fin.addCases, System.directors, cartesian]
    norm_num
  refine ⟨fun p => ![0, 1 - 2 * p 0], ![![0, 0], ![1, 0]], ?_, ?_, ?_⟩
  · intro a
    fin_cases a <;> norm_num [dotProduct, Fin.sum_univ_two]
  · rw [key, key]
    norm_num
  · rw [key]
    norm_num

example (f : Val (.vec 2) → ℝ) (c : Cell 1 2) : ∃ i,
    integrate true triangle2 (fun c => (cartesian 2).volume c.nodes) [c] f = .value i ∧
      integrate true triangle2 (fun c => (cartesian 2).volume c.nodes) [c.renumber 7 (Equiv.swap 1 2)] f = .value (-i) := by
  obtain ⟨_, _, _, h, _⟩ := rules_symmetric
  exact integrate_flip true h _ [c] f (fun _ => 7) (fun _ => Equiv.swap 1 2) (by simp) (by simp)
    (by intro _ _; exact Equiv.Perm.sign_swap (by decide)) fun c _ => volume_renumber c (by norm_num) _ _

end Mito.Quadrature
