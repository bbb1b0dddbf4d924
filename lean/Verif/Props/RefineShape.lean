import Verif.Mesh.RefineShapeLemmas
import Verif.Props.Refine

/-! # The sizes and shapes of refined cells (C86, C87)

`tetra n k cells` is the mesh after `n` refinements, lib/mito/mesh/tetra.h:165-210. -/

namespace Mito.Refine

/-! ### C86: cells shrink -/

/-- C86.  Segments and triangles are half as large after each refinement. -/
theorem refine_size (p : Seminorm ℝ (Nat → ℝ)) (h : ℝ) (n k : Nat) (cells : List (List (PNode ℝ)))
    (hc : ∀ c ∈ cells, c.length = 2 ∨ c.length = 3) (hs : ∀ c ∈ cells, SizeLe p h c) :
    ∀ d ∈ (tetra n k cells).2, SizeLe p (h / 2 ^ n) d := by
  cases n with
  | zero => simpa [tetra] using hs
  | succ n =>
    refine each_forall (P := SizeLe p (h / 2 ^ (n + 1))) _ (fun k' c h' d hd => ?_) _
    have hl := hc c h'
    have h1 := hs c h'
    match c with
    | [a, b] => exact subdivideSegment_size n h k' (a, b) h1 d hd
    | [a, b, e] => exact subdivideTriangle_size n h k' (a, b, e) h1 d hd
    | [] | [_] | _ :: _ :: _ :: _ :: _ => simp at hl

/-- C86.  Tetrahedra are half as large after each two refinements. -/
theorem refine_size_tetrahedra (p : Seminorm ℝ (Nat → ℝ)) (h : ℝ) (n k : Nat) (cells : List (List (PNode ℝ)))
    (hc : ∀ c ∈ cells, c.length = 4) (hs : ∀ c ∈ cells, SizeLe p h c) :
    ∀ d ∈ (tetra n k cells).2, SizeLe p (h / 2 ^ (n / 2)) d := by
  cases n with
  | zero => simpa [tetra] using hs
  | succ n =>
    refine each_forall (P := SizeLe p (h / 2 ^ ((n + 1) / 2))) _ (fun k' c h' d hd => ?_) _
    have hl := hc c h'
    have h1 := hs c h'
    match c with
    | [a, b, e, f] => exact (subdivideTetrahedron_size n h k' a b e f h1).1 d hd
    | [] | [_] | [_, _] | [_, _, _] | _ :: _ :: _ :: _ :: _ :: _ => simp at hl

/-- The bound for one refinement of tetrahedra cannot be improved: a flat tetrahedron with edges of length at most one has a part
with an edge of length one. -/
theorem refine_size_tight : ∃ (p : Seminorm ℝ (Nat → ℝ)) (c : List (PNode ℝ)), c.length = 4 ∧ SizeLe p 1 c ∧
    ∀ k, ∃ d ∈ (tetra 1 k [c]).2, ∀ h, SizeLe p h d → 1 ≤ h := by
  let p : Seminorm ℝ (Nat → ℝ) := (normSeminorm ℝ ℝ).comp (LinearMap.proj 0)
  have hp : ∀ v, p v = |v 0| := fun v => rfl
  refine ⟨p, [⟨0, fun _ => 0⟩, ⟨1, fun _ => 1⟩, ⟨2, fun _ => 0⟩, ⟨3, fun _ => 1⟩], rfl, ?_, fun k => ?_⟩
  · simp [SizeLe, hp]
  · refine ⟨_, List.mem_append_left _ (List.mem_map_of_mem (List.mem_cons_of_mem _ (List.mem_cons_of_mem _ (List.mem_cons_of_mem _
      (List.mem_cons_of_mem _ (List.mem_cons_self ..)))))), fun h hd => ?_⟩
    have := (List.pairwise_cons.mp hd).1 _ (List.mem_cons_of_mem _ (List.mem_cons_self ..))
    rw [hp] at this
    norm_num [midnode, midpoint] at this
    exact this

/-- The size tends to zero, whatever the order of the cells and the norm. -/
theorem refine_size_tends (p : Seminorm ℝ (Nat → ℝ)) (k : Nat) (cells : List (List (PNode ℝ)))
    (hc : ∀ c ∈ cells, IsCell c) (ε : ℝ) (hε : 0 < ε) :
    ∃ n₀, ∀ n, n₀ ≤ n → ∀ d ∈ (tetra n k cells).2, SizeLe p ε d := by
  have hb : ∃ h : ℝ, 0 ≤ h ∧ ∀ c ∈ cells, SizeLe p h c := by
    clear hc
    induction cells with
    | nil => exact ⟨0, le_rfl, by simp⟩
    | cons c cells ih =>
      obtain ⟨h, h0, hh⟩ := ih
      have hb' : ∃ h' : ℝ, ∀ a ∈ c, ∀ b ∈ c, p (b.pos - a.pos) ≤ h' := by
        refine ⟨((c ×ˢ c).map fun ab => p (ab.2.pos - ab.1.pos)).sum, fun a ha b hb => ?_⟩
        refine List.single_le_sum ?_ _ (List.mem_map.mpr ⟨(a, b), by simp [ha, hb], rfl⟩)
        intro x hx
        obtain ⟨_, _, rfl⟩ := List.mem_map.mp hx
        exact apply_nonneg p _
      obtain ⟨h', hh'⟩ := hb'
      refine ⟨max h h', le_max_of_le_left h0, ?_⟩
      rintro d hd
      rcases List.mem_cons.mp hd with rfl | hd
      · exact List.Pairwise.imp_of_mem (fun ha hb _ => (hh' _ ha _ hb).trans (le_max_right ..)) (List.pairwise_of_forall (R := fun _ _ => True) fun _ _ => trivial)
      · exact sizeLe_mono (hh d hd) (le_max_left ..)
  obtain ⟨h, h0, hh⟩ := hb
  obtain ⟨m, hm⟩ := exists_nat_gt (h / ε)
  refine ⟨2 * m, fun n hn d hd => ?_⟩
  have key : ∀ j, m ≤ j → h / 2 ^ j ≤ ε := by
    intro j hj
    have h1 : (j : ℝ) < 2 ^ j := by exact_mod_cast Nat.lt_two_pow_self
    have h2 : (m : ℝ) ≤ j := by exact_mod_cast hj
    rw [div_lt_iff₀ hε] at hm
    rw [div_le_iff₀ (by positivity)]
    nlinarith
  -- every refined cell comes from a cell of the mesh
  cases n with
  | zero =>
    have hm0 : m = 0 := by omega
    have := key 0 (by omega)
    exact sizeLe_mono (hh d hd) (by simpa using this)
  | succ n =>
    refine each_forall (P := SizeLe p ε) _ (fun k' c h' d hd => ?_) _ d hd
    have hl := hc c h'
    have h1 := hh c h'
    match c with
    | [a, b] => exact sizeLe_mono (subdivideSegment_size n h k' (a, b) h1 d hd) (key _ (by omega))
    | [a, b, e] => exact sizeLe_mono (subdivideTriangle_size n h k' (a, b, e) h1 d hd) (key _ (by omega))
    | [a, b, e, f] => exact sizeLe_mono ((subdivideTetrahedron_size n h k' a b e f h1).1 d hd) (key _ (by omega))
    | [] | [_] | _ :: _ :: _ :: _ :: _ :: _ =>
      simp only [IsCell, List.length_cons, List.length_nil] at hl
      omega

/-- the corner tetrahedron in real coordinates -/
def realTetrahedron : List (PNode ℝ) :=
  [⟨0, fun _ => 0⟩, ⟨1, fun i => if i = 0 then 1 else 0⟩, ⟨2, fun i => if i = 1 then 1 else 0⟩,
    ⟨3, fun i => if i = 2 then 1 else 0⟩]

/-- the maximum norm of the first three coordinates -/
noncomputable def maxNorm : Seminorm ℝ (Nat → ℝ) :=
  (normSeminorm ℝ (Fin 3 → ℝ)).comp (LinearMap.pi fun i : Fin 3 => LinearMap.proj i.val)

example : SizeLe maxNorm 1 realTetrahedron := by
  have key : ∀ v : Nat → ℝ, |v 0| ≤ 1 → |v 1| ≤ 1 → |v 2| ≤ 1 → maxNorm v ≤ 1 := by
    intro v h0 h1 h2
    change ‖fun i : Fin 3 => v i.val‖ ≤ 1
    rw [pi_norm_le_iff_of_nonneg (by norm_num)]
    intro i
    match i with
    | 0 => exact h0
    | 1 => exact h1
    | 2 => exact h2
  simp only [SizeLe, realTetrahedron, List.pairwise_cons, List.mem_cons, List.not_mem_nil, or_false, forall_eq, false_imp_iff,
    implies_true, List.Pairwise.nil, and_true, forall_eq_or_imp]
  refine ⟨⟨?_, ?_, ?_⟩, ⟨?_, ?_⟩, ?_⟩ <;> refine key _ ?_ ?_ ?_ <;> norm_num

/-! ### C87: shapes -/

/-- C87.  Refined segments and triangles are similar to those they come from. -/
theorem refine_similar {K : Type*} [Field K] (h2 : (2 : K) ≠ 0) (n k : Nat) (cells : List (List (PNode K)))
    (hc : ∀ c ∈ cells, c.length = 2 ∨ c.length = 3) :
    ∀ d ∈ (tetra n k cells).2, ∃ c ∈ cells, SimilarTo n c d := by
  cases n with
  | zero => exact fun d hd => ⟨d, hd, SimilarTo.refl d⟩
  | succ n =>
    refine each_forall (P := fun d => ∃ c ∈ cells, SimilarTo (n + 1) c d) _ (fun k' c h' d hd => ⟨c, h', ?_⟩) _
    have hl := hc c h'
    match c with
    | [a, b] => exact subdivideSegment_similar h2 n k' (a, b) d hd
    | [a, b, e] => exact subdivideTriangle_similar h2 n k' (a, b, e) d hd
    | [] | [_] | _ :: _ :: _ :: _ :: _ => simp at hl

/-- C87 for tetrahedra, partial: after one refinement, the four parts at the corners are similar to the tetrahedron. -/
theorem refine_corners_partial {K : Type*} [Field K] (h2 : (2 : K) ≠ 0) (k : Nat) (a b c d : PNode K) :
    ∀ t ∈ (tetra 1 k [[a, b, c, d]]).2.take 4, SimilarTo 1 [a, b, c, d] t := by
  intro t ht
  rw [tetra, each, each, subdivideCell, subdivideTetrahedron, List.append_nil, ← List.map_take] at ht
  obtain ⟨e, he, rfl⟩ := List.mem_map.mp ht
  exact corners_similar h2 k a b c d e he

/-- Tetrahedra are not: the Fibonacci numbers are in the edges of the refined tetrahedra.  Scaled to the size of the parent, one of
the cells after `3 m + 1` refinements has an edge `F (m + 1) (b - a) - F m (c - a)`. -/
theorem refine_stretches {K : Type*} [Field K] (h2 : (2 : K) ≠ 0) (m k : Nat) (a b c d : PNode K) :
    ∃ t ∈ (tetra (3 * m + 1) k [[a, b, c, d]]).2, ∃ q ∈ t, ∃ r ∈ t, ∀ i,
      2 ^ (3 * m + 1) * (r.pos i - q.pos i) = Nat.fib (m + 1) * (b.pos i - a.pos i) - Nat.fib m * (c.pos i - a.pos i) := by
  obtain ⟨t, ht, q, hq, r, hr, e⟩ := subdivideTetrahedron_fib h2 m k a b c d
  refine ⟨t, List.mem_append_left _ ht, q, hq, r, hr, fun i => ?_⟩
  rw [← e i, pow_succ, pow_mul, show (2 : K) ^ 3 = 8 by norm_num]
  ring

/-- C87 is false for tetrahedra: the cube of the longest edge is not bounded by a multiple of the volume. -/
theorem refine_degenerates (B : ℚ) : ∃ n, ∃ t ∈ (tetra n 4 [exTetrahedron]).2, 0 < signedVolume 0 1 2 t ∧
    ∃ q ∈ t, ∃ r ∈ t, B * signedVolume 0 1 2 t < |r.pos 0 - q.pos 0| ^ 3 := by
  obtain ⟨m, hm⟩ := exists_nat_gt B
  obtain ⟨M, hM⟩ : ∃ M, M = m + 5 := ⟨_, rfl⟩
  have key : ∃ t ∈ (tetra (3 * M + 1) 4 [exTetrahedron]).2, ∃ q ∈ t, ∃ r ∈ t, ∀ i,
      2 ^ (3 * M + 1) * (r.pos i - q.pos i) = (Nat.fib (M + 1) : ℚ) * ((if i = 0 then 1 else 0) - 0) -
        Nat.fib M * ((if i = 1 then 1 else 0) - 0) :=
    refine_stretches (K := ℚ) two_ne_zero M 4 ⟨0, fun _ => 0⟩
      ⟨1, fun i => if i = 0 then 1 else 0⟩ ⟨2, fun i => if i = 1 then 1 else 0⟩ ⟨3, fun i => if i = 2 then 1 else 0⟩
  obtain ⟨t, ht, q, hq, r, hr, e⟩ := key
  have e0 : 2 ^ (3 * M + 1) * (r.pos 0 - q.pos 0) = (Nat.fib (M + 1) : ℚ) := by simpa using e 0
  obtain ⟨c, hc, _, hv, _⟩ := refine_children 3 (3 * M + 1) 4 [exTetrahedron] (by simp [exTetrahedron]) (by norm_num)
    (by norm_num) t ht
  rw [List.mem_singleton.mp hc] at hv
  have hv' := hv 0 1 2
  rw [show signedVolume 0 1 2 exTetrahedron = 1 by norm_num [exTetrahedron, signedVolume], pow_right_comm] at hv'
  have hf : (m : ℚ) + 1 ≤ Nat.fib (M + 1) := by
    have := Nat.le_fib_self (n := M + 1) (by omega)
    have h' : m + 1 ≤ Nat.fib (M + 1) := by omega
    exact_mod_cast h'
  refine ⟨3 * M + 1, t, ht, ?_⟩
  have hD0 : (0 : ℚ) < 2 ^ (3 * M + 1) := by positivity
  generalize (2 : ℚ) ^ (3 * M + 1) = D at e0 hv' hD0
  generalize (Nat.fib (M + 1) : ℚ) = F at e0 hf
  have hm0 : (0 : ℚ) ≤ m := Nat.cast_nonneg m
  have hF1 : 1 ≤ F := by linarith
  have h1 : r.pos 0 - q.pos 0 = F / D := by rw [eq_div_iff hD0.ne', mul_comm]; exact e0
  refine ⟨by rw [hv']; positivity, q, hq, r, hr, ?_⟩
  rw [h1, abs_of_nonneg (by positivity), hv', div_pow, mul_one_div]
  refine div_lt_div_of_pos_right ?_ (by positivity)
  have : F ≤ F ^ 3 := le_self_pow₀ hF1 (by norm_num)
  linarith

end Mito.Refine
