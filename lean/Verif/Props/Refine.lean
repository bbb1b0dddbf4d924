import Verif.Mesh.RefineLemmas
import Mathlib.Algebra.Order.Ring.Rat
import Mathlib.Tactic.NormNum

/-! # Properties of uniform refinement (C30, C31)

`tetra n k cells` is the refined mesh (lib/mito/mesh/tetra.h:165-210): `n` the number of refinements,
`k` the next unused node identity, `cells` the nodes of the cells of the mesh, in order.  `N` is the
order of the cells. -/

set_option linter.unusedSimpArgs false
set_option linter.unusedVariables false
set_option linter.unusedSectionVars false

namespace Mito.Refine

variable {K : Type*} [Field K] [LinearOrder K] [IsStrictOrderedRing K]

/-! ### C30 -/

/-- C30.  Every cell turns into `(2 ^ N) ^ n` cells: 2, 4 or 8 to the power `n`. -/
theorem refine_count (N n k : Nat) (cells : List (List (PNode K)))
    (hc : ∀ c ∈ cells, c.length = N + 1) (h1 : 1 ≤ N) (h3 : N ≤ 3) :
    (tetra n k cells).2.length = (2 ^ N) ^ n * cells.length := by
  cases n with
  | zero => simp [tetra]
  | succ n =>
    refine (each_divided (N := N) (m := (2 ^ N) ^ (n + 1)) (toCell := id) cells
      fun k' _ c h => ?_).2.1
    have hl := hc c h
    have := subdivideCell_divided (K := K) two_ne_zero n k' c (by unfold IsCell; omega)
    rwa [hl] at this

/-- C30.  Every cell of the refined mesh comes from a cell of the mesh; its signed volume is the
parent's divided by `(2 ^ N) ^ n`; its nodes are nodes of the parent or new ones. -/
theorem refine_children (N n k : Nat) (cells : List (List (PNode K)))
    (hc : ∀ c ∈ cells, c.length = N + 1) (h1 : 1 ≤ N) (h3 : N ≤ 3) :
    ∀ d ∈ (tetra n k cells).2, ∃ c ∈ cells, d.length = N + 1 ∧
      (∀ i j l, signedVolume i j l d = signedVolume i j l c / (2 ^ N) ^ n) ∧
      (∀ p ∈ d, p ∈ c ∨ (k ≤ p.id ∧ p.id < (tetra n k cells).1)) ∧
      ((c.map (·.id)).Nodup → (∀ p ∈ c, p.id < k) → (d.map (·.id)).Nodup) := by
  cases n with
  | zero => exact fun d hd => ⟨d, hd, hc d hd, by simp, fun p hp => Or.inl hp, fun h _ => h⟩
  | succ n =>
    intro d hd
    obtain ⟨c, h, g1, g2, g3, g4⟩ := (each_divided (N := N) (m := (2 ^ N) ^ (n + 1)) (toCell := id)
      cells (fun k' _ c h => by
        have hl := hc c h
        have := subdivideCell_divided (K := K) two_ne_zero n k' c (by unfold IsCell; omega)
        rwa [hl] at this)).2.2 d hd
    refine ⟨c, h, g1, fun i j l => ?_, g3, g4⟩
    have := g2 i j l
    have hne : ((2 : K) ^ N) ^ (n + 1) ≠ 0 := pow_ne_zero _ (pow_ne_zero _ two_ne_zero)
    rw [eq_div_iff hne]
    simp only [id] at this
    rw [← this]
    push_cast
    ring

/-- C30.  Refinement preserves the total signed volume, whatever the projection. -/
theorem refine_total_volume (N n k : Nat) (cells : List (List (PNode K)))
    (hc : ∀ c ∈ cells, c.length = N + 1) (h1 : 1 ≤ N) (h3 : N ≤ 3) (i j l : Nat) :
    ((tetra n k cells).2.map (signedVolume i j l)).sum = (cells.map (signedVolume i j l)).sum := by
  cases n with
  | zero => rfl
  | succ n =>
    refine each_sum _ _ _ cells k fun k' c h => ?_
    have hd := subdivideCell_divided (K := K) two_ne_zero n k' c
      (by unfold IsCell; have := hc c h; omega)
    have e : ((subdivideCell n k' c).2.map (signedVolume i j l)) =
        (subdivideCell n k' c).2.map fun _ =>
          signedVolume i j l c / (((2 ^ (c.length - 1)) ^ (n + 1) : Nat) : K) := by
      refine List.map_congr_left fun d h' => ?_
      rw [eq_div_iff (by push_cast; exact pow_ne_zero _ (pow_ne_zero _ two_ne_zero)), mul_comm]
      exact hd.vol i j l d h'
    rw [e, List.map_const', List.sum_replicate, hd.count, nsmul_eq_mul]
    have hne : (((2 ^ (c.length - 1)) ^ (n + 1) : Nat) : K) ≠ 0 := by
      push_cast; exact pow_ne_zero _ (pow_ne_zero _ two_ne_zero)
    field_simp

/-- C30.  The children of a cell fill it exactly, and nothing else. -/
theorem refine_fills (n k : Nat) (cells : List (List (PNode K))) (hc : ∀ c ∈ cells, IsCell c)
    (x : Nat → K) :
    (∃ d ∈ (tetra n k cells).2, InHull d x) ↔ ∃ c ∈ cells, InHull c x := by
  cases n with
  | zero => rfl
  | succ n =>
    exact (each_fill (toCell := id) cells k (fun k' c h => subdivideCell_fills n k' c (hc c h)) x).symm

/-- the unit right triangle -/
def exTriangle : List (PNode ℚ) :=
  [⟨0, fun _ => 0⟩, ⟨1, fun i => if i = 0 then 1 else 0⟩, ⟨2, fun i => if i = 1 then 1 else 0⟩]

/-- Two refinements of the triangle: sixteen cells, twice the area of each is 1/16. -/
example : (tetra 2 3 [exTriangle]).2.length = 16 ∧
    ∀ d ∈ (tetra 2 3 [exTriangle]).2, signedVolume 0 1 0 d = 1 / 16 := by
  refine ⟨refine_count 2 2 3 [exTriangle] (by simp [exTriangle]) (by norm_num) (by norm_num), ?_⟩
  intro d hd
  obtain ⟨c, h, _, h2, _⟩ := refine_children 2 2 3 [exTriangle] (by simp [exTriangle])
    (by norm_num) (by norm_num) d hd
  rw [h2]
  simp only [List.mem_singleton] at h
  subst h
  norm_num [exTriangle, signedVolume]

/-- the corner tetrahedron -/
def exTetrahedron : List (PNode ℚ) :=
  [⟨0, fun _ => 0⟩, ⟨1, fun i => if i = 0 then 1 else 0⟩, ⟨2, fun i => if i = 1 then 1 else 0⟩,
    ⟨3, fun i => if i = 2 then 1 else 0⟩]

example : (tetra 2 4 [exTetrahedron]).2.length = 64 ∧
    ∀ d ∈ (tetra 2 4 [exTetrahedron]).2, signedVolume 0 1 2 d = 1 / 64 := by
  refine ⟨refine_count 3 2 4 [exTetrahedron] (by simp [exTetrahedron]) (by norm_num) (by norm_num), ?_⟩
  intro d hd
  obtain ⟨c, h, _, h2, _⟩ := refine_children 3 2 4 [exTetrahedron] (by simp [exTetrahedron])
    (by norm_num) (by norm_num) d hd
  rw [h2]
  simp only [List.mem_singleton] at h
  subst h
  norm_num [exTetrahedron, signedVolume]

/-! ### C31 -/

/-- The refinement of a mesh is the refinement of its parts, one after the other. -/
theorem refine_append (n k : Nat) (l₁ l₂ : List (List (PNode K))) :
    tetra n k (l₁ ++ l₂) = ((tetra n (tetra n k l₁).1 l₂).1,
      (tetra n k l₁).2 ++ (tetra n (tetra n k l₁).1 l₂).2) := by
  cases n with
  | zero => rfl
  | succ n => exact each_append _ _ _ _

/-- C31, what is true instead.  Different cells never share a node made by the refinement: a node of a
child of one part of the mesh that is also a node of a child of the other part was a node of both
parts before. -/
theorem refine_shares_only_old_nodes (N n k : Nat) (l₁ l₂ : List (List (PNode K)))
    (hc : ∀ c ∈ l₁ ++ l₂, c.length = N + 1) (h1 : 1 ≤ N) (h3 : N ≤ 3)
    (hk : ∀ c ∈ l₁ ++ l₂, ∀ p ∈ c, p.id < k) :
    ∀ d ∈ (tetra n k l₁).2, ∀ e ∈ (tetra n (tetra n k l₁).1 l₂).2, ∀ p ∈ d, ∀ q ∈ e, p.id = q.id →
      (∃ c ∈ l₁, p ∈ c) ∧ (∃ c ∈ l₂, q ∈ c) := by
  intro d hd e he p hp q hq hpq
  obtain ⟨c, h, _, _, g, _⟩ := refine_children N n k l₁ (fun c hc' => hc c (by simp [hc'])) h1 h3 d hd
  obtain ⟨c', h', _, _, g', _⟩ := refine_children N n (tetra n k l₁).1 l₂
    (fun c hc' => hc c (by simp [hc'])) h1 h3 e he
  have hle : k ≤ (tetra n k l₁).1 := by
    cases n with
    | zero => exact le_rfl
    | succ n =>
      exact (each_divided (N := N) (m := (2 ^ N) ^ (n + 1)) (toCell := id) l₁ fun k' _ c h => by
        have hl := hc c (by simp [h])
        have := subdivideCell_divided (K := K) two_ne_zero n k' c (by unfold IsCell; omega)
        rwa [hl] at this).1
  rcases g p hp with gp | gp <;> rcases g' q hq with gq | gq
  · exact ⟨⟨c, h, gp⟩, c', h', gq⟩
  · have := hk c (by simp [h]) p gp; omega
  · have := hk c' (by simp [h']) q gq; omega
  · omega

/-- C31 fails for all neighbouring triangles: after one refinement, both have a node at the middle of
the shared edge, and these are different nodes. -/
theorem refine_not_conforming (k : Nat) (a b c d : PNode K)
    (hk : ∀ p ∈ [a, b, c, d], p.id < k) :
    ∃ x ∈ (tetra 1 k [[a, b, c]]).2, ∃ p ∈ x,
      ∃ y ∈ (tetra 1 (tetra 1 k [[a, b, c]]).1 [[b, a, d]]).2, ∃ q ∈ y,
        p.pos = midpoint a.pos b.pos ∧ q.pos = p.pos ∧ p.id ≠ q.id ∧
        ∀ y' ∈ (tetra 1 (tetra 1 k [[a, b, c]]).1 [[b, a, d]]).2, ∀ q' ∈ y', q'.id ≠ p.id := by
  refine ⟨_, List.mem_cons_self, midnode k a b, by simp, _, List.mem_cons_self,
    midnode (k + 3) b a, by simp [tetra, each, subdivideCell, subdivideTriangle], rfl, ?_, ?_, ?_⟩
  · funext i
    simp only [midnode, midpoint]
    ring
  · simp [midnode]
  · intro y' hy' q' hq' e
    have := refine_shares_only_old_nodes 2 1 k [[a, b, c]] [[b, a, d]] (by simp) (by norm_num)
      (by norm_num) (by simp only [List.mem_cons, List.not_mem_nil, or_false, List.cons_append,
        List.nil_append, forall_eq_or_imp, forall_eq] at hk ⊢; omega)
      [a, midnode k a b, midnode (k + 2) c a]
      (by simp [tetra, each, subdivideCell, subdivideTriangle, quarters]) y' hy'
      (midnode k a b) (by simp) q' hq' e.symm
    obtain ⟨⟨x, hx, hm⟩, _⟩ := this
    simp only [List.mem_singleton] at hx
    subst hx
    simp only [List.mem_cons, List.not_mem_nil, or_false, forall_eq_or_imp, forall_eq] at hk
    simp only [List.mem_cons, List.not_mem_nil, or_false] at hm
    rcases hm with h | h | h
    all_goals
      have h' := congrArg PNode.id h
      simp only [midnode] at h'
      omega

/-- C31, partial.  One refinement of one cell makes one node per edge, shared by the children of that
cell; `n` refinements of a mesh make one node per edge, cell and level. -/
theorem refine_new_nodes_partial (N n k : Nat) (cells : List (List (PNode K)))
    (hc : ∀ c ∈ cells, c.length = N + 1) (h1 : 1 ≤ N) (h3 : N ≤ 3) :
    (tetra n k cells).1 = k + cells.length * newNodes (2 ^ N) ((N + 1) * N / 2) n := by
  cases n with
  | zero => simp [tetra, newNodes]
  | succ n =>
    refine each_next _ _ cells k fun k' c h => ?_
    have hl := hc c h
    rw [subdivideCell_next n k' c (by unfold IsCell; omega), hl]
    rfl

/-- the triangle below the diagonal of the unit square, and the one above -/
def exSquare : List (List (PNode ℚ)) :=
  let a : PNode ℚ := ⟨0, fun _ => 0⟩
  let b : PNode ℚ := ⟨1, fun i => if i ≤ 1 then 1 else 0⟩
  let c : PNode ℚ := ⟨2, fun i => if i = 1 then 1 else 0⟩
  let d : PNode ℚ := ⟨3, fun i => if i = 0 then 1 else 0⟩
  [[a, b, c], [b, a, d]]

/-- C31 is false: the mesh of the unit square is conforming, its refinement is not. -/
theorem refine_conforming_fails : ∃ cells : List (List (PNode ℚ)), Conforming cells ∧
    (∀ c ∈ cells, ∀ p ∈ c, p.id < 4) ∧ ¬ Conforming (tetra 1 4 cells).2 := by
  refine ⟨exSquare, ?_, by simp [exSquare], ?_⟩
  · intro c hc d hd p hp q hq e
    have e0 := congrFun e 0
    have e1 := congrFun e 1
    have e2 := congrFun e 2
    clear e
    simp only [exSquare, List.mem_cons, List.not_mem_nil, or_false] at hc hd
    rcases hc with rfl | rfl <;> rcases hd with rfl | rfl <;>
      simp only [List.mem_cons, List.not_mem_nil, or_false] at hp hq <;>
      rcases hp with rfl | rfl | rfl <;> rcases hq with rfl | rfl | rfl <;>
      first | rfl | (exfalso; norm_num at e0; done) | (exfalso; norm_num at e1; done)
  · intro h
    obtain ⟨x, hx, p, hp, y, hy, q, hq, _, h2, h3, _⟩ := refine_not_conforming 4
      (⟨0, fun _ => 0⟩ : PNode ℚ) ⟨1, fun i => if i ≤ 1 then 1 else 0⟩
      ⟨2, fun i => if i = 1 then 1 else 0⟩ ⟨3, fun i => if i = 0 then 1 else 0⟩ (by simp)
    have e := refine_append 1 4 [[(⟨0, fun _ => 0⟩ : PNode ℚ), ⟨1, fun i => if i ≤ 1 then 1 else 0⟩,
      ⟨2, fun i => if i = 1 then 1 else 0⟩]] [[⟨1, fun i => if i ≤ 1 then 1 else 0⟩, ⟨0, fun _ => 0⟩,
      ⟨3, fun i => if i = 0 then 1 else 0⟩]]
    refine h3 (h x ?_ y ?_ p hp q hq h2.symm)
    · exact (congrArg (x ∈ ·.2) e).mpr (List.mem_append_left _ hx)
    · exact (congrArg (y ∈ ·.2) e).mpr (List.mem_append_right _ hy)

end Mito.Refine
