import Verif.Mesh.RefinedBoundaryLemmas
import Verif.Props.PoissonConvergence
import Verif.Props.Refine
import Mathlib.Tactic.IntervalCases

/-!
# C92: the Poisson problem on refined meshes

`tetra` makes new nodes at the middles of the edges for each cell and each level.  So all the nodes of a refined mesh of triangles or
tetrahedra are on its boundary, and the solution of a Poisson problem with constrained boundary is zero whatever the source.
-/

namespace Mito.Fem

open Mito.Functions Mito.Meshes Mito.Topology Mito.Discretizer Mito.DiscreteSystem Mito.Refine Mito.Quadrature

/-- **C92.**  After one or more refinements of a mesh of triangles or tetrahedra, every node is in a facet of one cell only. -/
theorem refined_all_on_boundary {K : Type*} [Field K] (h2 : (2 : K) ≠ 0) {N : Nat} (hN : N = 2 ∨ N = 3) {k : Nat}
    {coarse : List (List (PNode K))} (hc : Coarse N k coarse) (n : Nat) : AllOnBoundary N (tetra (n + 1) k coarse).2 := by
  intro d hd p hp
  obtain ⟨s, s1, s2, s3, -, s5⟩ := tetra_exposed (n := n) h2 hN (fun c hm => (hc c hm).1) (fun c hm => (hc c hm).2.1)
    (fun c hm => (hc c hm).2.2) d hd p hp
  exact ⟨s, s1, s2, s3, s5⟩

/-- **C92.**  Meshes of segments are not torn: the new nodes are in two cells each, the old ones in as many as before. -/
theorem refined_segments {K : Type*} [Field K] {k : Nat} {coarse : List (List (PNode K))} (hc : Coarse 1 k coarse)
    (n i : Nat) : (tetra n k coarse).2.countP (holds [i]) =
      if i < k then coarse.countP (holds [i]) else if i < (tetra n k coarse).1 then 2 else 0 :=
  tetra_segments hc n i

/-- **C92.**  All nodes of a mesh of triangles (`N = 1`) or tetrahedra (`N = 2`) that was refined are nodes of its boundary. -/
theorem refined_boundary {K : Type*} [Field K] (h2 : (2 : K) ≠ 0) {t : Topo} {N : Nat} {m : Mesh GCell} {s : SegVec.Abs GCell}
    {known : Finset Nat} {cells : List GCell} (ht : VReachable t) (hN : N = 1 ∨ N = 2) (hm : Reachable (facets t N) m s known)
    (hcl : m.cellList = some cells) (hcell : ∀ c ∈ cells, CellOk t (N + 1) c) {t' : Topo} {B : List GCell}
    (h : boundary t N m = some (t', B)) (hone : OneNode cells) {n k : Nat} {coarse : List (List (PNode K))} (hco : Coarse (N + 1) k coarse)
    {v : Nat → Id} (hr : RefinedFrom (n + 1) k coarse v cells) : ∀ c ∈ cells, ∀ x ∈ c.nodes, ∃ b ∈ B, x ∈ b.nodes :=
  refined_on_boundary h2 ht hN hm hcl hcell h hone hco hr

variable {t : Topo} {cells B : List GCell} {p : Id → Fin 2 → ℝ} {alloc : List Nat → Nat} {other : List Nat}

/-- **C92.**  On refined meshes the discrete solution of the Poisson problem is zero at all nodes, for every source. -/
theorem poisson_refined_zero {K : Type*} [Field K] (h2 : (2 : K) ≠ 0) (h : Triangulates t cells B p) {n k : Nat}
    {coarse : List (List (PNode K))} (hco : Coarse 2 k coarse) {v : Nat → Id} (hr : RefinedFrom (n + 1) k coarse v cells)
    (ha : ∀ l, alloc l ∉ l) (ho : other.Nodup) {rule : Rule 2} (hw : ∀ q ∈ rule, 0 ≤ q.2) (hq : ∃ q ∈ rule, 0 < q.2) :
    ∃ space l, discretizeTri1 alloc other p cells B = .ok (space, l) ∧ ∀ f, ∀ solver, Exact solver → ∀ j, ∃ S,
      solveTimes solver (poisson rule f space) (j + 1) (create (functionSpace space l)) = some S ∧
      ∀ ec ∈ space, ∀ a, Assoc.get S.field (ec.2 a) = some 0 := by
  obtain ⟨m, s, known, t', hm, hcl, hb⟩ := h.mesh
  have hall := refined_boundary h2 h.topology (Or.inl rfl) hm hcl h.cell hb h.nodes hco hr
  obtain ⟨ok, st⟩ := h.topology.ok
  have hB : ∀ b ∈ B, ∃ c ∈ cells, ∀ n ∈ b.nodes, n ∈ c.nodes :=
    fun b hb' => (boundary_nodes h.topology (by omega) hm hcl h.cell hb b hb').2.2
  obtain ⟨φ, h1, h3⟩ := discretize_p1 (alloc := alloc) (other := other) ha ho hB
  obtain ⟨space, l, hok, hsol⟩ := dirichlet_tri1 h.topology hm hcl h.cell h.edges hb p h.positive h.nodes ha ho hw hq
  refine ⟨space, l, hok, fun f solver hx j => ?_⟩
  obtain ⟨-, hsol⟩ := hsol f
  obtain ⟨S, U, g1, g2, g3, -⟩ := hsol solver hx j
  refine ⟨S, g1, fun ec hec a => ?_⟩
  rw [g2 ec hec a]
  congr 1
  refine g3.1 _ ?_
  unfold discretizeTri1 at hok
  simp only [h1, h3, collect, Outcome.ok.injEq, Prod.mk.injEq] at hok
  obtain ⟨rfl, rfl⟩ := hok
  unfold spaceOf at hec
  rw [List.mem_iff_getElem] at hec
  obtain ⟨i, hi, rfl⟩ := hec
  rw [List.length_zipWith, List.length_map] at hi
  have hlen : (cells[i]'(by omega)).nodes.length = 3 := (h.cell _ (List.getElem_mem _)).length ok.inv st (by omega)
  have ha' : (a : Nat) < (cells[i]'(by omega)).nodes.length := by omega
  have hx' : (cells[i]'(by omega)).nodes[(a : Nat)] ∈ (cells[i]'(by omega)).nodes := List.getElem_mem _
  obtain ⟨b, hbB, hxb⟩ := hall _ (List.getElem_mem _) _ hx'
  simp only [functionSpace, List.getElem_zipWith, List.getElem_map]
  refine List.mem_map.mpr ⟨((cells[i]'(by omega)).nodes[(a : Nat)]).id, ?_, ?_⟩
  · exact List.mem_flatMap.mpr ⟨b, hbB, List.mem_map.mpr ⟨_, hxb, rfl⟩⟩
  · simp [ids, List.getD_eq_getElem?_getD, List.getElem?_eq_getElem ha']

/-- **C92.**  So the error is the solution itself, however often the mesh was refined. -/
theorem poisson_refined_error {K : Type*} [Field K] (h2 : (2 : K) ≠ 0) (h : Triangulates t cells B p) {n k : Nat}
    {coarse : List (List (PNode K))} (hco : Coarse 2 k coarse) {v : Nat → Id} (hr : RefinedFrom (n + 1) k coarse v cells)
    (ha : ∀ l, alloc l ∉ l) (ho : other.Nodup) {rule : Rule 2} (hw : ∀ q ∈ rule, 0 ≤ q.2) (hq : ∃ q ∈ rule, 0 < q.2)
    (f u : (Fin 2 → ℝ) → ℝ) {η : ℝ} (hs : SolvesWithin rule f u η (discretizeTri1 alloc other p cells B))
    {solver : Nat → (Nat → Nat → ℝ) → (Nat → ℝ) → Nat → ℝ} (hx : Exact solver) :
    ∃ space l, discretizeTri1 alloc other p cells B = .ok (space, l) ∧ errorSquare space (fun _ => 0) u ≤ η := by
  obtain ⟨space, l, h1, h3⟩ := poisson_refined_zero h2 h hco hr ha ho hw hq
  obtain ⟨space', l', h1', h3'⟩ := hs
  rw [h1] at h1'
  obtain ⟨rfl, rfl⟩ := Prod.mk.injEq .. ▸ Outcome.ok.inj h1'
  refine ⟨space, l, h1, ?_⟩
  obtain ⟨S, g1, g2⟩ := h3 f solver hx 0
  obtain ⟨S', U, g1', g2', g3'⟩ := h3' solver hx 0
  rw [g1] at g1'
  obtain rfl := Option.some.inj g1'
  refine le_of_eq_of_le ?_ g3'
  unfold errorSquare
  congr 1
  refine List.map_congr_left fun ec hec => ?_
  have : ∀ a, U (ec.2 a) = 0 := fun a => by
    have := g2' ec hec a
    rw [g2 ec hec a] at this
    exact (Option.some.inj this).symm
  simp only [this, zero_mul, Finset.sum_const_zero]

/-! ### Examples -/

/-- two triangles with an edge in common, refined: the nodes are all on the boundary -/
example : AllOnBoundary 2 (tetra 3 4 [exTriangle, [⟨2, fun d => if d = 1 then 1 else 0⟩, ⟨1, fun d => if d = 0 then 1 else 0⟩,
    ⟨3, fun d => if d < 2 then 1 else 0⟩]]).2 :=
  refined_all_on_boundary (K := ℚ) (by norm_num) (Or.inl rfl) (by simp [Coarse, exTriangle]) 2

/-- two segments, refined three times: the node in the middle stays in two segments, and so are all the new ones -/
example : ∀ i, (tetra 3 3 [[(⟨0, fun _ => 0⟩ : PNode ℚ), ⟨1, fun _ => 1⟩], [⟨1, fun _ => 1⟩, ⟨2, fun _ => 2⟩]]).2.countP (holds [i]) =
    if i = 0 ∨ i = 2 then 1 else if i < 17 then 2 else 0 := by
  intro i
  rw [refined_segments (by simp [Coarse])]
  have e : (tetra 3 3 [[(⟨0, fun _ => 0⟩ : PNode ℚ), ⟨1, fun _ => 1⟩], [⟨1, fun _ => 1⟩, ⟨2, fun _ => 2⟩]]).1 = 17 := by rfl
  rw [e]
  by_cases h : i < 3
  · interval_cases i <;> simp [holds]
  · rw [if_neg h, if_neg (c := i = 0 ∨ i = 2) (by omega)]

/-! #### a triangle refined once -/

@[irreducible] def exRefined : Topo := exTopo [.vertex, .vertex, .triangle 0 3 5, .triangle 3 1 4, .triangle 4 2 5, .triangle 5 3 4]

theorem exRefined_reachable : VReachable exRefined := by
  unfold exRefined; exact exTopo_reachable _ (by decide) (by decide +kernel)

def exCellsRefined : List GCell :=
  [⟨19, [exNode 0, exNode 3, exNode 5]⟩, ⟨31, [exNode 3, exNode 1, exNode 4]⟩, ⟨41, [exNode 4, exNode 2, exNode 5]⟩,
    ⟨46, [exNode 5, exNode 3, exNode 4]⟩]

/-- corners and middles of the edges of the unit triangle -/
noncomputable def exRefinedPositions : Id → Val (.vec 2)
  | 0 => ![0, 0]
  | 1 => ![1, 0]
  | 2 => ![0, 1]
  | 3 => ![1 / 2, 0]
  | 4 => ![1 / 2, 1 / 2]
  | _ => ![0, 1 / 2]

theorem exCellsRefined_from : RefinedFrom 1 3 [exTriangle] id exCellsRefined :=
  ⟨Function.injective_id, by simp [exCellsRefined, GCell.vertices, exNode, tetra, each, subdivideCell, subdivideTriangle, quarters, midnode,
    exTriangle]⟩

/-- the hypotheses hold -/
theorem exRefined_triangulates : ∃ B, Triangulates exRefined exCellsRefined B exRefinedPositions := by
  obtain ⟨m, s, known, h1, h2, h3⟩ := exists_mesh exRefined 1 exCellsRefined
  have hb : (boundary exRefined 1 m).isSome = true := by
    rw [boundary_congr (m' := exMeshOf exRefined 1 exCellsRefined) (by rw [h2]; decide +kernel) (by rw [h3]; rfl)]
    decide +kernel
  obtain ⟨⟨t', B⟩, hB⟩ := Option.isSome_iff_exists.mp hb
  refine ⟨B, ⟨exRefined_reachable, ⟨m, s, known, t', h1, h2, hB⟩, by decide +kernel, by decide +kernel, ?_,
    by unfold OneNode; decide +kernel, by decide +kernel⟩⟩
  have h : ∀ c ∈ exCellsRefined, exRefined.sg 2 c.simplex = 1 := by decide +kernel
  refine fun c hc => ⟨h c hc, ?_⟩
  have e : c.vertices = [0, 3, 5] ∨ c.vertices = [3, 1, 4] ∨ c.vertices = [4, 2, 5] ∨ c.vertices = [5, 3, 4] := by
    revert c
    decide +kernel
  rcases e with e | e | e | e <;> rw [e, Meshes.area] <;>
  norm_num [Geometry.simplexVolume, exRefinedPositions, Matrix.det_fin_two, Nat.factorial]

example : ∃ B space l, discretizeTri1 exAlloc [] exRefinedPositions exCellsRefined B = .ok (space, l) ∧
    ∀ f, ∀ solver, Exact solver → ∀ j, ∃ S, solveTimes solver (poisson triangle1.rule f space) (j + 1) (create (functionSpace space l)) = some S ∧
      ∀ ec ∈ space, ∀ a, Assoc.get S.field (ec.2 a) = some 0 := by
  obtain ⟨B, hB⟩ := exRefined_triangulates
  obtain ⟨ht, hs⟩ := rules_converge.2.1 triangle1 (by simp)
  obtain ⟨hw, hq⟩ := rule_usable ht hs
  exact ⟨B, poisson_refined_zero (K := ℚ) (by norm_num) hB (by simp [Coarse, exTriangle]) exCellsRefined_from exAlloc_fresh List.nodup_nil
    hw hq⟩

end Mito.Fem
