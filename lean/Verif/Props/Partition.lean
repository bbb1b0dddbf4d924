import Verif.Mesh.PartitionLemmas
import Verif.Props.Boundary

/-! # C29: partitions of meshes

METIS is an arbitrary function `paint`; the theorems say for which colors they hold. -/

set_option linter.unusedVariables false

namespace Mito.Meshes

open Mito.Topology

variable {t : Topo} {N : Nat} {cells : List GCell} {paint : List Nat → Nat → Nat → Int → List Int}

/-- What METIS gets to see: the node `j` of the mesh is described by the position of its vertex in the
sorted list of all the vertices.  No exception is thrown. -/
theorem connectivity_defined (ht : VReachable t) (hN : N ≤ 3) (hc : ∀ c ∈ cells, CellOk t N c) :
    elementConnectivity (verticesMap t N cells) cells =
      some ((cells.flatMap (·.nodes)).map fun n => (verticesMap t N cells).idxOf n.vertex) := by
  obtain ⟨ok, st⟩ := ht.ok
  refine collect_eq _ _ _ fun n hn => ?_
  obtain ⟨c, h, hn⟩ := List.mem_flatMap.mp hn
  exact vertexToId_mem (mem_verticesMap.mpr ⟨c, h, (hc c h).vertices ok.inv st hN n hn⟩)

/-- The connectivity has `N + 1` entries per cell, as `element_index` says; each entry is the id of the
vertex of that node, ids are less than the number of vertices, every id is used, and different vertices
have different ids. -/
theorem connectivity_numbering (ht : VReachable t) (hN : N ≤ 3) (hc : ∀ c ∈ cells, CellOk t N c)
    (conn : List Nat) (h : elementConnectivity (verticesMap t N cells) cells = some conn) :
    conn.length = (N + 1) * cells.length ∧
    (elementIndex (N + 1) cells.length).getLast? = some conn.length ∧
    (∀ (j : Nat) (n : Node), (cells.flatMap (·.nodes))[j]? = some n →
      ∃ i, conn[j]? = some i ∧ (verticesMap t N cells)[i]? = some n.vertex) ∧
    (∀ i, i ∈ conn ↔ i < (verticesMap t N cells).length) ∧ (verticesMap t N cells).Nodup := by
  obtain ⟨ok, st⟩ := ht.ok
  rw [connectivity_defined ht hN hc] at h
  obtain rfl := by simpa using h
  have hmem : ∀ n ∈ cells.flatMap (·.nodes), n.vertex ∈ verticesMap t N cells := by
    intro n hn
    obtain ⟨c, h, hn⟩ := List.mem_flatMap.mp hn
    exact mem_verticesMap.mpr ⟨c, h, (hc c h).vertices ok.inv st hN n hn⟩
  have hlen : (cells.flatMap (·.nodes)).length = (N + 1) * cells.length := by
    have H : ∀ cells : List GCell, (∀ c ∈ cells, CellOk t N c) →
        (cells.flatMap (·.nodes)).length = (N + 1) * cells.length := by
     intro cells hc
     induction cells with
     | nil => simp
     | cons c cs ih =>
       rw [List.flatMap_cons, List.length_append, ih fun d hd => hc d (by simp [hd]),
         (hc c (by simp)).length ok.inv st hN, List.length_cons]
       ring
    exact H cells hc
  refine ⟨by rw [List.length_map, hlen], ?_, ?_, ?_, verticesMap_nodup t N cells⟩
  · rw [List.length_map, hlen]
    simp [elementIndex, List.range_succ, mul_comm]
  · intro j n hj
    refine ⟨(verticesMap t N cells).idxOf n.vertex, by rw [List.getElem?_map, hj]; rfl, ?_⟩
    have := hmem n (List.mem_of_getElem? hj)
    rw [List.getElem?_eq_getElem (List.idxOf_lt_length_iff.mpr this), List.getElem_idxOf]
  · intro i
    constructor
    · intro hi
      obtain ⟨n, hn, rfl⟩ := List.mem_map.mp hi
      exact List.idxOf_lt_length_iff.mpr (hmem n hn)
    · intro hi
      have hv : (verticesMap t N cells)[i] ∈ verticesMap t N cells := List.getElem_mem hi
      obtain ⟨c, h, hv'⟩ := mem_verticesMap.mp hv
      obtain ⟨m, hm, e⟩ := (hc c h).cover ok.inv st hN _ hv'
      refine List.mem_map.mpr ⟨m, List.mem_flatMap.mpr ⟨c, h, hm⟩, ?_⟩
      rw [e]
      exact (verticesMap_nodup t N cells).idxOf_getElem i hi

/-- **C29.**  The partition of a given rank consists of the cells of that color, in their order; the
topology is unchanged. -/
theorem partition_cells (ht : VReachable t) (hN : N ≤ 3) (hc : ∀ c ∈ cells, CellOk t N c)
    (nPartitions rank : Int) (h1 : nPartitions ≠ 1)
    (hp : ∀ conn nv, cells.length ≤ (paint conn nv cells.length nPartitions).length) :
    ∃ conn, elementConnectivity (verticesMap t N cells) cells = some conn ∧
      partition paint t N cells nPartitions rank = some (t, colored
        (paint conn (verticesMap t N cells).length cells.length nPartitions) rank cells) := by
  refine ⟨_, connectivity_defined ht hN hc, ?_⟩
  simp only [partition, h1, if_false, connectivity_defined ht hN hc]
  rw [createPartitioned_eq _ _ _ (hp _ _)]

/-- **C29.**  For every painting, the cells of one color are some of the cells, in their order … -/
theorem colored_sublist {β : Type} (painting : List Int) (rank : Int) (cells : List β) :
    (colored painting rank cells).Sublist cells := by
  refine (List.Sublist.map _ List.filter_sublist).trans ?_
  induction cells generalizing painting with
  | nil => simp
  | cons c cs ih =>
    cases painting with
    | nil => simp
    | cons p ps => simpa using ih ps

/-- … namely those at the positions where the painting has that color … -/
theorem colored_positions {β : Type} (painting : List Int) (rank : Int) (cells : List β)
    (hl : cells.length ≤ painting.length) :
    colored painting rank cells =
      ((List.range cells.length).filter fun i => painting[i]? = some rank).filterMap (cells[·]?) := by
  induction cells generalizing painting with
  | nil => simp [colored]
  | cons c cs ih =>
    match painting with
    | [] => simp at hl
    | p :: ps =>
      have ih' := ih ps (by simpa using hl)
      rw [List.length_cons, List.range_succ_eq_map, List.filter_cons]
      have e : ((List.range cs.length).map Nat.succ).filter
          (fun i => decide ((p :: ps)[i]? = some rank)) =
          ((List.range cs.length).filter fun i => decide (ps[i]? = some rank)).map Nat.succ := by
        rw [List.filter_map]
        rfl
      have e2 : (((List.range cs.length).filter fun i => decide (ps[i]? = some rank)).map
          Nat.succ).filterMap ((c :: cs)[·]?) = colored ps rank cs := by
        rw [ih', List.filterMap_map]
        rfl
      by_cases h : p = rank
      · simp only [List.getElem?_cons_zero, h, decide_true, if_true, List.filterMap_cons]
        rw [h] at e
        rw [e, e2]
        simp [colored, List.zip_cons_cons, List.filter_cons]
      · simp only [List.getElem?_cons_zero, Option.some.injEq, h, decide_false, Bool.false_eq_true,
          if_false]
        rw [e, e2]
        simp [colored, List.zip_cons_cons, List.filter_cons, h]

/-- **C29.**  … and if all the colors are ranks, the parts together contain every cell exactly once. -/
theorem partition_cover (ht : VReachable t) (hN : N ≤ 3) (hc : ∀ c ∈ cells, CellOk t N c) (n : Nat)
    (h1 : n ≠ 1)
    (hp : ∀ conn nv, cells.length ≤ (paint conn nv cells.length n).length ∧
      ∀ p ∈ paint conn nv cells.length n, 0 ≤ p ∧ p < n) :
    ∃ parts : Nat → List GCell,
      (∀ r : Nat, partition paint t N cells n r = some (t, parts r)) ∧
      ((List.range n).flatMap parts).Perm cells ∧ (∀ r, (parts r).Sublist cells) ∧
      ∀ r : Nat, n ≤ r → parts r = [] := by
  obtain ⟨conn, e, _⟩ := partition_cells (paint := paint) ht hN hc n 0 (by exact_mod_cast h1)
    fun conn nv => (hp conn nv).1
  set p := paint conn (verticesMap t N cells).length cells.length n with hpd
  refine ⟨fun r => colored p (r : Int) cells, ?_, ?_, fun r => colored_sublist _ _ _, ?_⟩
  · intro r
    obtain ⟨conn', e', h⟩ := partition_cells (paint := paint) ht hN hc n r (by exact_mod_cast h1)
      fun conn nv => (hp conn nv).1
    rw [e] at e'
    obtain rfl := by simpa using e'
    exact h
  · exact colored_perm n _ _ (hp _ _).1 (hp _ _).2
  · intro r hr
    simp only [colored, List.map_eq_nil_iff, List.filter_eq_nil_iff, decide_eq_true_eq]
    intro x hx e
    have := ((hp _ _).2 x.2 (List.of_mem_zip hx).2).2
    rw [e] at this
    omega

/-- **C29.**  A single partition is a copy of the mesh: the same cells in the same order, whatever the
rank (even ranks other than 0 get all the cells). -/
theorem partition_single (ht : VReachable t) (hpos : 1 ≤ N) (hN : N ≤ 3)
    (hc : ∀ c ∈ cells, CellOk t N c) (rank : Int) :
    (∀ t' r, partition paint t N cells 1 rank = some (t', r) → r = cells ∧ Le t t') ∧
    (Fresh t (58 * cells.length) → ∃ t', partition paint t N cells 1 rank = some (t', cells)) := by
  obtain ⟨ok, st⟩ := ht.ok
  obtain ⟨g1, g2⟩ := copyCells_spec ok st hpos hN hc
  simp only [partition, if_true]
  refine ⟨fun t' r h => ⟨(g1 t' r h).2, (g1 t' r h).1.le⟩, fun hf => ?_⟩
  obtain ⟨t', r, h⟩ := g2 hf
  exact ⟨t', by rw [h, (g1 t' r h).2]⟩

/-! ### Examples -/

/-- the two triangles of `exB`: connectivity, and partitions in two ranks and in one -/
example : VReachable exB ∧ (∀ c ∈ exCellsB, CellOk exB 2 c) ∧
    (elementConnectivity (verticesMap exB 2 exCellsB) exCellsB) = some [0, 1, 2, 2, 1, 3] ∧
    elementIndex 3 2 = [0, 3, 6] ∧
    (∀ r : Fin 3, ((partition (fun _ _ _ _ => [1, 0]) exB 2 exCellsB 2 (r : Nat)).map (·.2)) =
      some (if r = 0 then exCellsB.drop 1 else if r = 1 then exCellsB.take 1 else [])) ∧
    ((partition (fun _ _ _ _ => []) exB 2 exCellsB 1 7).map (·.2)) = some exCellsB := by
  exact ⟨exB_reachable, by decide +kernel, by decide +kernel, by decide, by decide +kernel,
    by decide +kernel⟩

/-- reading the painting out of bounds is undefined behaviour (METIS gets an array as long as there
are cells) -/
example : createPartitioned 0 [0] ['a', 'b'] = none := by decide

end Mito.Meshes
