import Verif.Mesh.RepeatedLemmas
import Verif.Props.LoadSimplices
import Verif.Fem.GreenLemmas

/-!
# Files in which cells are repeated (C135)

C113 and C132 are about files in which no two cells are on the same nodes.  The reader does not check this.  Here is what it does for
all files.
-/

namespace Mito.Load

open Mito.Topology Mito.Meshes Mito.Combinatorics
open Mito.Summit (reader Token)

/-- **C135.**  Loading succeeds for every list of segments, triangles or tetrahedra with different nodes in each cell, whatever is in the
topology before.  Each cell is on the vertices of its nodes, and it has the footprint of the first cell on the same nodes, which has
positive orientation. -/
theorem load_repeated {n : Nat} (hn : n = 1 ∨ n = 2 ∨ n = 3) {t : Topo} (h : VReachable t) {as : List Nat} {cells : List (List Nat)}
    (hc : ∀ c ∈ cells, c.length = n + 1 ∧ (∀ i ∈ c, i < as.length) ∧ c.Nodup) {k : Nat} (hf : Fresh t (k + (as.length + 58 * cells.length))) :
    ∃ t' nodes cs, load t as cells = some (t', nodes, cs) ∧ VReachable t' ∧ Grows t t' ∧ Fresh t' k ∧ nodes.map (·.id) = as ∧
      (nodes.map (·.vertex)).Nodup ∧ List.Forall₂ (fun c g => OnNodes n t' nodes c g ∧ ∃ d g0, firstOn cells c = some d ∧
        Built n t' nodes d g0 ∧ t'.fp n g.simplex = t'.fp n g0.simplex) cells cs := by
  obtain ⟨t1, nodes, a1, a2, a3, a4, a5, a6, a7, a8⟩ := makeNodes_spec h (k := k + 58 * cells.length) as (hf.mono (by omega))
  have hlen : nodes.length = as.length := by
    have := congrArg List.length a5
    simpa only [List.length_map] using this
  rw [← hlen] at hc
  obtain ⟨t2, cs, b1, b2, b3, b4, b5⟩ := makeCells_any hn a2 (k := k) cells [] a3 (fun n hn => (a7 n hn).1) a6 hc (by simp) (by
      intro f hf c hm e
      exfalso
      have hf' : f ∈ (t.lvl n).fps := by
        rcases hn with rfl | rfl | rfl
        · rw [← a8 0]; exact hf
        · rw [← a8 1]; exact hf
        · rw [← a8 2]; exact hf
      obtain ⟨h3, hi, -⟩ := hc c hm
      match c, h3 with
      | i :: c, _ =>
        have hv : vertexAt nodes i ∈ VS t1 n f := by
          rw [e]
          simp [vertexSetOf, vertexAt]
        rw [VS_grows hn h.ok.1.inv a4 hf'] at hv
        have hi' := hi i (by simp)
        have := (a7 nodes[i] (List.getElem_mem hi')).2
        rw [← vertexAt_node (List.getElem?_eq_getElem hi')] at this
        exact this (vertexSet_live h.ok.1.inv hf' (by simpa [VS] using hv)))
  exact ⟨t2, nodes, cs, by simp only [load, a1, b1], b2, a4.trans b4, b3, a5, a6, b5⟩

/-- **C135.**  Loading succeeds exactly if in each cell the nodes are different and exist. -/
theorem load_isSome_iff {n : Nat} (hn : n = 1 ∨ n = 2 ∨ n = 3) {t : Topo} (h : VReachable t) {as : List Nat} {cells : List (List Nat)}
    (hc : ∀ c ∈ cells, c.length = n + 1) (hf : Fresh t (as.length + 58 * cells.length)) :
    (load t as cells).isSome = true ↔ ∀ c ∈ cells, (∀ i ∈ c, i < as.length) ∧ c.Nodup := by
  constructor
  · intro hs
    obtain ⟨t1, nodes, a1, a2, a3, a4, a5, a6, a7, a8⟩ := makeNodes_spec h (k := 58 * cells.length) as (hf.mono (by omega))
    have hlen : nodes.length = as.length := by
      have := congrArg List.length a5
      simpa only [List.length_map] using this
    simp only [load, a1] at hs
    split at hs
    · simp at hs
    · rename_i t2 cs hm
      have := makeCells_some hn a2 cells a3 (fun n hn => (a7 n hn).1) a6 hc hm
      rwa [hlen] at this
  · intro hg
    obtain ⟨t', nodes, cs, e, -⟩ := load_repeated hn h (as := as) (cells := cells) (fun c hm => ⟨hc c hm, hg c hm⟩) (k := 0)
      (hf.mono (by omega))
    rw [e]
    rfl

/-- **C135.**  The vertices of the cells are those of the nodes in the file, in order, so that integrals are sums over the cells of the
file. -/
theorem repeated_vertices {n : Nat} (hn : n = 1 ∨ n = 2 ∨ n = 3) {t : Topo} (h : VReachable t) {as : List Nat} {cells : List (List Nat)}
    (hc : ∀ c ∈ cells, c.length = n + 1 ∧ (∀ i ∈ c, i < as.length) ∧ c.Nodup) (hf : Fresh t (as.length + 58 * cells.length))
    {t' : Topo} {nodes : List Node} {cs : List GCell} (hl : load t as cells = some (t', nodes, cs)) :
    cs.map GCell.vertices = cells.map (List.map (vertexAt nodes)) := by
  obtain ⟨t0, nodes0, cs0, l1, l2, -, -, l5, l6, l7⟩ := load_repeated hn h hc (k := 0) (hf.mono (by omega))
  rw [hl, Option.some.injEq, Prod.mk.injEq, Prod.mk.injEq] at l1
  obtain ⟨rfl, rfl, rfl⟩ := l1
  have hO : List.Forall₂ (OnNodes n t' nodes) cells cs := l7.imp fun _ _ h => h.1
  clear hl hf hc l7
  induction hO with
  | nil => rfl
  | cons h1 _ ih => rw [List.map_cons, List.map_cons, ih, h1.vertices]

/-- **C135.**  The orientation of a cell is the sign of the permutation from the first cell on the same nodes. -/
theorem repeated_sign {n : Nat} (hn : n = 1 ∨ n = 2 ∨ n = 3) {t : Topo} (h : VReachable t) {as : List Nat} {cells : List (List Nat)}
    (hc : ∀ c ∈ cells, c.length = n + 1 ∧ (∀ i ∈ c, i < as.length) ∧ c.Nodup) (hf : Fresh t (as.length + 58 * cells.length))
    {t' : Topo} {nodes : List Node} {cs : List GCell} (hl : load t as cells = some (t', nodes, cs)) :
    List.Forall₂ (fun c g => ∃ d, firstOn cells c = some d ∧ permutationSign c d = some (t'.sg n g.simplex)) cells cs := by
  obtain ⟨t0, nodes0, cs0, l1, l2, -, -, l5, l6, l7⟩ := load_repeated hn h hc (k := 0) (hf.mono (by omega))
  rw [hl, Option.some.injEq, Prod.mk.injEq, Prod.mk.injEq] at l1
  obtain ⟨rfl, rfl, rfl⟩ := l1
  have hlen : nodes.length = as.length := by
    have := congrArg List.length l5
    simpa only [List.length_map] using this
  have key : ∀ {a : List (List Nat)} {b : List GCell}, List.Forall₂ (fun c g => OnNodes n t' nodes c g ∧ ∃ d g0, firstOn cells c = some d ∧
      Built n t' nodes d g0 ∧ t'.fp n g.simplex = t'.fp n g0.simplex) a b → (∀ c ∈ a, c ∈ cells) →
      List.Forall₂ (fun c g => ∃ d, firstOn cells c = some d ∧ permutationSign c d = some (t'.sg n g.simplex)) a b := by
    intro a b hab
    induction hab with
    | nil => exact fun _ => .nil
    | @cons c g a b hcg _ ih =>
      intro ha
      refine .cons ?_ (ih fun c hm => ha c (by simp [hm]))
      obtain ⟨hO, d, g0, e1, e2, -⟩ := hcg
      obtain ⟨hd, hs⟩ := firstOn_some e1
      have hcn := hc c (ha c (by simp))
      have hdn := hc d hd
      have hp : c.Perm d := by
        rw [List.perm_ext_iff_of_nodup hcn.2.2 hdn.2.2]
        intro i
        rw [← List.mem_toFinset, ← hs, List.mem_toFinset]
      obtain ⟨s, hsg⟩ := permutationSign_some (by intro e; rw [e] at hcn; simp at hcn) hdn.2.2 hp
      refine ⟨d, e1, ?_⟩
      have := permutationSign_map (vertexAt nodes) hdn.2.2
        (fun x hx y hy e => vertexAt_inj l6 (by rw [hlen]; exact hdn.2.1 x hx) (by rw [hlen]; exact hdn.2.1 y hy) e) hsg
      obtain ⟨-, e3⟩ := OfVertices_related l2.ok.1.inv l2.ok.2 hn e2.live hO.live e2.of hO.of this
      rw [hsg, e3, e2.sign, mul_one]
  exact key l7 fun c hm => hm

/-- **C135.**  Two cells of a file are on the same simplex exactly if their orders of nodes differ by an even permutation. -/
theorem repeated_simplex {n : Nat} (hn : n = 1 ∨ n = 2 ∨ n = 3) {t : Topo} (h : VReachable t) {nodes : List Node}
    (hv : (nodes.map (·.vertex)).Nodup) {c c' : List Nat} {g g' : GCell} (hc : c.Nodup) (hl : ∀ i ∈ c, i < nodes.length)
    (hc' : c'.Nodup) (hl' : ∀ i ∈ c', i < nodes.length) (hg : OnNodes n t nodes c g) (hg' : OnNodes n t nodes c' g') :
    g'.simplex = g.simplex ↔ permutationSign c' c = some 1 := by
  have hinj : ∀ x ∈ c' ++ c, ∀ y ∈ c' ++ c, vertexAt nodes x = vertexAt nodes y → x = y := by
    intro x hx y hy e
    rw [List.mem_append] at hx hy
    exact vertexAt_inj hv (hx.elim (hl' x) (hl x)) (hy.elim (hl' y) (hl y)) e
  constructor
  · intro e
    have hset : (c'.map (vertexAt nodes)).toFinset = (c.map (vertexAt nodes)).toFinset := by
      rw [← OfVertices_VS hg.of, ← OfVertices_VS hg'.of, e]
    have hperm : (c'.map (vertexAt nodes)).Perm (c.map (vertexAt nodes)) := by
      rw [List.perm_ext_iff_of_nodup (OfVertices_nodup hg'.of) (OfVertices_nodup hg.of)]
      intro a
      have := Finset.ext_iff.mp hset a
      rwa [List.mem_toFinset, List.mem_toFinset] at this
    have hne : c'.map (vertexAt nodes) ≠ [] := by
      intro e0
      have := hg'.of
      rw [e0] at this
      rcases hn with rfl | rfl | rfl <;> simp [OfVertices] at this
    obtain ⟨s, hs⟩ := permutationSign_some hne (OfVertices_nodup hg.of) hperm
    obtain ⟨-, e2⟩ := OfVertices_related h.ok.1.inv h.ok.2 hn hg.live hg'.live hg.of hg'.of hs
    have hs1 : s = 1 := by
      rw [e] at e2
      rcases h.ok.1.inv.sg n g.simplex hg.live with e3 | e3 <;> rw [e3] at e2 <;> omega
    rw [hs1] at hs
    exact permutationSign_map_inj hc hinj hs
  · intro hs
    have := permutationSign_map (vertexAt nodes) hc (fun x hx y hy e => hinj x (by simp [hx]) y (by simp [hy]) e) hs
    obtain ⟨e1, e2⟩ := OfVertices_related h.ok.1.inv h.ok.2 hn hg.live hg'.live hg.of hg'.of this
    exact h.ok.1.inv.oriented_unique hg'.live hg.live e1 (by rw [e2, one_mul])

/-- **C135.**  The boundary of every mesh of triangles or tetrahedra read from a file can be taken.  It is that of the file in which each
cell has the order of nodes of the first cell on the same nodes, whatever the orientation of the cell. -/
theorem repeated_boundary {n : Nat} (hn : n = 1 ∨ n = 2) {t : Topo} (h : VReachable t) {as : List Nat} {cells : List (List Nat)}
    (hc : ∀ c ∈ cells, c.length = n + 2 ∧ (∀ i ∈ c, i < as.length) ∧ c.Nodup) (hf : Fresh t (as.length + 290 * cells.length)) :
    ∃ t' nodes cs m s known t'' B L, load t as cells = some (t', nodes, cs) ∧ (nodes.map (·.vertex)).Nodup ∧ nodes.length = as.length ∧
      List.Forall₂ (OnNodes (n + 1) t' nodes) cells cs ∧
      Reachable (facets t' n) m s known ∧ m.cellList = some cs ∧ boundary t' n m = some (t'', B) ∧
      L.Perm (outerFaces (firstOrders cells)) ∧
      List.Forall₂ (fun f b => permutationSign (GCell.vertices b) (f.map (vertexAt nodes)) = some 1) L B := by
  obtain ⟨t', nodes, cs, a1, a2, a3, a4, a5, a6, a7⟩ := load_repeated (n := n + 1) (by omega) h hc (k := 232 * cells.length)
    (hf.mono (by omega))
  have hlen : nodes.length = as.length := by
    have := congrArg List.length a5
    simpa only [List.length_map] using this
  obtain ⟨cs0, c1, c2⟩ := exists_firsts a7
  have hO : List.Forall₂ (OnNodes (n + 1) t' nodes) cells cs := a7.imp fun _ _ h => h.1
  have hcell : ∀ c ∈ cs, CellOk t' (n + 1) c := by
    intro c hm
    obtain ⟨index, -, hL⟩ := forall₂_mem hO hm
    exact hL.cellOk
  have hlc : cs.length = cells.length := a7.length_eq.symm
  have hfirst : ∀ c ∈ firstOrders cells, (∀ i ∈ c, i < nodes.length) ∧ c.Nodup := by
    intro c hm
    obtain ⟨d, hd, rfl⟩ := List.mem_map.mp hm
    rw [hlen]
    cases e : firstOn cells d with
    | none => exact (hc d hd).2
    | some c => exact (hc c (firstOn_some e).1).2
  obtain ⟨m, s, known, m1, m2, -⟩ := exists_mesh t' n cs
  obtain ⟨s1, s2⟩ := boundary_spec' a2.ok.1 a2.ok.2 (by omega) m1 m2 hcell
  obtain ⟨t'', B, hB, -⟩ := s2 0 (a4.mono (by rw [hlc]; rcases hn with rfl | rfl <;> omega))
  obtain ⟨L, l1, l2⟩ := boundary_firsts a2.ok.1.inv a2.ok.2 hn a6 hfirst c1 (allFacets_perm c2) (s1 t'' B hB).2
  exact ⟨t', nodes, cs, m, s, known, t'', B, L, a1, a6, hlen, hO, m1, m2, hB, l1, l2⟩

/-- the file of a triangle and the same triangle in the other direction -/
def twiceFile : List Token := [2, 3, 2, 1, 0, 0, 1, 0, 0, 1, 3, 1, 2, 3, 1, 3, 2, 1, 3, 1].map Token.num

/-- **C135 (finding).**  A triangle and the same triangle in the other direction cancel in integrals, so that the area is zero.  But they
do not cancel in the boundary, which has six segments: the flux of the position through it is twice that of one triangle instead of
zero, so that the divergence theorem is false on this mesh.  The reader accepts the file. -/
theorem twice_boundary : ∃ coords cells, reader 2 3 3 twiceFile = .ok (coords, cells) ∧
    ∀ {t : Topo} {as : List Nat}, VReachable t → as.length = 3 → Fresh t 583 →
      ∃ t' nodes cs m s known t'' B, load t as cells = some (t', nodes, cs) ∧ Reachable (facets t' 1) m s known ∧
        m.cellList = some cs ∧ boundary t' 1 m = some (t'', B) ∧
        (cs.map fun c => area (place coords nodes) c.vertices).sum = 0 ∧ B.length = 6 ∧
        (B.map fun b => flux2 id (place coords nodes) b.vertices).sum = 2 := by
  refine ⟨[[0, 0], [1, 0], [0, 1]], [[0, 1, 2], [1, 0, 2]], by decide +kernel, fun {t as} h ha hf => ?_⟩
  obtain ⟨t', nodes, cs, m, s, known, t'', B, L, a1, a2, a3, a4, a5, a6, a7, a8, a9⟩ := repeated_boundary (.inl rfl) h (as := as)
    (cells := [[0, 1, 2], [1, 0, 2]]) (by rw [ha]; decide) (by simpa [ha] using hf)
  have ho : outerFaces (firstOrders [[0, 1, 2], [1, 0, 2]]) = [[0, 1], [1, 2], [2, 0], [0, 1], [1, 2], [2, 0]] := by decide +kernel
  rw [ho] at a8
  rw [ha] at a3
  have hat : ∀ i < 3, ∀ k : Fin 2, place [[0, 0], [1, 0], [0, 1]] nodes (vertexAt nodes i) k =
      (coordinate [[0, 0], [1, 0], [0, 1]] i k : ℝ) := by
    intro i hi k
    have e := List.getElem?_eq_getElem (l := nodes) (i := i) (by omega)
    rw [vertexAt_node e]
    exact place_at a2 e k
  refine ⟨t', nodes, cs, m, s, known, t'', B, a1, a5, a6, a7, ?_, by rw [← a9.length_eq, a8.length_eq]; rfl, ?_⟩
  · cases a4 with
    | cons h1 a4 =>
      cases a4 with
      | cons h2 a4 =>
        cases a4
        rw [List.map_cons, List.map_cons, List.map_nil, h1.vertices, h2.vertices]
        simp only [List.map_cons, List.map_nil, area, Fem.simplexVolume_area, Fem.triangleArea]
        simp [hat 0, hat 1, hat 2, coordinate]
        norm_num
  · have e : (B.map fun b => flux2 id (place [[0, 0], [1, 0], [0, 1]] nodes) b.vertices) =
        L.map fun f => flux2 id (place [[0, 0], [1, 0], [0, 1]] nodes) (f.map (vertexAt nodes)) := by
      clear a7 a8
      induction a9 with
      | nil => rfl
      | cons hfb _ ih =>
        rw [List.map_cons, List.map_cons, ih, (flux2_alternating _ _).even hfb]
    rw [e, (a8.map _).sum_eq]
    simp [flux2, hat 0, hat 1, hat 2, coordinate]
    norm_num

/-- the start of a program is a topology in which the file is loaded -/
example : VReachable (Topo.init (List.range 583)) ∧ Fresh (Topo.init (List.range 583)) 583 :=
  ⟨⟨_, [], by simp, rfl⟩, by simp [Topo.init], (List.nodup_range).sublist (List.take_sublist _ _),
    fun i _ N => by simp [Topo.init, Level.empty]⟩

end Mito.Load
