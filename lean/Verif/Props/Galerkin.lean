import Verif.IO.GalerkinLemmas

/-!
# Nodes of meshes that are written and read again (C141)

tests/mito.lib/io/summit_to_summit_mesh_2D.cc reads, writes and reads again one mesh, with the nodes of the file and with new nodes for each
cell, and compares the numbers of cells and nodes.
-/

namespace Mito.Printing

open Mito.Quadrature (rnd)
open Mito.Summit Mito.Numbering

variable {D type V : Nat} {coords : Nat → List ℚ} {order order' : List (Nat × Nat)} {cells cells' : List Cell}

/-- **C141.**  A file has the points of a mesh but not its nodes: meshes with the same points have the same file, whatever the order in which
the hash tables are visited. -/
theorem same_file {elementType : List Char} (ho : order.Perm (points cells)) (ho' : order'.Perm (points cells'))
    (h : cells.map (fun c => c.map (·.point)) = cells'.map fun c => c.map (·.point)) :
    writeChars D type coords elementType order cells = writeChars D type coords elementType order' cells' := by
  rw [writeChars_eq ho, writeChars_eq ho']
  have e1 : meshPoints cells = meshPoints cells' := by rw [meshPoints_eq, meshPoints_eq, h]
  have e2 : ∀ cells : List Cell, (cells.map fun c => c.map fun n => fileIndex cells n + 1) =
      (cells.map fun c => c.map (·.point)).map fun c => c.map fun p => (firsts (meshPoints cells)).idxOf p + 1 := by
    intro cells
    simp [Function.comp_def, fileIndex]
  have e3 : cells.length = cells'.length := by simpa using congrArg List.length h
  rw [e2, e2, h, e1, e3]

/-- **C141.**  A mesh that is read as a discontinuous one is written to the file of the continuous one. -/
theorem galerkin_file {g : Galerkin} {cs : List (List Nat)} (hg : g.Fresh cs) (ho : order.Perm (points (g.cells cs)))
    (ho' : order'.Perm (points (readCells cs))) {elementType : List Char} :
    writeChars D type coords elementType order (g.cells cs) = writeChars D type coords elementType order' (readCells cs) :=
  same_file ho ho' (by rw [Galerkin.points_eq hg]; exact (Galerkin.points_eq (g := .CG) (cs := cs) trivial).symm)

/-- **C141.**  A continuous mesh has the nodes that its cells have, each counted once, and not the other nodes of the file; a discontinuous one
has `V` nodes for each cell. -/
theorem galerkin_nodes {cs : List (List Nat)} (hV : ∀ c ∈ cs, c.length = V) :
    fieldSize (readCells cs) = cs.flatten.toFinset.card ∧
      ∀ ids, (Galerkin.DG ids).Fresh cs → fieldSize (readCellsDG ids cs) = cs.length * V := by
  constructor
  · rw [fieldSize_ids, firsts_length]
    simp [readCells, Function.comp_def]
  · rintro ids ⟨h1, h2⟩
    rw [fieldSize_ids, ids_eq h1, firsts_of_nodup h2, List.length_flatten, h1, List.map_congr_left hV]
    simp

/-- both continuous or both discontinuous: the template argument of the test -/
def SameKind : Galerkin → Galerkin → Prop
  | .CG, .CG => True
  | .DG _, .DG _ => True
  | _, _ => False

/-- **C141.**  The test passes with every file: if the characters of a file are accepted, the mesh is written, what was written is accepted,
and the mesh read then has as many cells and nodes as the first one.  The points of the second file are the nodes of the continuous mesh. -/
theorem read_write_read {text : List Char} {pts : List (List ℚ)} {cs : List (List Nat)} (ht : type ≤ intMax)
    (h : readerChars D type V text = .ok (pts, cs)) {g : Galerkin} (hg : g.Fresh cs) (ho : order.Perm (points (g.cells cs))) :
    ∃ text' pts' cs', writeChars D type (readCoordinates rnd pts) [] order (g.cells cs) = some text' ∧
      readerChars D type V text' = .ok (pts', cs') ∧ cs'.length = cs.length ∧ pts'.length = fieldSize (readCells cs) ∧ pts'.length ≤ pts.length ∧
      ∀ g' : Galerkin, SameKind g g' → g'.Fresh cs' →
        (g'.cells cs').length = (g.cells cs).length ∧ fieldSize (g'.cells cs') = fieldSize (g.cells cs) := by
  obtain ⟨v1, v2⟩ := readerChars_valid h
  obtain ⟨b1, b2, b3⟩ := readerChars_le h
  have hpe := Galerkin.points_eq hg
  have hlen : (g.cells cs).length = cs.length := by simpa using congrArg List.length hpe
  have hmp : meshPoints (g.cells cs) = cs.flatten := by rw [meshPoints_eq, hpe]
  have hV : ∀ c ∈ g.cells cs, c.length = V := by
    intro c hc
    have : c.map (·.point) ∈ cs := by
      rw [← hpe]
      exact List.mem_map_of_mem hc
    simpa using (v2 _ this).1
  have hlt : ∀ p ∈ meshPoints (g.cells cs), p < pts.length := by
    intro p hp
    rw [hmp] at hp
    obtain ⟨c, hc, hp⟩ := List.mem_flatten.mp hp
    exact (v2 c hc).2 p hp
  have hD : ∀ p ∈ meshPoints (g.cells cs), (readCoordinates rnd pts p).length = D := by
    intro p hp
    have := hlt p hp
    simp only [readCoordinates, List.length_map, List.getD_eq_getElem?_getD, List.getElem?_eq_getElem this, Option.getD_some]
    exact v1 _ (List.getElem_mem _)
  have hle : (firsts (meshPoints (g.cells cs))).length ≤ pts.length := by
    rw [firsts_length, ← Finset.card_range pts.length]
    refine Finset.card_le_card fun p hp => ?_
    rw [Finset.mem_range]
    exact hlt p (List.mem_toFinset.mp hp)
  have hcg : (firsts (meshPoints (g.cells cs))).length = fieldSize (readCells cs) := by
    rw [firsts_length, hmp, (galerkin_nodes fun c hc => (v2 c hc).1).1]
  refine ⟨_, _, _, writeChars_eq ho,
    (reader_chars b1 ht ho hV hD (hle.trans b2) (by rw [hlen]; exact b3) (writeChars_eq ho)).2, by simpa using hlen, by simpa using hcg,
    by simpa using hle, fun g' hk hg' => ?_⟩
  set cs' := (g.cells cs).map fun c => c.map (fileIndex (g.cells cs)) with hcs'
  have hlen' : cs'.length = cs.length := by rw [hcs', List.length_map, hlen]
  have hlen2 : (g'.cells cs').length = cs'.length := by simpa using congrArg List.length (Galerkin.points_eq hg')
  have hV' : ∀ c ∈ cs', c.length = V := by
    intro c hc
    rw [hcs', List.mem_map] at hc
    obtain ⟨d, hd, rfl⟩ := hc
    simpa using hV d hd
  refine ⟨by omega, ?_⟩
  match g, g', hk with
  | .CG, .CG, _ =>
    have hr := points_readCells (readCells cs)
    have e : fieldSize (readCells cs') = (firsts (meshPoints (readCells cs'))).length := by
      rw [fieldSize_ids, meshPoints_eq]
      simp [readCells, Function.comp_def]
    change fieldSize (readCells cs') = fieldSize (readCells cs)
    rw [e, ← hcg, hcs']
    change (firsts (meshPoints (readCells ((readCells cs).map fun c => c.map (fileIndex (readCells cs)))))).length = _
    rw [hr, List.length_range]
    rfl
  | .DG ids, .DG ids', _ =>
    change fieldSize (readCellsDG ids' cs') = fieldSize (readCellsDG ids cs)
    rw [(galerkin_nodes hV').2 ids' hg', (galerkin_nodes fun c hc => (v2 c hc).1).2 ids hg, hlen']

/-- **C141.**  Which meshes have as many nodes after they are written and read again: as continuous ones those whose nodes are all on different
points, as discontinuous ones those whose cells share no nodes.  (`hn`: a node has one point.) -/
theorem kept_iff (hn : ∀ c ∈ cells, ∀ n ∈ c, ∀ c' ∈ cells, ∀ m ∈ c', n.id = m.id → n.point = m.point) (hV : ∀ c ∈ cells, c.length = V) :
    (fieldSize (readCells (cells.map fun c => c.map (fileIndex cells))) = fieldSize cells ↔
      ∀ c ∈ cells, ∀ n ∈ c, ∀ c' ∈ cells, ∀ m ∈ c', n.point = m.point → n.id = m.id) ∧
    ∀ ids, (Galerkin.DG ids).Fresh (cells.map fun c => c.map (fileIndex cells)) →
      (fieldSize (readCellsDG ids (cells.map fun c => c.map (fileIndex cells))) = fieldSize cells ↔ (cells.flatMap fun c => c.map (·.id)).Nodup) := by
  constructor
  · have e : fieldSize (readCells (cells.map fun c => c.map (fileIndex cells))) = (meshPoints cells).toFinset.card := by
      rw [← firsts_length, ← List.length_range (n := (firsts (meshPoints cells)).length), ← points_readCells, fieldSize_ids, meshPoints_eq]
      simp [readCells, Function.comp_def]
    rw [e, fieldSize_eq, firsts_length]
    set S := cells.flatten.toFinset with hS
    have hmem : ∀ n, n ∈ S ↔ ∃ c ∈ cells, n ∈ c := by simp [hS]
    have hp : (meshPoints cells).toFinset = S.image (·.point) := by
      ext p
      simp [meshPoints, hmem]
      grind
    have hi : (cells.flatMap fun c => c.map (·.id)).toFinset = S.image (·.id) := by
      ext p
      simp [hmem]
      grind
    rw [hp, hi]
    classical
    let f : Nat → Nat := fun a => if h : ∃ n ∈ S, n.id = a then h.choose.point else 0
    have hf : ∀ n ∈ S, f n.id = n.point := by
      intro n hnS
      have h : ∃ m ∈ S, m.id = n.id := ⟨n, hnS, rfl⟩
      obtain ⟨h1, h2⟩ := h.choose_spec
      simp only [f, dif_pos h]
      obtain ⟨c, hc, hcn⟩ := (hmem _).mp h1
      obtain ⟨c', hc', hcn'⟩ := (hmem _).mp hnS
      exact hn c hc _ hcn c' hc' _ hcn' h2
    have himg : S.image (·.point) = (S.image (·.id)).image f := by
      rw [Finset.image_image]
      exact Finset.image_congr fun n hn => (hf n hn).symm
    rw [himg, Finset.card_image_iff]
    constructor
    · intro h c hc n hnc c' hc' m hmc hnm
      have h1 := (hmem n).mpr ⟨c, hc, hnc⟩
      have h2 := (hmem m).mpr ⟨c', hc', hmc⟩
      refine h (by simpa using ⟨n, h1, rfl⟩) (by simpa using ⟨m, h2, rfl⟩) ?_
      rw [hf n h1, hf m h2, hnm]
    · intro h a ha b hb hab
      simp only [Finset.coe_image, Set.mem_image, Finset.mem_coe] at ha hb
      obtain ⟨n, h1, rfl⟩ := ha
      obtain ⟨m, h2, rfl⟩ := hb
      rw [hf n h1, hf m h2] at hab
      obtain ⟨c, hc, hcn⟩ := (hmem _).mp h1
      obtain ⟨c', hc', hcn'⟩ := (hmem _).mp h2
      exact h c hc n hcn c' hc' m hcn' hab
  · intro ids hids
    have hV' : ∀ c ∈ cells.map fun c => c.map (fileIndex cells), c.length = V := by
      intro c hc
      obtain ⟨d, hd, rfl⟩ := List.mem_map.mp hc
      simpa using hV d hd
    rw [(galerkin_nodes hV').2 ids hids, fieldSize_eq, firsts_length, List.length_map]
    have hl : (cells.flatMap fun c => c.map (·.id)).length = cells.length * V := by
      simp [List.length_flatMap, List.map_congr_left hV]
    rw [← hl, eq_comm]
    exact Multiset.toFinset_card_eq_card_iff_nodup

/-- three segments in a row: the first two share a node, the last two only a point -/
def exTorn : List Cell := [[⟨0, 0⟩, ⟨1, 1⟩], [⟨1, 1⟩, ⟨2, 2⟩], [⟨3, 2⟩, ⟨4, 3⟩]]

/-- **C141, the code.**  A mesh some of whose cells share nodes while others share points only has five nodes; read again it has four or
six. -/
theorem nodes_lost : fieldSize exTorn = 5 ∧ ∃ text pts cs, writeChars 1 2 (fun p => [(p : ℚ)]) [] (points exTorn) exTorn = some text ∧
    readerChars 1 2 2 text = .ok (pts, cs) ∧ fieldSize (readCells cs) = 4 ∧
    (Galerkin.DG [[0, 1], [2, 3], [4, 5]]).Fresh cs ∧ fieldSize (readCellsDG [[0, 1], [2, 3], [4, 5]] cs) = 6 := by
  refine ⟨by decide, "1\n4 3 1\n0 \n1 \n2 \n3 \n2 1 2 1 \n2 2 3 1 \n2 3 4 1 \n".toList, [[0], [1], [2], [3]], [[0, 1], [1, 2], [2, 3]], by decide +kernel,
    by decide +kernel, by decide, ⟨by decide, by decide⟩, by decide⟩

/-- The theorems are not empty: a file with a node that no cell has. -/
example : readerChars 1 2 2 "1 4 2 1 0 1 2 3 2 1 2 1 2 2 4 1".toList = .ok ([[0], [1], [2], [3]], [[0, 1], [1, 3]]) ∧
    (Galerkin.DG [[4, 5], [6, 7]]).Fresh [[0, 1], [1, 3]] ∧ fieldSize (readCells [[0, 1], [1, 3]]) = 3 ∧
    fieldSize (readCellsDG [[4, 5], [6, 7]] [[0, 1], [1, 3]]) = 4 :=
  ⟨by decide +kernel, ⟨by decide, by decide⟩, by decide, by decide⟩

end Mito.Printing
