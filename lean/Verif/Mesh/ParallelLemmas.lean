import Verif.Mesh.LoadLemmas
import Verif.Props.Coordinates
import Verif.Props.Integrator
import Verif.Props.Partition
import Verif.Spec.Parallel

/-! # Helper lemmas for computations on several tasks -/

namespace Mito.Parallel

open Mito.Functions Mito.Geometry Mito.Meshes Mito.Topology Mito.Load Mito.Quadrature Mito.Tensor

theorem colored_map {β γ : Type} (g : β → γ) (painting : List Int) (rank : Int) (l : List β) :
    colored painting rank (l.map g) = (colored painting rank l).map g := by
  induction l generalizing painting with
  | nil => simp [colored]
  | cons x l ih =>
    cases painting with
    | nil => simp [colored]
    | cons p ps =>
      have := ih ps
      simp only [colored] at this
      by_cases h : p = rank <;> simp [colored, h, this]

theorem getElem?_map_iff {β γ : Type} {g : β → γ} {l : List β} (hg : ∀ x ∈ l, ∀ y ∈ l, g x = g y → x = y) (i j : Nat) :
    (l.map g)[i]? = (l.map g)[j]? ↔ l[i]? = l[j]? := by
  rw [List.getElem?_map, List.getElem?_map]
  rcases h : l[i]? with _ | x <;> rcases h' : l[j]? with _ | y <;> simp
  exact ⟨fun e => hg x (List.mem_of_getElem? h) y (List.mem_of_getElem? h') e, fun e => by rw [e]⟩

/-- the connectivity of described cells, and the number of vertices -/
theorem Describes.connectivity {t : Topo} {N : Nat} {cells : List GCell} {desc : List (List Nat)} (ht : VReachable t) (hN : N ≤ 3)
    (h : Describes t N cells desc) :
    ∃ g : Nat → Nat, (∀ i ∈ desc.flatten, ∀ j ∈ desc.flatten, g i = g j → i = j) ∧
      elementConnectivity (verticesMap t N cells) cells = some (desc.flatten.map g) ∧
      (verticesMap t N cells).length = desc.flatten.toFinset.card ∧ ∀ i ∈ desc.flatten.map g, i < desc.flatten.toFinset.card := by
  obtain ⟨v, hv, e⟩ := h.vertices
  have hconn := connectivity_defined ht hN h.ok
  obtain ⟨-, -, h3, h4, -⟩ := connectivity_numbering ht hN h.ok _ hconn
  have e2 : (cells.flatMap (·.nodes)).map (fun n => (verticesMap t N cells).idxOf n.vertex) =
      desc.flatten.map (fun i => (verticesMap t N cells).idxOf (v i)) := by
    have := congrArg (fun l : List (List Id) => l.flatten.map (fun x => (verticesMap t N cells).idxOf x)) e
    simp only [List.map_flatten, List.map_map] at this
    rw [List.flatMap_def, List.map_flatten, List.map_map, List.map_flatten]
    have e' : (List.map fun n : Node => (verticesMap t N cells).idxOf n.vertex) ∘ (fun c : GCell => c.nodes) =
        (List.map fun x => (verticesMap t N cells).idxOf x) ∘ fun c : GCell => c.nodes.map (·.vertex) := by
      funext c
      simp [List.map_map, Function.comp_def]
    rw [e', this]
    congr 2
    funext l
    simp [List.map_map, Function.comp_def]
  have hvm : ∀ i ∈ desc.flatten, v i ∈ verticesMap t N cells := by
    intro i hi
    obtain ⟨l, hl, hi⟩ := List.mem_flatten.mp hi
    have hm : l.map v ∈ cells.map fun c => c.nodes.map (·.vertex) := e ▸ List.mem_map_of_mem hl
    obtain ⟨c, hc, ec⟩ := List.mem_map.mp hm
    have : v i ∈ c.nodes.map (·.vertex) := ec ▸ List.mem_map_of_mem hi
    obtain ⟨n, hn, en⟩ := List.mem_map.mp this
    rw [← en]
    exact mem_verticesMap.mpr ⟨c, hc, (h.ok c hc).vertices ht.ok.1.inv ht.ok.2 hN n hn⟩
  have hg : ∀ i ∈ desc.flatten, ∀ j ∈ desc.flatten, (verticesMap t N cells).idxOf (v i) = (verticesMap t N cells).idxOf (v j) → i = j :=
    fun i hi j hj h => hv i hi j hj ((List.idxOf_inj (hvm i hi)).mp h)
  have hlen : (verticesMap t N cells).length = desc.flatten.toFinset.card := by
    have h5 : (desc.flatten.toFinset.image fun i => (verticesMap t N cells).idxOf (v i)) = Finset.range (verticesMap t N cells).length := by
      ext i
      rw [Finset.mem_range, ← h4, e2]
      simp only [Finset.mem_image, List.mem_toFinset, List.mem_map]
    have := congrArg Finset.card h5
    rw [Finset.card_range, Finset.card_image_of_injOn] at this
    · exact this.symm
    · intro i hi j hj hij
      exact hg i (by simpa using hi) j (by simpa using hj) hij
  refine ⟨_, hg, by rw [hconn, e2], hlen, ?_⟩
  rw [← e2, ← hlen]
  exact fun i hi => (h4 i).mp hi

theorem reduce_some {β : Type} (l : List β) (g : Nat → β → Option ℝ) (r : Nat → ℝ) (k : Nat) (h : ∀ i (hi : i < l.length), g (i + k) l[i] = some (r (i + k))) :
    reduce (l.mapIdx fun i b => g (i + k) b) = some (∑ i ∈ Finset.range l.length, r (i + k)) := by
  induction l generalizing k with
  | nil => simp [reduce]
  | cons b l ih =>
    have h0 := h 0 (by simp)
    have := ih (k + 1) fun i hi => by
      have := h (i + 1) (by simpa using hi)
      simpa [Nat.add_assoc, Nat.add_comm 1 k] using this
    simp only [Nat.zero_add, List.getElem_cons_zero] at h0
    rw [List.mapIdx_cons, List.length_cons, Finset.sum_range_succ', Nat.zero_add, h0, reduce]
    simp only [Nat.add_assoc, Nat.add_comm 1 k] at this ⊢
    rw [this]
    simp [add_comm]

theorem Loaded.cellOk {t : Topo} {nodes : List Node} {index : List Nat} {c : GCell} (h : Loaded t nodes index c) : CellOk t 2 c := by
  obtain ⟨l', e1, e2⟩ := OfVertices_vertices h.tri
  exact ⟨h.live, by simp [GCell.sanityCheck, e1, e2]⟩

theorem Loaded.vertices {t : Topo} {nodes : List Node} {index : List Nat} {c : GCell} (h : Loaded t nodes index c) :
    c.nodes.map (·.vertex) = index.map (vertexAt nodes) := by
  obtain ⟨i, j, k, x, y, z, rfl, hc, e1, e2, e3, -⟩ := h.triple
  simp [hc, vertexAt_node e1, vertexAt_node e2, vertexAt_node e3]

theorem Loaded.positions {t : Topo} {coords : List (List ℚ)} {nodes : List Node} (hn : (nodes.map (·.vertex)).Nodup) {index : List Nat} {c : GCell}
    (h : Loaded t nodes index c) : Fem.positions 3 (place coords nodes) c = corners coords index := by
  obtain ⟨i, j, k, x, y, z, rfl, hc, e1, e2, e3, -⟩ := h.triple
  funext a k
  fin_cases a
  · simpa [Fem.positions, corners, hc] using place_at hn e1 k
  · simpa [Fem.positions, corners, hc] using place_at hn e2 k
  · simpa [Fem.positions, corners, hc] using place_at hn e3 k

theorem map_eq_of_forall₂ {β γ δ : Type} {R : β → γ → Prop} {g : β → δ} {k : γ → δ} (hR : ∀ b c, R b c → k c = g b) {X : List β} {Y : List γ}
    (h : List.Forall₂ R X Y) : Y.map k = X.map g := by
  induction h with
  | nil => rfl
  | cons h _ ih => rw [List.map_cons, List.map_cons, hR _ _ h, ih]

/-- loaded cells have different simplices -/
theorem loaded_simplices {t : Topo} (ht : VReachable t) {nodes : List Node} (hn : (nodes.map (·.vertex)).Nodup) {cells : List (List Nat)} {cs : List GCell}
    (hl : ∀ c ∈ cells, ∀ i ∈ c, i < nodes.length) (hd : cells.Pairwise fun c c' => c.toFinset ≠ c'.toFinset)
    (h : List.Forall₂ (Loaded t nodes) cells cs) : (cs.map (·.simplex)).Nodup := by
  have h1 : (cells.map (vertexSetOf nodes)).Nodup := List.pairwise_map.mpr (distinct_sets hn hl hd)
  have h2 : (cs.map (·.simplex)).map (fun o => (t.vertexSet 2 (t.fp 2 o)).toFinset) = cells.map (vertexSetOf nodes) := by
    rw [List.map_map]
    refine map_eq_of_forall₂ (fun index c hL => ?_) h
    have hc := Loaded.cellOk hL
    have e : vertexSetOf nodes index = (c.nodes.map (·.vertex)).toFinset := by rw [Loaded.vertices hL]; rfl
    rw [e]
    ext v
    simp only [Function.comp_apply, List.mem_toFinset, List.mem_map]
    constructor
    · intro hv
      obtain ⟨m, hm, e⟩ := hc.cover ht.ok.1.inv ht.ok.2 (by norm_num) v hv
      exact ⟨m, hm, e⟩
    · rintro ⟨m, hm, rfl⟩
      exact hc.vertices ht.ok.1.inv ht.ok.2 (by norm_num) m hm
  rw [← h2] at h1
  exact h1.of_map

/-- loaded cells are described by the file -/
theorem loaded_describes {t : Topo} {nodes : List Node} (hn : (nodes.map (·.vertex)).Nodup) {cells : List (List Nat)} {cs : List GCell}
    (hl : ∀ c ∈ cells, ∀ i ∈ c, i < nodes.length) (h : List.Forall₂ (Loaded t nodes) cells cs) : Describes t 2 cs cells where
  ok c hc := by
    obtain ⟨index, -, hL⟩ := forall₂_mem h hc
    exact Loaded.cellOk hL
  vertices := by
    refine ⟨vertexAt nodes, fun i hi j hj e => ?_, map_eq_of_forall₂ (fun index c hL => Loaded.vertices hL) h⟩
    obtain ⟨c, hc, hi⟩ := List.mem_flatten.mp hi
    obtain ⟨c', hc', hj⟩ := List.mem_flatten.mp hj
    exact vertexAt_inj hn (hl c hc i hi) (hl c' hc' j hj) e

/-- the integral over some of the cells, chosen by their positions -/
theorem integrate_part (debug : Bool) (rule : Table 2) {t : Topo} (ht : VReachable t) {nodes : List Node} (hn : (nodes.map (·.vertex)).Nodup)
    {coords : List (List ℚ)} {cells : List (List Nat)} {cs : List GCell} (hl : ∀ c ∈ cells, ∀ i ∈ c, i < nodes.length)
    (hd : cells.Pairwise fun c c' => c.toFinset ≠ c'.toFinset) (h : List.Forall₂ (Loaded t nodes) cells cs) (f : Val (.vec 2) → ℝ)
    (painting : List Int) (rank : Int) :
    integrate debug rule (fun c => (cartesian 2).volume c.nodes) ((colored painting rank cs).map (cellOf (n := 1) (place coords nodes))) f =
      .value (fileSum rule coords (colored painting rank cells) f) := by
  have hk := loaded_simplices ht hn hl hd h
  rw [integrate_value]
  · congr 1
    rw [quadratureSum, fileSum, List.map_map, ← colored_map, ← colored_map]
    congr 2
    refine map_eq_of_forall₂ (fun index c hL => ?_) h
    have e := Loaded.positions (coords := coords) hn hL
    simp only [Function.comp_apply, cellOf, e, volume_cartesian (d := 2) (by norm_num) (by norm_num)]
  · rw [List.map_map]
    exact List.Nodup.sublist (List.Sublist.map _ (colored_sublist painting rank cs)) hk

end Mito.Parallel
