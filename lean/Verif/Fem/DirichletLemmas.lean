import Verif.Fem.Dirichlet
import Verif.Fem.DiscretizerLemmas
import Verif.Mesh.PartitionLemmas
import Verif.Props.Boundary
import Verif.Props.Discretizer
import Verif.Spec.Components
import Verif.Spec.Elements
import Verif.Spec.Poisson

/-! # Lemmas on function spaces with Dirichlet conditions -/

namespace Mito.Fem

open Mito.Functions Mito.Discretizer Mito.Meshes Mito.DiscreteSystem Mito.Topology

variable {d n : Nat}

theorem forall₂_right {α β : Type} {R : α → β → Prop} {l : List α} {l' : List β} (h : List.Forall₂ R l l') :
    ∀ b ∈ l', ∃ a ∈ l, R a b := by
  induction h with
  | nil => simp
  | cons h1 _ ih =>
    intro b hb
    rcases List.mem_cons.mp hb with rfl | hb
    · exact ⟨_, List.mem_cons_self .., h1⟩
    · obtain ⟨a, ha, hr⟩ := ih b hb
      exact ⟨a, List.mem_cons_of_mem _ ha, hr⟩

/-- the nodes of a boundary cell are nodes of one cell, at distinct vertices -/
theorem boundary_nodes {t : Topo} {N : Nat} {m : Mesh GCell} {s : SegVec.Abs GCell} {known : Finset Nat} {cells : List GCell}
    (ht : VReachable t) (hN : N ≤ 2) (hm : Reachable (facets t N) m s known)
    (hcl : m.cellList = some cells) (hcell : ∀ c ∈ cells, CellOk t (N + 1) c) {t' : Topo} {B : List GCell}
    (h : boundary t N m = some (t', B)) :
    ∀ b ∈ B, b.nodes.length = N + 1 ∧ (b.nodes.map (·.vertex)).Nodup ∧ ∃ c ∈ cells, ∀ n ∈ b.nodes, n ∈ c.nodes := by
  obtain ⟨ok, st⟩ := ht.ok
  intro b hb
  obtain ⟨x, hx, h1, h2, h3⟩ := forall₂_right (boundary_collects ht hN hm hcl hcell t' B h).1 b hb
  have hx' := (List.mem_filter.mp hx).1
  obtain ⟨c, hc, hx'⟩ := List.mem_flatMap.mp hx'
  obtain ⟨y, hy, rfl⟩ := List.mem_map.mp hx'
  have hlive := composition_live ok.inv (hcell c hc).1 _ hy
  obtain ⟨l, hl, hnd, _, hlen⟩ := verticesOf_spec ok.inv st (by omega) hlive
  rw [hl] at h3
  obtain rfl := by simpa using h3
  exact ⟨by simpa using hlen, hnd, c, hc, h2⟩

/-- a space whose elements join the nodes of the cells of a mesh is anchored if every component of the mesh has a boundary -/
theorem anchored_of {cells B : List GCell} (hone : OneNode cells)
    (hmesh : ∀ χ : Id → ℝ, ConstantOn cells χ → ZeroOn B χ → ZeroOn cells χ)
    (hB : ∀ b ∈ B, ∃ c ∈ cells, ∀ n ∈ b.nodes, n ∈ c.nodes) {V : FunctionSpace ℝ} (φ : Nat → Nat)
    (hel : ∀ e ∈ V.elements, ∃ c ∈ cells, c.nodes ≠ [] ∧ ∀ n ∈ c.nodes, φ n.id ∈ e)
    (hcells : ∀ c ∈ cells, ∃ e ∈ V.elements, ∀ n ∈ c.nodes, φ n.id ∈ e)
    (hcon : ∀ b ∈ B, ∀ n ∈ b.nodes, φ n.id ∈ V.constrained) : Anchored V := by
  classical
  intro x hx
  by_contra hno
  simp only [not_exists, not_and] at hno
  let P : Id → Prop := fun v => ∃ c ∈ cells, ∃ n ∈ c.nodes, n.vertex = v ∧ Relation.ReflTransGen (Adjacent V) x (φ n.id)
  let χ : Id → ℝ := fun v => if P v then 1 else 0
  have hP : ∀ c ∈ cells, ∀ v ∈ c.vertices, ∀ w ∈ c.vertices, P v → P w := by
    rintro c hc v hv w hw ⟨c', hc', n', hn', hv', hr⟩
    obtain ⟨n, hn, rfl⟩ := List.mem_map.mp hv
    obtain ⟨m, hm, rfl⟩ := List.mem_map.mp hw
    obtain rfl := hone c' hc' c hc n' hn' n hn hv'
    obtain ⟨e, he, hin⟩ := hcells c hc
    exact ⟨c, hc, m, hm, rfl, hr.tail ⟨e, he, hin _ hn, hin _ hm⟩⟩
  have hχ : ConstantOn cells χ := by
    intro c hc v hv w hw
    have : P v ↔ P w := ⟨hP c hc v hv w hw, hP c hc w hw v hv⟩
    simp only [χ, this]
  have hχB : ZeroOn B χ := by
    intro b hb v hv
    obtain ⟨n, hn, rfl⟩ := List.mem_map.mp hv
    refine if_neg ?_
    rintro ⟨c', hc', n', hn', hv', hr⟩
    obtain ⟨c, hc, hsub⟩ := hB b hb
    obtain rfl := hone c' hc' c hc n' hn' n (hsub n hn) hv'
    exact hno _ (hcon b hb _ hn) hr
  have hz := hmesh χ hχ hχB
  obtain ⟨e, he, hxe⟩ := List.mem_flatten.mp hx
  obtain ⟨c, hc, hne, hin⟩ := hel e he
  obtain ⟨n, hn⟩ := List.exists_mem_of_ne_nil _ hne
  have h0 := hz c hc n.vertex (List.mem_map.mpr ⟨n, hn, rfl⟩)
  have h1 : P n.vertex := ⟨c, hc, n, hn, rfl, .single ⟨e, he, hxe, hin n hn⟩⟩
  simp only [χ, if_pos h1] at h0
  exact one_ne_zero h0

theorem ofFn_getD (e : List Nat) (h : e.length = n) : List.ofFn (fun a : Fin n => e.getD a 0) = e := by
  subst h
  apply List.ext_getElem
  · simp
  · intro i h1 h2
    simp [List.getElem?_eq_getElem h2]

/-- the elements of the space are those of the discretizer -/
theorem elements_spaceOf (mk : GCell → Element d n) (cells : List GCell) (g : GCell → List Nat)
    (hg : ∀ c ∈ cells, (g c).length = n) (l : List Nat) :
    (functionSpace (spaceOf mk cells (cells.map g)) l).elements = cells.map g := by
  unfold functionSpace spaceOf
  simp only [List.map_zipWith]
  induction cells with
  | nil => rfl
  | cons c cs ih =>
    rw [List.map_cons, List.zipWith_cons_cons, ih fun c hc => hg c (List.mem_cons_of_mem _ hc)]
    rw [ofFn_getD _ (hg c (List.mem_cons_self ..))]

theorem mem_spaceOf {mk : GCell → Element d n} {cells : List GCell} {conn : List (List Nat)} {ec : Element d n × (Fin n → Nat)}
    (h : ec ∈ spaceOf mk cells conn) : ∃ c ∈ cells, ec.1 = mk c := by
  unfold spaceOf at h
  rw [List.mem_iff_getElem] at h
  obtain ⟨i, hi, rfl⟩ := h
  rw [List.length_zipWith] at hi
  exact ⟨cells[i], List.getElem_mem (by omega), by simp⟩

/-- the linear discretizers succeed, with the discretization nodes given by a map of the nodes -/
theorem discretize_p1 {alloc : List Nat → Nat} {other : List Nat} (ha : ∀ l, alloc l ∉ l) (ho : other.Nodup) {cells B : List GCell}
    (hB : ∀ b ∈ B, ∃ c ∈ cells, ∀ n ∈ b.nodes, n ∈ c.nodes) :
    ∃ φ : Nat → Nat, (elementsP1 alloc other [] (cells.map ids)).2 = cells.map (fun c => (ids c).map φ) ∧
      constrainedP1 (elementsP1 alloc other [] (cells.map ids)).1 (B.flatMap ids) = .ok ((B.flatMap ids).map φ) := by
  obtain ⟨φ, h1, h2, -, -, -⟩ := elementsP1_eq ha ho (cells.map ids)
  refine ⟨φ, by rw [h1, List.map_map]; rfl, constrainedP1_eq fun n hn => h2 n ?_⟩
  obtain ⟨b, hb, hn⟩ := List.mem_flatMap.mp hn
  obtain ⟨x, hx, rfl⟩ := List.mem_map.mp hn
  obtain ⟨c, hc, hsub⟩ := hB b hb
  exact List.mem_flatten.mpr ⟨ids c, List.mem_map.mpr ⟨c, hc, rfl⟩, List.mem_map.mpr ⟨x, hsub x hx, rfl⟩⟩

theorem anchored_p1 {cells B : List GCell} (hone : OneNode cells)
    (hmesh : ∀ χ : Id → ℝ, ConstantOn cells χ → ZeroOn B χ → ZeroOn cells χ)
    (hB : ∀ b ∈ B, ∃ c ∈ cells, ∀ n ∈ b.nodes, n ∈ c.nodes) (mk : GCell → Element d n) (hn : 0 < n)
    (hlen : ∀ c ∈ cells, c.nodes.length = n) (φ : Nat → Nat) :
    Anchored (functionSpace (spaceOf mk cells (cells.map fun c => (ids c).map φ)) ((B.flatMap ids).map φ)) := by
  have hel := elements_spaceOf mk cells (fun c => (ids c).map φ) (fun c hc => by simp [ids, hlen c hc]) ((B.flatMap ids).map φ)
  have hin : ∀ c : GCell, ∀ x ∈ c.nodes, φ x.id ∈ (ids c).map φ := fun c x hx =>
    List.mem_map.mpr ⟨x.id, List.mem_map.mpr ⟨x, hx, rfl⟩, rfl⟩
  refine anchored_of hone hmesh hB φ ?_ ?_ ?_
  · intro e he
    rw [hel] at he
    obtain ⟨c, hc, rfl⟩ := List.mem_map.mp he
    refine ⟨c, hc, ?_, hin c⟩
    intro h0
    have := hlen c hc
    rw [h0] at this
    simp at this
    omega
  · intro c hc
    rw [hel]
    exact ⟨_, List.mem_map.mpr ⟨c, hc, rfl⟩, hin c⟩
  · intro b hb x hx
    exact List.mem_map.mpr ⟨x.id, List.mem_flatMap.mpr ⟨b, hb, List.mem_map.mpr ⟨x, hx, rfl⟩⟩, rfl⟩

theorem mem_triple {c : GCell} (h : c.nodes.length = 3) {x : Node} (hx : x ∈ c.nodes) : Sum.inl x.id ∈ places (triple c) := by
  match hn : c.nodes, h with
  | [u, v, w], _ =>
    rw [hn] at hx
    simp only [List.mem_cons, List.not_mem_nil, or_false] at hx
    simp only [triple, ids, hn, List.map_cons, List.map_nil, places, List.mem_cons, Sum.inl.injEq]
    rcases hx with rfl | rfl | rfl <;> simp

theorem mem_triple_edge {c : GCell} (h : c.nodes.length = 3) {x y : Node} (hx : x ∈ c.nodes) (hy : y ∈ c.nodes) (hne : x ≠ y) :
    Sum.inr s(x.id, y.id) ∈ places (triple c) := by
  match hn : c.nodes, h with
  | [u, v, w], _ =>
    rw [hn] at hx hy
    simp only [List.mem_cons, List.not_mem_nil, or_false] at hx hy
    simp only [triple, ids, hn, List.map_cons, List.map_nil, places, List.mem_cons, reduceCtorEq, false_or, Sum.inr.injEq]
    rcases hx with rfl | rfl | rfl <;> rcases hy with rfl | rfl | rfl <;> simp at hne ⊢

theorem nodes_pair {b : GCell} (h : b.nodes.length = 2) :
    ∃ x y, b.nodes = [x, y] ∧ pair b = (x.id, y.id) := by
  match hn : b.nodes, h with
  | [x, y], _ => exact ⟨x, y, rfl, by simp [pair, ids, hn]⟩

/-- the quadratic discretizer succeeds, and the space is anchored -/
theorem anchored_p2 {alloc : List Nat → Nat} {other : List Nat} (ha : ∀ l, alloc l ∉ l) (ho : other.Nodup) {cells B : List GCell}
    (hone : OneNode cells) (hmesh : ∀ χ : Id → ℝ, ConstantOn cells χ → ZeroOn B χ → ZeroOn cells χ)
    (hB : ∀ b ∈ B, b.nodes.length = 2 ∧ (b.nodes.map (·.vertex)).Nodup ∧ ∃ c ∈ cells, ∀ n ∈ b.nodes, n ∈ c.nodes)
    (hlen : ∀ c ∈ cells, c.nodes.length = 3) (mk : GCell → Element d 6) :
    ∃ l, constrainedP2 (elementsP2 alloc other ⟨[], []⟩ (cells.map triple)).1 (B.map pair) = .ok l ∧
      Anchored (functionSpace (spaceOf mk cells (elementsP2 alloc other ⟨[], []⟩ (cells.map triple)).2) l) := by
  obtain ⟨f, h1, -, -, -, -⟩ := elementsP2_eq ha ho (cells.map triple)
  have hedge : ∀ p ∈ B.map pair, Sum.inr s(p.1, p.2) ∈ (cells.map triple).flatMap places := by
    intro p hp
    obtain ⟨b, hb, rfl⟩ := List.mem_map.mp hp
    obtain ⟨h2, hnd, c, hc, hsub⟩ := hB b hb
    obtain ⟨x, y, hn, hpair⟩ := nodes_pair h2
    rw [hn] at hnd hsub
    rw [hpair]
    refine List.mem_flatMap.mpr ⟨triple c, List.mem_map.mpr ⟨c, hc, rfl⟩, mem_triple_edge (hlen c hc) (hsub x (by simp))
      (hsub y (by simp)) ?_⟩
    rintro rfl
    simp at hnd
  obtain ⟨l, hl, hmem⟩ := p2_constrained ha ho (cells.map triple) (B.map pair) hedge
  refine ⟨l, hl, ?_⟩
  have hconn : (elementsP2 alloc other ⟨[], []⟩ (cells.map triple)).2 = cells.map fun c => (places (triple c)).map f := by
    rw [h1, List.map_map]; rfl
  have hel : (functionSpace (spaceOf mk cells (elementsP2 alloc other ⟨[], []⟩ (cells.map triple)).2) l).elements =
      cells.map fun c => (places (triple c)).map f := by
    rw [hconn]
    exact elements_spaceOf mk cells _ (fun c _ => by simp [places]) l
  refine anchored_of hone hmesh (fun b hb => (hB b hb).2.2) (fun i => f (.inl i)) ?_ ?_ ?_
  · intro e he
    rw [hel] at he
    obtain ⟨c, hc, rfl⟩ := List.mem_map.mp he
    refine ⟨c, hc, ?_, fun x hx => List.mem_map.mpr ⟨_, mem_triple (hlen c hc) hx, rfl⟩⟩
    intro h0
    have := hlen c hc
    rw [h0] at this
    simp at this
  · intro c hc
    rw [hel]
    exact ⟨_, List.mem_map.mpr ⟨c, hc, rfl⟩, fun x hx => List.mem_map.mpr ⟨_, mem_triple (hlen c hc) hx, rfl⟩⟩
  · intro b hb x hx
    obtain ⟨h2, -, c, hc, hsub⟩ := hB b hb
    obtain ⟨j, hj, rfl⟩ := List.mem_iff_getElem.mp hc
    have hx' := mem_triple (hlen _ hc) (hsub x hx)
    obtain ⟨k, hk, hk'⟩ := List.mem_iff_getElem.mp hx'
    refine (hmem j k (triple cells[j]) ((places (triple cells[j])).map f) (.inl x.id) _ (by simp [List.getElem?_eq_getElem hj])
      (by rw [List.getElem?_eq_getElem hk, hk']) (by rw [hconn]; simp [List.getElem?_eq_getElem hj])
      (by rw [List.getElem?_map, List.getElem?_eq_getElem hk, hk']; rfl)).mpr ?_
    refine List.mem_flatMap.mpr ⟨pair b, List.mem_map.mpr ⟨b, hb, rfl⟩, ?_⟩
    obtain ⟨u, v, hn, hpair⟩ := nodes_pair h2
    rw [hn] at hx
    simp only [List.mem_cons, List.not_mem_nil, or_false] at hx
    rw [hpair]
    rcases hx with rfl | rfl <;> simp [segmentPlaces]

end Mito.Fem
