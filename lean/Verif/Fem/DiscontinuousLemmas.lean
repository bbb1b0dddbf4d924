import Verif.Mesh.DiscontinuousLemmas
import Verif.Props.PoissonElements

/-! # Lemmas on function spaces whose elements have no common nodes -/

namespace Mito.Fem

open Mito.Functions Mito.Discretizer Mito.Meshes Mito.DiscreteSystem Mito.Topology

variable {d n : Nat}

theorem forall₂_left {α β : Type} {R : α → β → Prop} {l : List α} {l' : List β} (h : List.Forall₂ R l l') :
    ∀ a ∈ l, ∃ b ∈ l', R a b := by
  induction h with
  | nil => simp
  | cons h1 _ ih =>
    intro a ha
    rcases List.mem_cons.mp ha with rfl | ha
    · exact ⟨_, List.mem_cons_self .., h1⟩
    · obtain ⟨b, hb, hr⟩ := ih a ha
      exact ⟨b, List.mem_cons_of_mem _ hb, hr⟩

/-- a node belongs to one cell only -/
theorem private_unique {cells : List GCell} (h : Private cells) {c c' : GCell} (hc : c ∈ cells) (hc' : c' ∈ cells) {i : Nat}
    (hi : i ∈ ids c) (hi' : i ∈ ids c') : c = c' := by
  have hp := (List.nodup_flatMap.mp h).2
  have : Std.Symm (Function.onFun List.Disjoint fun c : GCell => c.nodes.map (·.id)) := ⟨fun _ _ h => List.Disjoint.symm h⟩
  by_contra hne
  exact hp.forall hc hc' hne hi hi'

/-- a cell has constrained nodes exactly if it is at the boundary -/
theorem touches_iff {t : Topo} {N : Nat} {m : Mesh GCell} {s : SegVec.Abs GCell} {known : Finset Nat} {cells : List GCell}
    (ht : VReachable t) (hN : N ≤ 2) (hm : Reachable (facets t N) m s known) (hcl : m.cellList = some cells)
    (hcell : ∀ c ∈ cells, CellOk t (N + 1) c) {t' : Topo} {B : List GCell} (h : boundary t N m = some (t', B)) (hp : Private cells)
    {c : GCell} (hc : c ∈ cells) : Touches t N cells c ↔ ∃ b ∈ B, ∃ x ∈ b.nodes, x ∈ c.nodes := by
  have hB := (boundary_collects ht hN hm hcl hcell t' B h).1
  constructor
  · rintro ⟨x, hx, hu⟩
    have hmem : (x, c.nodes) ∈ boundaryFacets t N cells :=
      List.mem_filter.mpr ⟨List.mem_flatMap.mpr ⟨c, hc, List.mem_map.mpr ⟨x, hx, rfl⟩⟩, by simpa using hu⟩
    obtain ⟨b, hb, -, h2, -⟩ := forall₂_left hB _ hmem
    have hlen := (boundary_nodes ht hN hm hcl hcell h b hb).1
    obtain ⟨y, hy⟩ := List.exists_mem_of_ne_nil b.nodes (by intro e; rw [e] at hlen; simp at hlen)
    exact ⟨b, hb, y, hy, h2 y hy⟩
  · rintro ⟨b, hb, y, hy, hyc⟩
    obtain ⟨z, hz, -, h2, -⟩ := forall₂_right hB b hb
    obtain ⟨h3, h4⟩ := List.mem_filter.mp hz
    obtain ⟨c', hc', h3⟩ := List.mem_flatMap.mp h3
    obtain ⟨x, hx, rfl⟩ := List.mem_map.mp h3
    obtain rfl := private_unique hp hc hc' (i := y.id) (List.mem_map_of_mem hyc) (List.mem_map_of_mem (h2 y hy))
    exact ⟨x, hx, by simpa using h4⟩

/-- if no two elements have common nodes, every element needs a constrained one -/
theorem anchored_private {π : Type} {cells : List GCell} {pl : GCell → List π} {f : π → Nat} {con : List π} {V : FunctionSpace ℝ}
    (hel : V.elements = cells.map fun c => (pl c).map f) (hcon : V.constrained = con.map f)
    (hne : ∀ c ∈ cells, pl c ≠ []) (hinj : ∀ p ∈ cells.flatMap pl, ∀ q ∈ cells.flatMap pl, f p = f q → p = q)
    (hc : ∀ p ∈ con, p ∈ cells.flatMap pl)
    (hone : ∀ c ∈ cells, ∀ c' ∈ cells, ∀ p ∈ pl c, p ∈ pl c' → c = c') :
    Anchored V ↔ ∀ c ∈ cells, ∃ p ∈ pl c, p ∈ con := by
  have hin : ∀ c ∈ cells, ∀ p ∈ pl c, p ∈ cells.flatMap pl := fun c hc p hp => List.mem_flatMap.mpr ⟨c, hc, hp⟩
  constructor
  · intro hA c hcc
    obtain ⟨p, hp⟩ := List.exists_mem_of_ne_nil _ (hne c hcc)
    obtain ⟨y, hy, hr⟩ := hA (f p) (List.mem_flatten.mpr ⟨_, by rw [hel]; exact List.mem_map_of_mem hcc, List.mem_map_of_mem hp⟩)
    have key : ∃ q ∈ pl c, f q = y := by
      clear hy
      induction hr with
      | refl => exact ⟨p, hp, rfl⟩
      | tail _ hadj ih =>
        obtain ⟨q, hq, rfl⟩ := ih
        obtain ⟨e, he, h1, h2⟩ := hadj
        rw [hel] at he
        obtain ⟨c', hc', rfl⟩ := List.mem_map.mp he
        obtain ⟨q', hq', eq⟩ := List.mem_map.mp h1
        obtain rfl := hinj q' (hin c' hc' q' hq') q (hin c hcc q hq) eq
        obtain rfl := hone c hcc c' hc' q' hq hq'
        obtain ⟨r, hr, eq⟩ := List.mem_map.mp h2
        exact ⟨r, hr, eq⟩
    obtain ⟨q, hq, rfl⟩ := key
    rw [hcon] at hy
    obtain ⟨q', hq', eq⟩ := List.mem_map.mp hy
    obtain rfl := hinj q' (hc q' hq') q (hin c hcc q hq) eq
    exact ⟨q', hq, hq'⟩
  · intro h x hx
    obtain ⟨e, he, hx⟩ := List.mem_flatten.mp hx
    rw [hel] at he
    obtain ⟨c, hcc, rfl⟩ := List.mem_map.mp he
    obtain ⟨p, hp, hpc⟩ := h c hcc
    exact ⟨f p, by rw [hcon]; exact List.mem_map_of_mem hpc,
      .single ⟨_, by rw [hel]; exact List.mem_map_of_mem hcc, hx, List.mem_map_of_mem hp⟩⟩

/-- linear elements -/
theorem private_p1 {alloc : List Nat → Nat} {other : List Nat} (ha : ∀ l, alloc l ∉ l) (ho : other.Nodup) {cells B : List GCell}
    (hp : Private cells) (hB : ∀ b ∈ B, ∃ c ∈ cells, ∀ x ∈ b.nodes, x ∈ c.nodes) (mk : GCell → Element d n) (hn : 0 < n)
    (hlen : ∀ c ∈ cells, c.nodes.length = n) :
    ∃ l, constrainedP1 (elementsP1 alloc other [] (cells.map ids)).1 (B.flatMap ids) = .ok l ∧
      (Anchored (functionSpace (spaceOf mk cells (elementsP1 alloc other [] (cells.map ids)).2) l) ↔
        ∀ c ∈ cells, ∃ b ∈ B, ∃ x ∈ b.nodes, x ∈ c.nodes) := by
  obtain ⟨f, h1, h2, -, -, h5⟩ := elementsP1_eq ha ho (cells.map ids)
  have hBm : ∀ i ∈ B.flatMap ids, i ∈ cells.flatMap ids := by
    intro i hi
    obtain ⟨b, hb, hi⟩ := List.mem_flatMap.mp hi
    obtain ⟨x, hx, rfl⟩ := List.mem_map.mp hi
    obtain ⟨c, hc, hsub⟩ := hB b hb
    exact List.mem_flatMap.mpr ⟨c, hc, List.mem_map_of_mem (hsub x hx)⟩
  have e : (cells.map ids).flatten = cells.flatMap ids := (List.flatMap_def).symm
  rw [e] at h2 h5
  refine ⟨(B.flatMap ids).map f, constrainedP1_eq fun i hi => h2 i (hBm i hi), ?_⟩
  rw [h1, show (cells.map ids).map (fun x => x.map f) = cells.map fun c => (ids c).map f by rw [List.map_map]; rfl]
  rw [anchored_private (pl := ids) (f := f) (con := B.flatMap ids)
    (elements_spaceOf mk cells (fun c => (ids c).map f) (fun c hc => by simp [ids, hlen c hc]) _) rfl ?_ h5 hBm
    (fun c hc c' hc' p h h' => private_unique hp hc hc' h h')]
  · refine forall₂_congr fun c hc => ?_
    constructor
    · rintro ⟨i, hi, hiB⟩
      obtain ⟨b, hb, hib⟩ := List.mem_flatMap.mp hiB
      obtain ⟨x, hx, rfl⟩ := List.mem_map.mp hib
      obtain ⟨c', hc', hsub⟩ := hB b hb
      obtain rfl := private_unique hp hc hc' hi (List.mem_map_of_mem (hsub x hx))
      exact ⟨b, hb, x, hx, hsub x hx⟩
    · rintro ⟨b, hb, x, hx, hxc⟩
      exact ⟨x.id, List.mem_map_of_mem hxc, List.mem_flatMap.mpr ⟨b, hb, List.mem_map_of_mem hx⟩⟩
  · intro c hc h0
    have := hlen c hc
    rw [ids, List.map_eq_nil_iff] at h0
    rw [h0] at this
    simp at this
    omega

theorem places_ids {c : GCell} (h : c.nodes.length = 3) {p : Nat ⊕ Sym2 Nat} (hp : p ∈ places (triple c)) :
    ∃ i ∈ ids c, p = .inl i ∨ ∃ j ∈ ids c, p = .inr s(i, j) := by
  match hn : c.nodes, h with
  | [u, v, w], _ =>
    simp only [triple, ids, hn, List.map_cons, List.map_nil, places, List.mem_cons, List.not_mem_nil, or_false] at hp ⊢
    rcases hp with rfl | rfl | rfl | rfl | rfl | rfl
    · exact ⟨_, .inl rfl, .inl rfl⟩
    · exact ⟨_, .inr (.inl rfl), .inl rfl⟩
    · exact ⟨_, .inr (.inr rfl), .inl rfl⟩
    · exact ⟨_, .inl rfl, .inr ⟨_, .inr (.inl rfl), rfl⟩⟩
    · exact ⟨_, .inr (.inl rfl), .inr ⟨_, .inr (.inr rfl), rfl⟩⟩
    · exact ⟨_, .inr (.inr rfl), .inr ⟨_, .inl rfl, rfl⟩⟩

theorem private_places {cells : List GCell} (hp : Private cells) {c c' : GCell} (hc : c ∈ cells) (hc' : c' ∈ cells)
    (h : c.nodes.length = 3) (h' : c'.nodes.length = 3) {p : Nat ⊕ Sym2 Nat} (h1 : p ∈ places (triple c)) (h2 : p ∈ places (triple c')) :
    c = c' := by
  obtain ⟨i, hi, e⟩ := places_ids h h1
  obtain ⟨i', hi', e'⟩ := places_ids h' h2
  rcases e with rfl | ⟨j, hj, rfl⟩ <;> rcases e' with e' | ⟨j', hj', e'⟩
  · cases e'
    exact private_unique hp hc hc' hi hi'
  · cases e'
  · cases e'
  · rw [Sum.inr.injEq, Sym2.eq_iff] at e'
    rcases e' with ⟨rfl, -⟩ | ⟨rfl, -⟩
    · exact private_unique hp hc hc' hi hi'
    · exact private_unique hp hc hc' hi hj'

/-- quadratic elements -/
theorem private_p2 {alloc : List Nat → Nat} {other : List Nat} (ha : ∀ l, alloc l ∉ l) (ho : other.Nodup) {cells B : List GCell}
    (hp : Private cells) (hB : ∀ b ∈ B, b.nodes.length = 2 ∧ (b.nodes.map (·.vertex)).Nodup ∧ ∃ c ∈ cells, ∀ x ∈ b.nodes, x ∈ c.nodes)
    (hlen : ∀ c ∈ cells, c.nodes.length = 3) (mk : GCell → Element d 6) :
    ∃ l, constrainedP2 (elementsP2 alloc other ⟨[], []⟩ (cells.map triple)).1 (B.map pair) = .ok l ∧
      (Anchored (functionSpace (spaceOf mk cells (elementsP2 alloc other ⟨[], []⟩ (cells.map triple)).2) l) ↔
        ∀ c ∈ cells, ∃ b ∈ B, ∃ x ∈ b.nodes, x ∈ c.nodes) := by
  obtain ⟨f, h1, h2, -, -, h5⟩ := elementsP2_eq ha ho (cells.map triple)
  have e : (cells.map triple).flatMap places = cells.flatMap fun c => places (triple c) := by simp [List.flatMap_map]
  rw [e] at h2 h5
  have hpl : ∀ b ∈ B, ∃ c ∈ cells, ∃ x y : Node, b.nodes = [x, y] ∧ pair b = (x.id, y.id) ∧ x ∈ c.nodes ∧ y ∈ c.nodes ∧
      ∀ p ∈ segmentPlaces (pair b), p ∈ places (triple c) := by
    intro b hb
    obtain ⟨l2, hnd, c, hc, hsub⟩ := hB b hb
    obtain ⟨x, y, hn, hpair⟩ := nodes_pair l2
    rw [hn] at hnd hsub
    have hx := hsub x (by simp)
    have hy := hsub y (by simp)
    refine ⟨c, hc, x, y, hn, hpair, hx, hy, ?_⟩
    intro p hp
    rw [hpair] at hp
    simp only [segmentPlaces, List.mem_cons, List.not_mem_nil, or_false] at hp
    rcases hp with rfl | rfl | rfl
    · exact mem_triple (hlen c hc) hx
    · exact mem_triple (hlen c hc) hy
    · refine mem_triple_edge (hlen c hc) hx hy ?_
      rintro rfl
      simp at hnd
  have hBm : ∀ p ∈ (B.map pair).flatMap segmentPlaces, p ∈ cells.flatMap fun c => places (triple c) := by
    intro p hp
    obtain ⟨q, hq, hp⟩ := List.mem_flatMap.mp hp
    obtain ⟨b, hb, rfl⟩ := List.mem_map.mp hq
    obtain ⟨c, hc, x, y, -, -, -, -, h⟩ := hpl b hb
    exact List.mem_flatMap.mpr ⟨c, hc, h p hp⟩
  have hl : constrainedP2 (elementsP2 alloc other ⟨[], []⟩ (cells.map triple)).1 (B.map pair) =
      .ok (((B.map pair).flatMap segmentPlaces).map f) := by
    clear hB hpl
    generalize B.map pair = D at hBm
    induction D with
    | nil => rfl
    | cons p D ih =>
      obtain ⟨a, b⟩ := p
      have la : Numbering.lookup _ a = some _ := h2 (.inl a) (hBm _ (by simp [segmentPlaces]))
      have lb : Numbering.lookup _ b = some _ := h2 (.inl b) (hBm _ (by simp [segmentPlaces]))
      have lm := h2 (.inr s(a, b)) (hBm _ (by simp [segmentPlaces]))
      rw [lookupPlace_inr _ _ _ _ _ la lb] at lm
      rw [constrainedP2, la, lb]
      simp only [lm, ih fun p hp => hBm p (by rw [List.flatMap_cons]; exact List.mem_append_right _ hp)]
      simp [segmentPlaces]
  refine ⟨_, hl, ?_⟩
  rw [h1, show (cells.map triple).map (fun c => (places c).map f) = cells.map fun c => (places (triple c)).map f by
    rw [List.map_map]; rfl]
  rw [anchored_private (pl := fun c => places (triple c)) (f := f) (con := (B.map pair).flatMap segmentPlaces)
    (elements_spaceOf mk cells (fun c => (places (triple c)).map f) (fun c _ => by simp [places]) _) rfl (fun c _ => by simp [places]) h5 hBm
    (fun c hc c' hc' p h h' => private_places hp hc hc' (hlen c hc) (hlen c' hc') h h')]
  refine forall₂_congr fun c hc => ?_
  constructor
  · rintro ⟨p, hpc, hpB⟩
    obtain ⟨q, hq, hpB⟩ := List.mem_flatMap.mp hpB
    obtain ⟨b, hb, rfl⟩ := List.mem_map.mp hq
    obtain ⟨c', hc', x, y, hn, -, hx, -, h⟩ := hpl b hb
    obtain rfl := private_places hp hc hc' (hlen c hc) (hlen c' hc') hpc (h p hpB)
    exact ⟨b, hb, x, by rw [hn]; simp, hx⟩
  · rintro ⟨b, hb, x, hx, hxc⟩
    obtain ⟨-, -, x', y', hn, hpair, -⟩ := hpl b hb
    refine ⟨.inl x.id, mem_triple (hlen c hc) hxc, List.mem_flatMap.mpr ⟨pair b, List.mem_map_of_mem hb, ?_⟩⟩
    rw [hn] at hx
    simp only [List.mem_cons, List.not_mem_nil, or_false] at hx
    rw [hpair]
    rcases hx with rfl | rfl <;> simp [segmentPlaces]

end Mito.Fem
