import Verif.Topology.HistoryLemmas

/-!
# C14-C22: the topology

Vocabulary in `Verif/Spec/Topology.lean`: `Reachable`, `VReachable`, `Sub`, `DirectedLoop`,
`Realizes`.
-/

set_option linter.unusedVariables false

namespace Mito.Topology

open Mito.Combinatorics

/-- for the examples: naming the outcome of a computation that succeeds -/
theorem eq_some_of_isSome {α : Type*} {x : Option (Topo × α)} (d : Topo × α) (h : x.isSome = true) :
    x = some ((x.getD d).1, (x.getD d).2) := by
  cases x with
  | none => simp at h
  | some p => rfl

/-- for the examples: naming the outcome of a history that succeeds -/
theorem run_eq_some {x : Option Topo} (d : Topo) (h : x.isSome = true) : x = some (x.getD d) := by
  cases x with
  | none => simp at h
  | some p => rfl

/-! ### C14, C15: validity of compositions -/

/-- **C14.**  The answer of `isValid` (including its failing assertion) does not depend on the order
of the composition. -/
theorem isValid_perm (t : Topo) (N : Nat) (c c' : List Id) (h : c.Perm c') :
    t.isValid N c = t.isValid N c' :=
  isValid_perm' t N h

/-- **C15.**  In a topology built from vertices, three oriented segments are a valid composition
of a triangle exactly when they form a directed loop through three different vertices. -/
theorem isValid_triangle_iff_loop (t : Topo) (ht : VReachable t) (x y z : Id)
    (hx : x ∈ (t.lvl 1).ors) (hy : y ∈ (t.lvl 1).ors) (hz : z ∈ (t.lvl 1).ors) :
    t.isValid 2 [x, y, z] = some true ↔ DirectedLoop t [x, y, z] := by
  obtain ⟨ok, st⟩ := ht.ok
  obtain ⟨a, b, h1⟩ := SegO_of_live ok.inv st hx
  obtain ⟨c, d, h2⟩ := SegO_of_live ok.inv st hy
  obtain ⟨e, f, h3⟩ := SegO_of_live ok.inv st hz
  have hp : t.netPairs 0 [x, y, z] = [(a, -1), (b, 1), (c, -1), (d, 1), (e, -1), (f, 1)] := by
    simp only [Topo.netPairs, List.flatMap_cons, List.flatMap_nil, Nat.zero_add]
    rw [SegO_pairs h1, SegO_pairs h2, SegO_pairs h3]; rfl
  obtain ⟨e1, e2, n1⟩ := SegO_ends h1
  obtain ⟨e3, e4, n2⟩ := SegO_ends h2
  obtain ⟨e5, e6, n3⟩ := SegO_ends h3
  rw [isValid_eq, hp, loop_pairs n1 n2 n3]
  unfold DirectedLoop
  simp only [List.map_cons, List.map_nil, e1, e2, e3, e4, e5, e6]
  let g : Id × Id → Option Id × Option Id := fun p => (some p.1, some p.2)
  have hg : Function.Injective g := by
    rintro ⟨p, q⟩ ⟨p', q'⟩ h
    simpa [g] using h
  constructor
  · rintro ⟨u, v, w, k1, k2, k3, hp⟩
    exact ⟨u, v, w, k1, k2, k3, hp.map g⟩
  · rintro ⟨u, v, w, k1, k2, k3, hp⟩
    refine ⟨u, v, w, k1, k2, k3, ?_⟩
    have : ([(a, b), (c, d), (e, f)].map g).Perm ([(u, v), (v, w), (w, u)].map g) := hp
    exact (List.map_perm_map_iff hg).mp this

/-- three vertices and the three edges of a triangle, in a reachable topology: a loop in this order,
in the reversed order of listing, and not a loop when one edge is flipped -/
example : ∃ t, (run (.init (List.range 40))
      [.vertex, .vertex, .vertex, .segment 0 1, .segment 1 2, .segment 2 0, .segment 0 2]) = some t ∧
    t.isValid 2 [6, 10, 14] = some true ∧ t.isValid 2 [14, 10, 6] = some true ∧
    t.isValid 2 [6, 10, 15] = some false := by
  refine ⟨_, rfl, ?_⟩
  decide +kernel

/-- The validity test is too weak for tetrahedra: four triangles `T, -T, S, -S` on two
neighbouring triangles with six edges in total … are accepted although they do not bound a
tetrahedron (finding). -/
theorem isValid_tetrahedron_accepts_pillow :
    ∃ (t : Topo) (c : List Id), VReachable t ∧ (∀ x ∈ c, x ∈ (t.lvl 2).ors) ∧ c.length = 4 ∧
      c.Nodup ∧ t.isValid 3 c = some true ∧ ¬ (c.map (t.fp 2)).Nodup := by
  refine ⟨((run (.init (List.range 80)) [.vertex, .vertex, .vertex, .vertex, .vertex, .vertex,
      .triangle 0 1 2, .triangle 3 4 5, .flip 2 19, .flip 2 33]).getD (.init [])), [19, 34, 33, 35],
    ⟨List.range 80, [.vertex, .vertex, .vertex, .vertex, .vertex, .vertex,
      .triangle 0 1 2, .triangle 3 4 5, .flip 2 19, .flip 2 33], by decide, ?_⟩, ?_⟩
  · exact run_eq_some _ (by decide +kernel)
  · decide +kernel

/-! ### C16: uniqueness -/

/-- **C16.**  At every moment there is at most one oriented simplex per footprint and orientation.
-/
theorem oriented_unique (t : Topo) (ht : Reachable t) (N : Nat) (o o' : Id)
    (ho : o ∈ (t.lvl N).ors) (ho' : o' ∈ (t.lvl N).ors) (hf : t.fp N o = t.fp N o')
    (hs : t.sg N o = t.sg N o') : o = o' :=
  ht.ok.inv.oriented_unique ho ho' hf hs

/-- **C16.**  At every moment there is at most one footprint per multiset of subsimplex footprints.
-/
theorem footprint_unique (t : Topo) (ht : Reachable t) (N : Nat) (f f' : Id)
    (hf : f ∈ (t.lvl (N + 1)).fps) (hf' : f' ∈ (t.lvl (N + 1)).fps)
    (hp : ((t.compF (N + 1) f).map (t.fp N)).Perm ((t.compF (N + 1) f').map (t.fp N))) : f = f' :=
  ht.ok.inv.footprint_unique hf hf' hp

/-- **C16.**  Asking for an existing oriented simplex by its footprint and orientation returns it
and changes nothing. -/
theorem request_by_footprint (t : Topo) (ht : Reachable t) (N : Nat) (o : Id)
    (ho : o ∈ (t.lvl N).ors) : t.orientedF N (t.fp N o) (t.sg N o) = some (t, o) :=
  orientedF_existing ht.ok.inv ho

/-- **C16.**  Asking for an existing oriented simplex by its composition returns it and changes
nothing (the subsimplices having different footprints). -/
theorem request_by_composition (t : Topo) (ht : Reachable t) (N : Nat) (o : Id)
    (ho : o ∈ (t.lvl (N + 1)).ors) (hnd : ((t.composition (N + 1) o).map (t.fp N)).Nodup) :
    t.simplex N (t.composition (N + 1) o) = some (t, o) := by
  apply simplex_of_realizes ht.ok.inv
  · rw [isValid_perm' t _ (composition_perm t (N + 1) o)]
    exact ht.ok.valid N _ (ht.ok.inv.fp_live _ o ho)
  · exact ⟨ho, orientation_composition ht.ok.inv ho hnd⟩

/-- **C16.**  A second request with the same composition returns the same simplex and changes nothing
(for requests at later times see `existsComp_iff`). -/
theorem request_again (t t1 : Topo) (ht : Reachable t) (N : Nat) (c : List Id) (o : Id)
    (hc : ∀ x ∈ c, x ∈ (t.lvl N).ors) (hl : c.length = N + 2) (hnd : c.Nodup)
    (h : t.simplex N c = some (t1, o)) : t1.simplex N c = some (t1, o) := by
  have hi := ht.ok.inv
  have i1 := (simplex_spec hi hc hl hnd h).1
  exact simplex_replay hi hc hl hnd h i1 (Le.refl _)

/-- **C16.**  The same for simplices asked for by their vertices: whatever the first request had to
create, the second one finds. -/
theorem request_vertices_again (t t1 : Topo) (ht : VReachable t) (l : List Id) (o : Id)
    (hl : ∀ v ∈ l, v ∈ (t.lvl 0).fps) (h : t.fromVertices l = some (t1, o)) :
    t1.fromVertices l = some (t1, o) := by
  obtain ⟨ok, st⟩ := ht.ok
  obtain ⟨n, _, _, ok1, _, _, _⟩ := fromVertices_spec ok st hl h
  exact fromVertices_replay ok st hl h ok1.inv (Le.refl _)

/-- in a reachable topology with a tetrahedron: a request that finds -/
example : ∃ t t1 o, VReachable t ∧ t.fromVertices [0, 1, 2, 3] = some (t1, o) ∧
    t1.nSimplices 3 = 1 ∧ t1.nSimplices 2 = 4 ∧ t1.nSimplices 1 = 12 := by
  refine ⟨((run (.init (List.range 80)) [.vertex, .vertex, .vertex, .vertex]).getD (.init [])),
    _, _, ⟨List.range 80, [.vertex, .vertex, .vertex, .vertex], by decide, ?_⟩,
    eq_some_of_isSome (.init [], 0) ?_, ?_⟩
  · exact run_eq_some _ (by decide +kernel)
  · decide +kernel
  · decide +kernel

/-- **C16 (finding).**  "Changes nothing" fails for requests by vertices when the simplex exists
through `flip` only: asking for the segment `1 → 0`, which exists, leaves two new oriented vertices
in the topology. -/
theorem request_vertices_leaves_temporaries :
    ∃ t t' : Topo, ∃ o : Id, VReachable t ∧ o ∈ (t.lvl 1).ors ∧
      t.verticesOf 1 o = some [1, 0] ∧ t.segment 1 0 = some (t', o) ∧
      t.nSimplices 0 = 2 ∧ t'.nSimplices 0 = 4 ∧ (∀ v ∈ (t'.lvl 0).ors, t'.ext 0 v = 0) := by
  refine ⟨((run (.init (List.range 20)) [.vertex, .vertex, .segment 0 1, .flip 1 5]).getD
      (.init [])), _, 6, ⟨List.range 20, [.vertex, .vertex, .segment 0 1, .flip 1 5], by decide, ?_⟩,
      ?_, ?_, rfl, ?_⟩
  · exact run_eq_some _ (by decide +kernel)
  · decide +kernel
  · decide +kernel
  · decide +kernel

/-! ### C17: flip -/

/-- **C17.**  `flip` returns the oriented simplex with the same footprint and the opposite
orientation; flipping the result gives back the original without changing the topology. -/
theorem flip_flip (t t1 : Topo) (ht : Reachable t) (N : Nat) (o o1 : Id) (ho : o ∈ (t.lvl N).ors)
    (h : t.flip N o = some (t1, o1)) :
    o1 ∈ (t1.lvl N).ors ∧ t1.fp N o1 = t.fp N o ∧ t1.sg N o1 = - t.sg N o ∧
      t1.flip N o1 = some (t1, o) ∧ o1 ≠ o := by
  have hi := ht.ok.inv
  unfold Topo.flip at h
  have hsv : - t.sg N o = 1 ∨ - t.sg N o = -1 := by
    rcases hi.sg N o ho with e | e <;> rw [e] <;> simp
  obtain ⟨i1, le1, l1, f1, s1⟩ := orientedF_spec hi (hi.fp_live N o ho) hsv h
  have hex := orientedF_existing i1 (le1.ors N ho)
  rw [le1.ofp N o ho, le1.osg N o ho] at hex
  refine ⟨l1, f1, s1, ?_, ?_⟩
  · unfold Topo.flip
    rw [f1, s1, neg_neg, hex]
  · rintro rfl
    rw [le1.osg N _ ho] at s1
    rcases hi.sg N _ ho with e | e <;> rw [e] at s1 <;> simp at s1

/-- **C17.**  `exists_flipped` tells whether the oppositely oriented simplex exists. -/
theorem existsFlipped_iff (t : Topo) (ht : Reachable t) (N : Nat) (o : Id) :
    t.existsFlipped N o = true ↔
      ∃ o' ∈ (t.lvl N).ors, t.fp N o' = t.fp N o ∧ t.sg N o' = - t.sg N o := by
  unfold Topo.existsFlipped Topo.findOriented
  rw [Option.isSome_iff_exists]
  constructor
  · rintro ⟨o', h⟩
    obtain ⟨h1, h2, h3⟩ := (ht.ok.inv.orients _ _ _ _).1 h
    exact ⟨o', h1, h2, h3⟩
  · rintro ⟨o', h1, h2, h3⟩
    exact ⟨o', (ht.ok.inv.orients _ _ _ _).2 ⟨h1, h2, h3⟩⟩

/-- **C17.**  Flipping always succeeds while the allocator has an address left. -/
theorem flip_succeeds (t : Topo) (N : Nat) (o : Id) (hfr : Fresh t 1) :
    ∃ t1 o1, t.flip N o = some (t1, o1) := by
  obtain ⟨t1, o1, h, _⟩ := orientedF_succeeds (k := 0) hfr N (t.fp N o) (- t.sg N o)
  exact ⟨t1, o1, h⟩

example : ∃ t t1 o1, VReachable t ∧ 14 ∈ (t.lvl 1).ors ∧ t.existsFlipped 1 14 = false ∧
    t.flip 1 14 = some (t1, o1) ∧ t1.existsFlipped 1 14 = true := by
  refine ⟨((run (.init (List.range 80)) [.vertex, .vertex, .vertex, .triangle 0 1 2]).getD
      (.init [])), _, _, ⟨List.range 80, [.vertex, .vertex, .vertex, .triangle 0 1 2], by decide, ?_⟩,
      ?_, ?_, rfl, ?_⟩
  · exact run_eq_some _ (by decide +kernel)
  · decide +kernel
  · decide +kernel
  · decide +kernel

/-! ### C18, C19: simplices from vertices -/

/-- **C18, C19.**  Building a segment, triangle or tetrahedron from different live vertices succeeds
in every topology built from vertices (no assertion fires), as long as the allocator can
provide up to 58 addresses. -/
theorem fromVertices_defined (t : Topo) (ht : VReachable t) (l : List Id)
    (hlen : 2 ≤ l.length ∧ l.length ≤ 4) (hl : ∀ v ∈ l, v ∈ (t.lvl 0).fps) (hnd : l.Nodup)
    (hfr : Fresh t 58) : ∃ t' o, t.fromVertices l = some (t', o) :=
  fromVertices_succeeds ht.ok.1 ht.ok.2 hlen hl hnd hfr

/-- **C18.**  If `o` exists and its vertices are `l`, asking for a rearrangement `l'` of `l` gives an
oriented simplex on the same footprint, with the orientation of `o` times the sign of the
rearrangement. -/
theorem fromVertices_permuted (t t' : Topo) (ht : VReachable t) (n : Nat) (o o' : Id)
    (l l' : List Id) (s : Int) (hn : n = 1 ∨ n = 2 ∨ n = 3) (ho : o ∈ (t.lvl n).ors)
    (hl : t.verticesOf n o = some l) (hlive : ∀ v ∈ l', v ∈ (t.lvl 0).fps)
    (hs : permutationSign l' l = some s) (h : t.fromVertices l' = some (t', o')) :
    t'.fp n o' = t.fp n o ∧ t'.sg n o' = s * t.sg n o ∧ o' ∈ (t'.lvl n).ors := by
  obtain ⟨ok, st⟩ := ht.ok
  obtain ⟨m, hO⟩ := exists_ofVertices ok.inv st hn ho
  obtain ⟨l2, hl2, hs2⟩ := OfVertices_vertices hO
  rw [hl] at hl2
  simp only [Option.some.injEq] at hl2
  subst hl2
  obtain ⟨k, hk, hlen, ok', st', le, ol', hO', hnd'⟩ := fromVertices_spec ok st hlive h
  have hlen2 : m.length = n + 1 := by
    match n, m, hO with
    | 1, [_, _], _ => rfl
    | 2, [_, _, _], _ => rfl
    | 3, [_, _, _, _], _ => rfl
  have hkn : k = n := by
    have h1 := (perm_of_permutationSign hs).length_eq
    have h2 := (perm_of_permutationSign hs2).length_eq
    omega
  subst hkn
  have hOt : OfVertices t' k o m := by
    match k, m, hO, ho with
    | 1, [_, _], hO, ho => exact SegO_le ok.inv le ho hO
    | 2, [_, _, _], hO, ho => exact TriO_le ok.inv le ho hO
    | 3, [_, _, _, _], hO, ho => exact TetO_le ok.inv le ho hO
  have hlnd : l.Nodup := (perm_of_permutationSign hs).nodup_iff.mp hnd'
  have hs3 := permutationSign_trans hlnd hs hs2
  rw [mul_one] at hs3
  obtain ⟨h1, h2⟩ := OfVertices_related ok'.inv st' hn (le.ors k ho) ol' hOt hO' hs3
  rw [le.ofp k o ho] at h1
  rw [le.osg k o ho] at h2
  exact ⟨h1, h2, ol'⟩

/-- **C18.**  In particular an even rearrangement gives the very same simplex. -/
theorem fromVertices_even (t t' : Topo) (ht : VReachable t) (n : Nat) (o o' : Id) (l l' : List Id)
    (hn : n = 1 ∨ n = 2 ∨ n = 3) (ho : o ∈ (t.lvl n).ors) (hl : t.verticesOf n o = some l)
    (hlive : ∀ v ∈ l', v ∈ (t.lvl 0).fps) (hs : permutationSign l' l = some 1)
    (h : t.fromVertices l' = some (t', o')) : o' = o := by
  obtain ⟨h1, h2, h3⟩ := fromVertices_permuted t t' ht n o o' l l' 1 hn ho hl hlive hs h
  obtain ⟨ok, st⟩ := ht.ok
  obtain ⟨_, _, _, ok', _, le, _⟩ := fromVertices_spec ok st hlive h
  refine ok'.inv.oriented_unique h3 (le.ors n ho) ?_ ?_
  · rw [h1, le.ofp n o ho]
  · rw [h2, le.osg n o ho, one_mul]

/-- **C18.**  An odd rearrangement gives its flip. -/
theorem fromVertices_odd (t t' : Topo) (ht : VReachable t) (n : Nat) (o o' : Id) (l l' : List Id)
    (hn : n = 1 ∨ n = 2 ∨ n = 3) (ho : o ∈ (t.lvl n).ors) (hl : t.verticesOf n o = some l)
    (hlive : ∀ v ∈ l', v ∈ (t.lvl 0).fps) (hs : permutationSign l' l = some (-1))
    (h : t.fromVertices l' = some (t', o')) : t'.flip n o = some (t', o') := by
  obtain ⟨h1, h2, h3⟩ := fromVertices_permuted t t' ht n o o' l l' (-1) hn ho hl hlive hs h
  obtain ⟨ok, st⟩ := ht.ok
  obtain ⟨_, _, _, ok', _, le, _⟩ := fromVertices_spec ok st hlive h
  have := orientedF_existing ok'.inv h3
  rw [h1, h2] at this
  unfold Topo.flip
  rw [le.ofp n o ho, le.osg n o ho]
  simpa using this

/-- **C19.**  The vertices of a simplex built from vertices are an even permutation of those given.
-/
theorem fromVertices_vertices (t t' : Topo) (ht : VReachable t) (l : List Id) (o : Id)
    (hl : ∀ v ∈ l, v ∈ (t.lvl 0).fps) (h : t.fromVertices l = some (t', o)) :
    ∃ l', t'.verticesOf (l.length - 1) o = some l' ∧ permutationSign l' l = some 1 := by
  obtain ⟨n, hn, hlen, _, _, _, _, hO, _⟩ := fromVertices_spec ht.ok.1 ht.ok.2 hl h
  have : l.length - 1 = n := by omega
  rw [this]
  exact OfVertices_vertices hO

/-- a tetrahedron whose footprint was created with the vertices in another order: the odd request
gives a new oriented simplex on the old footprint -/
example : ∃ t t' o', VReachable t ∧ 39 ∈ (t.lvl 3).ors ∧
    t.verticesOf 3 39 = some [0, 1, 2, 3] ∧ permutationSign [1, 0, 2, 3] [0, 1, 2, 3] = some (-1) ∧
    t.fromVertices [1, 0, 2, 3] = some (t', o') ∧ t'.fp 3 o' = t.fp 3 39 ∧
    t'.verticesOf 3 o' = some [1, 0, 2, 3] := by
  refine ⟨((run (.init (List.range 90)) [.vertex, .vertex, .vertex, .vertex,
      .tetrahedron 0 1 2 3]).getD (.init [])), _, _, ⟨List.range 90, [.vertex, .vertex, .vertex,
      .vertex, .tetrahedron 0 1 2 3], by decide, ?_⟩, ?_, ?_, ?_,
      eq_some_of_isSome (.init [], 0) ?_, ?_⟩
  · exact run_eq_some _ (by decide +kernel)
  · decide +kernel
  · decide +kernel
  · decide +kernel
  · decide +kernel
  · decide +kernel

/-- **C19 (finding).**  With compositions listed in an order that is not head to tail the claim
fails: here a triangle is first composed from the segments `0→1, 2→0, 1→2` and then requested from
the vertices `0, 1, 2`; the vertices of the answer are an odd permutation (the assertion in
`triangle` fires). -/
theorem fromVertices_vertices_fails :
    ∃ t t' : Topo, ∃ o : Id, Reachable t ∧ t.fromVertices [0, 1, 2] = some (t', o) ∧
      t'.verticesOf 2 o = some [1, 0, 2] ∧ permutationSign [1, 0, 2] [0, 1, 2] = some (-1) := by
  refine ⟨((run (.init (List.range 60)) [.vertex, .vertex, .vertex, .segment 0 1, .segment 2 0,
    .segment 1 2, .simplex 1 [6, 10, 14]]).getD (.init [])), _, _, ⟨List.range 60, [.vertex, .vertex,
    .vertex, .segment 0 1, .segment 2 0, .segment 1 2, .simplex 1 [6, 10, 14]], ?_⟩,
    eq_some_of_isSome (.init [], 0) ?_, ?_, ?_⟩
  · exact run_eq_some _ (by decide +kernel)
  · decide +kernel
  · decide +kernel
  · decide +kernel

/-! ### C20, C21: erasure -/

/-- **C20.**  Erasing a simplex to which there is any other reference (another handle, or a simplex
composed of it) changes nothing at all. -/
theorem erase_inUse (t : Topo) (ht : Reachable t) (N : Nat) (o : Id) (ho : 0 < t.ext N o)
    (h : 1 < t.ext N o ∨ ∃ f ∈ (t.lvl (N + 1)).fps, o ∈ t.compF (N + 1) f) :
    Topo.erase N t o = (t, false) := by
  have hs := erase_spec N t o ht.ok.inv ho
  have hr : 1 < t.refs N o := by
    rcases h with h | ⟨f, hf, hm⟩
    · unfold Topo.refs; omega
    · have := refs_pos_of_mem hf hm; omega
  cases hb : (Topo.erase N t o).2 with
  | false => exact Prod.ext (hs.noop hb).1 hb
  | true => have := (hs.erased hb).1; omega

/-- **C20.**  Whatever is erased, the simplices a user still holds (the handle passed to `erase` not
counted), all their subsimplices of every order, and the footprints of all these stay alive with the
same footprint, orientation and composition. -/
theorem erase_keeps_held (t : Topo) (ht : Reachable t) (N : Nat) (o : Id) (ho : 0 < t.ext N o)
    (M : Nat) (x : Id) (hx : (if M = N ∧ x = o then 1 else 0) < t.ext M x)
    (K : Nat) (y : Id) (hy : Sub t M x K y) :
    let t' := (Topo.erase N t o).1
    y ∈ (t'.lvl K).ors ∧ t.fp K y ∈ (t'.lvl K).fps ∧ t'.fp K y = t.fp K y ∧ t'.sg K y = t.sg K y ∧
      t'.composition K y = t.composition K y := by
  intro t'
  have hs := erase_spec N t o ht.ok.inv ho
  have hxl : x ∈ (t'.lvl M).ors := by
    apply hs.shr.inv.ext_live
    by_cases e : M = N
    · subst e
      rw [hs.ext]
      split
      · rename_i hc
        rw [if_pos ⟨rfl, hc.2⟩] at hx
        omega
      · omega
    · rw [hs.shr.ext_ne M e]; omega
  have hc : ∀ N o, t'.composition N o = t.composition N o := composition_shr hs.shr
  have hyl := sub_live hs.shr.inv hxl (sub_congr hc hy)
  refine ⟨hyl, ?_, by rw [hs.shr.fp], by rw [hs.shr.sg], hc K y⟩
  rw [← hs.shr.fp]
  exact hs.shr.inv.fp_live K y hyl

/-- **C20.**  The same for footprints held by the user (for example vertices): they and all
subsimplices of their compositions stay alive. -/
theorem erase_keeps_footprints (t : Topo) (ht : Reachable t) (N : Nat) (o : Id) (ho : 0 < t.ext N o)
    (M : Nat) (f : Id) (hf : 0 < t.extF M f) :
    let t' := (Topo.erase N t o).1
    f ∈ (t'.lvl M).fps ∧ t'.compF M f = t.compF M f ∧
      ∀ L, M = L + 1 → ∀ x ∈ t.compF M f, ∀ K y, Sub t L x K y → y ∈ (t'.lvl K).ors := by
  intro t'
  have hs := erase_spec N t o ht.ok.inv ho
  have hfl : f ∈ (t'.lvl M).fps := by
    apply hs.shr.inv.extF_live; rw [hs.shr.extF]; exact hf
  refine ⟨hfl, by rw [hs.shr.compF], ?_⟩
  rintro L rfl x hx K y hy
  have hxl : x ∈ (t'.lvl L).ors := hs.shr.inv.comp_live L f hfl x (by rw [hs.shr.compF]; exact hx)
  exact sub_live hs.shr.inv hxl (sub_congr (composition_shr hs.shr) hy)

/-- **C20.**  Erasing an oriented simplex touches no other simplex of its own order and nothing of
higher order, and only ever removes: it creates nothing. -/
theorem erase_frame (t : Topo) (ht : Reachable t) (N : Nat) (o : Id) (ho : 0 < t.ext N o) :
    let t' := (Topo.erase N t o).1
    (∀ M, N < M → t'.lvl M = t.lvl M) ∧ (∀ x ∈ (t.lvl N).ors, x ≠ o → x ∈ (t'.lvl N).ors) ∧
      (∀ M, (t'.lvl M).ors ⊆ (t.lvl M).ors ∧ (t'.lvl M).fps ⊆ (t.lvl M).fps) := by
  have hs := erase_spec N t o ht.ok.inv ho
  exact ⟨hs.shr.lvl_gt, hs.ors_ne, fun M => ⟨hs.shr.ors M, hs.shr.fps M⟩⟩

/-- **C21.**  After erasing a simplex that nobody else refers to it is gone; so is every subsimplex,
of any order, that after the erasure is neither held by a user nor part of a surviving simplex, and
so is every footprint of these to which no user handle and no surviving oriented simplex refers. -/
theorem erase_frees (t : Topo) (ht : Reachable t) (N : Nat) (o : Id) (h1 : t.ext N o = 1)
    (h2 : ∀ f ∈ (t.lvl (N + 1)).fps, o ∉ t.compF (N + 1) f) :
    let t' := (Topo.erase N t o).1
    (Topo.erase N t o).2 = true ∧ o ∉ (t'.lvl N).ors ∧
    (∀ M x, M < N → Sub t N o M x → t'.ext M x = 0 →
      (∀ f ∈ (t'.lvl (M + 1)).fps, x ∉ t'.compF (M + 1) f) → x ∉ (t'.lvl M).ors) ∧
    (∀ M x, Sub t N o M x → t'.extF M (t.fp M x) = 0 →
      (∀ y ∈ (t'.lvl M).ors, t'.fp M y ≠ t.fp M x) → t.fp M x ∉ (t'.lvl M).fps) := by
  intro t'
  have hi := ht.ok.inv
  have hs := erase_spec N t o hi (by omega)
  have hol : o ∈ (t.lvl N).ors := hi.ext_live N o (by omega)
  have hr : t.refs N o = 1 := by
    unfold Topo.refs
    rw [h1, Finset.sum_eq_zero fun f hf => List.count_eq_zero.mpr (h2 f hf), add_zero]
  have hb : (Topo.erase N t o).2 = true := by
    cases hb : (Topo.erase N t o).2 with
    | true => rfl
    | false => have := (hs.noop hb).2; omega
  refine ⟨hb, (hs.erased hb).2, ?_, ?_⟩
  · intro M x hM hx he hf hxl
    have h0 : t'.refs M x = 0 := by
      unfold Topo.refs
      rw [he, Finset.sum_eq_zero fun f hfl => List.count_eq_zero.mpr (hf f hfl), add_zero]
    have := hs.shr.ng M hM x hxl h0
    have := sub_refs hi hol hx hM
    omega
  · intro M x hx he ho' hfl
    have h0 : t'.refsF M (t.fp M x) = 0 := by
      unfold Topo.refsF
      rw [he, Finset.filter_eq_empty_iff.mpr ?_]
      · rfl
      · intro y hy; exact ho' y hy
    have h3 := hs.shr.ngF M (sub_le hx) _ hfl h0
    have hxl := sub_live hi hol hx
    unfold Topo.refsF at h3
    have h4 : ((t.lvl M).ors.filter fun y => (t.lvl M).ofp y = t.fp M x).card = 0 := by omega
    rw [Finset.card_eq_zero] at h4
    have h5 : x ∈ (t.lvl M).ors.filter fun y => (t.lvl M).ofp y = t.fp M x := by
      rw [Finset.mem_filter]; exact ⟨hxl, rfl⟩
    rw [h4] at h5
    simp at h5

/-- Two triangles sharing an edge: erasing one through its only handle destroys it and its two own
edges; the shared edge (in the orientation the other triangle uses) and the other triangle stay.
The hypotheses of both theorems hold here. -/
example : ∃ t, VReachable t ∧ t.ext 2 17 = 1 ∧ (t.lvl 3).fps = ∅ ∧ t.nSimplices 2 = 2 ∧
    t.nSimplices 1 = 6 ∧
    (let t' := (Topo.erase 2 t 17).1
     17 ∉ (t'.lvl 2).ors ∧ t'.nSimplices 2 = 1 ∧ t'.nSimplices 1 = 3 ∧ (t'.lvl 1).fps.card = 3) := by
  refine ⟨((run (.init (List.range 90)) [.vertex, .vertex, .vertex, .vertex,
      .triangle 0 1 2, .triangle 1 0 3]).getD (.init [])), ⟨List.range 90, [.vertex, .vertex, .vertex,
      .vertex, .triangle 0 1 2, .triangle 1 0 3], by decide, ?_⟩, ?_, ?_, ?_⟩
  · exact run_eq_some _ (by decide +kernel)
  · decide +kernel
  · rw [Finset.eq_empty_iff_forall_notMem, ← Finset.eq_empty_iff_forall_notMem]
    decide +kernel
  · decide +kernel

/-! ### C22: existence queries -/

/-- **C22.**  `exists(composition)` is true exactly when the oriented simplex it describes is alive;
that simplex is unique, and it is what `simplex(composition)` would return (without changing the
topology). -/
theorem existsComp_iff (t : Topo) (ht : Reachable t) (N : Nat) (c : List Id) :
    (t.existsComp N c = some true ↔ ∃ o, Realizes t N c o) ∧
    (∀ o o', Realizes t N c o → Realizes t N c o' → o = o') ∧
    (∀ o, Realizes t N c o → t.isValid (N + 1) c = some true → t.simplex N c = some (t, o)) :=
  ⟨existsComp_eq ht.ok.inv, fun _ _ => realizes_unique ht.ok.inv,
    fun _ h hv => simplex_of_realizes ht.ok.inv hv h⟩

/-- **C22.**  For subsimplices with different footprints the query always has an answer. -/
theorem existsComp_total (t : Topo) (ht : Reachable t) (N : Nat) (c : List Id)
    (hl : c.length = N + 2) (hnd : (c.map (t.fp N)).Nodup) :
    t.existsComp N c = some true ∨ t.existsComp N c = some false := by
  obtain ⟨b, h⟩ := existsComp_defined ht.ok.inv hl hnd
  cases b <;> simp [h]

/-- **C22.**  After creation the query answers true; after an erasure that destroys the simplex it
does not. -/
theorem existsComp_created_erased (t t1 : Topo) (ht : Reachable t) (N : Nat) (c : List Id) (o : Id)
    (hc : ∀ x ∈ c, x ∈ (t.lvl N).ors) (hl : c.length = N + 2) (hnd : c.Nodup)
    (h : t.simplex N c = some (t1, o)) :
    t1.existsComp N c = some true ∧
    ∀ t2, Reachable t2 → Realizes t2 N c o → t2.ext (N + 1) o = 1 →
      (∀ f ∈ (t2.lvl (N + 2)).fps, o ∉ t2.compF (N + 2) f) →
      (Topo.erase (N + 1) t2 o).1.existsComp N c ≠ some true := by
  obtain ⟨i1, le1, ol, hv, hp, hsg, _, hfp⟩ := simplex_spec ht.ok.inv hc hl hnd h
  constructor
  · rw [existsComp_eq i1]
    refine ⟨o, ol, ?_⟩
    rw [map_fp_congr hfp]; exact hsg
  · intro t2 h2 hr he hf hcon
    have hs := erase_spec (N + 1) t2 o h2.ok.inv (by omega)
    have hgone := (erase_frees t2 h2 (N + 1) o he hf).2.1
    rw [existsComp_eq hs.shr.inv] at hcon
    obtain ⟨o', ho', hs'⟩ := hcon
    have : Realizes t2 N c o' := by
      refine ⟨hs.shr.ors _ ho', ?_⟩
      rw [hs.shr.fp, hs.shr.compF, hs.shr.sg] at hs'
      exact hs'
    rw [realizes_unique h2.ok.inv this hr] at ho'
    exact hgone ho'

/-- **C22.**  No operation but `erase` ever makes a simplex disappear, or changes it. -/
theorem alive_until_erased (t t' : Topo) (ht : Reachable t) (op : Op)
    (hop : ∀ N o, op ≠ .erase N o) (h : step t op = some t') (N : Nat) (o : Id)
    (ho : o ∈ (t.lvl N).ors) :
    o ∈ (t'.lvl N).ors ∧ t'.fp N o = t.fp N o ∧ t'.sg N o = t.sg N o := by
  have hok := ht.ok
  have key : ∀ u : Topo, Le t u → ∀ v : Topo, v.lvl = u.lvl →
      o ∈ (v.lvl N).ors ∧ v.fp N o = t.fp N o ∧ v.sg N o = t.sg N o := by
    intro u hle v hv
    refine ⟨by rw [hv]; exact hle.ors N ho, ?_, ?_⟩
    · rw [← hle.ofp N o ho]; unfold Topo.fp; rw [hv]
    · rw [← hle.osg N o ho]; unfold Topo.sg; rw [hv]
  have hkeep : ∀ M (r : Option (Topo × Id)), keep M r = some t' →
      (∀ u x, r = some (u, x) → Le t u) →
      o ∈ (t'.lvl N).ors ∧ t'.fp N o = t.fp N o ∧ t'.sg N o = t.sg N o := by
    intro M r hk hr
    cases r with
    | none => simp [keep] at hk
    | some p =>
      obtain ⟨u, x⟩ := p
      simp only [keep, Option.some.injEq] at hk
      subst hk
      exact key u (hr u x rfl) _ rfl
  cases op with
  | vertex =>
    simp only [step] at h
    split at h
    · simp at h
    · rename_i u v hv
      simp only [Option.some.injEq] at h
      subst h
      exact key u (vertex_ok hok hv).2.1 _ rfl
  | oriented M f s =>
    simp only [step] at h
    split at h
    · rename_i hc
      exact hkeep _ _ h fun u x hr => (orientedF_ok hok hc.1 hc.2 hr).2.1
    · simp at h
  | simplex M c =>
    simp only [step] at h
    split at h
    · rename_i hc
      exact hkeep _ _ h fun u x hr => (simplex_spec hok.inv hc.1 hc.2.1 hc.2.2 hr).2.1
    · simp at h
  | segment a b =>
    simp only [step] at h
    split at h
    · rename_i hc
      exact hkeep _ _ h fun u x hr => (segment_ok hok hc.1 hc.2 hr).2.1
    · simp at h
  | triangle a b c =>
    simp only [step] at h
    split at h
    · rename_i hc
      exact hkeep _ _ h fun u x hr => (triangle_ok hok hc.1 hc.2.1 hc.2.2 hr).2.1
    · simp at h
  | tetrahedron a b c d =>
    simp only [step] at h
    split at h
    · rename_i hc
      exact hkeep _ _ h fun u x hr => (tetrahedron_ok hok hc.1 hc.2.1 hc.2.2.1 hc.2.2.2 hr).2.1
    · simp at h
  | flip M x =>
    simp only [step] at h
    split at h
    · rename_i hc
      refine hkeep _ _ h fun u y hr => ?_
      refine (orientedF_ok hok (hok.inv.fp_live M x hc) ?_ hr).2.1
      rcases hok.inv.sg M x hc with e | e <;> rw [e] <;> simp
    · simp at h
  | hold M x =>
    simp only [step] at h
    split at h
    · simp only [Option.some.injEq] at h; subst h; exact key t (Le.refl _) _ rfl
    · simp at h
  | drop M x =>
    simp only [step] at h
    split at h
    · simp only [Option.some.injEq] at h; subst h; exact key t (Le.refl _) _ rfl
    · simp at h
  | holdF M x =>
    simp only [step] at h
    split at h
    · simp only [Option.some.injEq] at h; subst h; exact key t (Le.refl _) _ rfl
    · simp at h
  | dropF M x =>
    simp only [step] at h
    split at h
    · simp only [Option.some.injEq] at h; subst h; exact key t (Le.refl _) _ rfl
    · simp at h
  | erase M x => exact absurd rfl (hop M x)

/-- **C22, partial.**  `exists(v0, v1)`: a positive answer is right, and where the two oriented end
points exist a negative answer is right too.  Missing: without them the answer is always negative,
see `existsSegment_misses`. -/
theorem existsSegment_partial (t : Topo) (ht : VReachable t) (a b : Id) (hab : a ≠ b) :
    (t.existsSegment a b = some true →
      ∃ o ∈ (t.lvl 1).ors, t.verticesOf 1 o = some [a, b]) ∧
    ((∃ x ∈ (t.lvl 0).ors, t.fp 0 x = a ∧ t.sg 0 x = -1) →
      (∃ y ∈ (t.lvl 0).ors, t.fp 0 y = b ∧ t.sg 0 y = 1) →
      (∃ o ∈ (t.lvl 1).ors, t.verticesOf 1 o = some [a, b]) → t.existsSegment a b = some true) := by
  obtain ⟨ok, st⟩ := ht.ok
  have hi := ok.inv
  have main : ∀ x y, t.findOriented 0 a (-1) = some x → t.findOriented 0 b 1 = some y →
      (t.existsComp 0 [x, y] = some true ↔
        ∃ o ∈ (t.lvl 1).ors, t.verticesOf 1 o = some [a, b]) := by
    intro x y hx hy
    obtain ⟨x1, x2, x3⟩ := (hi.orients 0 _ _ x).1 hx
    obtain ⟨y1, y2, y3⟩ := (hi.orients 0 _ _ y).1 hy
    rw [existsComp_eq hi]
    have hmap : [x, y].map (t.fp 0) = [a, b] := by simp [x2, y2]
    have conv : ∀ o ∈ (t.lvl 1).ors, (permutationSign [a, b]
        ((t.compF 1 (t.fp 1 o)).map (t.fp 0)) = some (t.sg 1 o) ↔ SegO t o a b) := by
      intro o ho
      obtain ⟨p, q, hF⟩ := st.seg _ (hi.fp_live 1 o ho)
      have e : (t.compF 1 (t.fp 1 o)).map (t.fp 0) = [p, q] := by
        obtain ⟨_, u, v, e, h1, _, h2, _⟩ := hF
        rw [e]; simp [h1, h2]
      rw [e]
      constructor
      · intro h; exact ⟨p, q, hF, h⟩
      · rintro ⟨p', q', hF', h⟩
        obtain ⟨rfl, rfl⟩ := SegF_determines hF hF'
        exact h
    constructor
    · rintro ⟨o, ho, hs⟩
      rw [hmap] at hs
      exact ⟨o, ho, SegO_vertices ((conv o ho).1 hs)⟩
    · rintro ⟨o, ho, hv⟩
      refine ⟨o, ho, ?_⟩
      rw [hmap]
      obtain ⟨p, q, hO⟩ := SegO_of_live hi st ho
      rw [SegO_vertices hO] at hv
      simp only [Option.some.injEq, List.cons.injEq, and_true] at hv
      obtain ⟨rfl, rfl⟩ := hv
      exact (conv o ho).2 hO
  constructor
  · intro h
    unfold Topo.existsSegment at h
    split at h
    · rename_i x y hx hy
      exact (main x y hx hy).1 h
    · simp at h
  · rintro ⟨x, x1, x2, x3⟩ ⟨y, y1, y2, y3⟩ ho
    have hx : t.findOriented 0 a (-1) = some x := (hi.orients 0 _ _ x).2 ⟨x1, x2, x3⟩
    have hy : t.findOriented 0 b 1 = some y := (hi.orients 0 _ _ y).2 ⟨y1, y2, y3⟩
    unfold Topo.existsSegment
    rw [hx, hy]
    exact (main x y hx hy).2 ho

/-- **C22 (finding).**  `exists(v0, v1)` can miss a segment that exists: after `segment(v0, v1)` and
`flip`, the segment from `v1` to `v0` is alive, but `exists(v1, v0)` answers false, because the
oriented end points `(v1, -1)`, `(v0, +1)` were never created. -/
theorem existsSegment_misses :
    ∃ t : Topo, VReachable t ∧ (∃ o ∈ (t.lvl 1).ors, t.verticesOf 1 o = some [1, 0]) ∧
      t.existsSegment 1 0 = some false := by
  refine ⟨((run (.init (List.range 20)) [.vertex, .vertex, .segment 0 1, .flip 1 5]).getD
      (.init [])), ⟨List.range 20, [.vertex, .vertex, .segment 0 1, .flip 1 5], by decide, ?_⟩,
      ⟨6, ?_⟩, ?_⟩
  · exact run_eq_some _ (by decide +kernel)
  · decide +kernel
  · decide +kernel

/-- a segment found by its vertices, and not found in the other direction -/
example : ∃ t, VReachable t ∧ t.existsSegment 0 1 = some true ∧ t.existsSegment 1 0 = some false := by
  refine ⟨((run (.init (List.range 20)) [.vertex, .vertex, .segment 0 1]).getD
      (.init [])), ⟨List.range 20, [.vertex, .vertex, .segment 0 1], by decide, ?_⟩, ?_⟩
  · exact run_eq_some _ (by decide +kernel)
  · decide +kernel

end Mito.Topology
