import Verif.Mesh.SnapshotLemmas
import Verif.Fem.BlocksLemmas
import Verif.Props.Integrator
import Verif.Props.Summit

/-! # C109: objects made from a mesh before the mesh was changed -/

namespace Mito.Snapshot

open Mito.Alloc Mito.SegVec Mito.Meshes Mito.Functions

variable {α : Type} {fac : α → List (Nat × Int)} {m m' : Mesh α} {s s' : Abs α} {known known' : Finset Nat}
  {log : List (Event α)}

/-! ## elements of function spaces -/

/-- Whatever happened to the mesh, an element finds through its reference the last cell inserted into its slot:
the reference never dangles, but it need not lead to the cell the element was made from. -/
theorem element_now (h : Reachable fac m s known) (hl : Later fac m s known m' s' known' log) (es : List (Element α))
    (hes : elements m = some es) (e : Element α) (he : e ∈ es) :
    e.now m' = some ((lastInserted e.slot log).getD e.made) := by
  obtain ⟨es', h1, h2, -⟩ := elements_eq h
  obtain rfl : es' = es := by rw [h1] at hes; exact Option.some.inj hes
  have h0 := h2 e he
  induction hl with
  | refl =>
    obtain ⟨w, hw⟩ := h.inv
    simp [Element.now, hw.coupled.val _ _ h0, lastInserted]
  | @insert m₁ m₂ s₁ known₁ log₁ a c b hl hb hi ih =>
    obtain ⟨k1, k2, -⟩ := insert_mem (hl.reachable h) hb hi
    rw [lastInserted_append]
    by_cases e' : a = e.slot
    · subst e'; simp [Element.now, k1]
    · simp only [e', if_false, ← ih, Element.now]
      rw [k2 _ (Ne.symm e')]
  | @erase m₁ m₂ s₁ known₁ log₁ a hl ha hi ih =>
    rw [lastInserted_append]
    simp only [← ih, Element.now]
    exact (erase_mem (hl.reachable h) ha hi e.slot).1

/-- while its cell is not erased, an element finds the cell it was made from, whatever else is inserted and erased -/
theorem element_kept (h : Reachable fac m s known) (hl : Later fac m s known m' s' known' log) (es : List (Element α))
    (hes : elements m = some es) (e : Element α) (he : e ∈ es) (hk : ∀ ev ∈ log, ∀ a, ev = .erased a → a ≠ e.slot) :
    e.now m' = some e.made ∧ s' e.slot = some e.made := by
  obtain ⟨es', h1, h2, -⟩ := elements_eq h
  obtain rfl : es' = es := by rw [h1] at hes; exact Option.some.inj hes
  have h0 := h2 e he
  have key : s' e.slot = some e.made := by
    induction hl with
    | refl => exact h0
    | @insert m₁ m₂ s₁ known₁ log₁ a c b hl hb hi ih =>
      have ih := ih fun ev hev => hk ev (by simp [hev])
      have hne : e.slot ≠ a := fun h' => by
        have := (insert_mem (hl.reachable h) hb hi).2.2
        rw [← h', ih] at this
        cases this
      simpa [Abs.add, hne] using ih
    | @erase m₁ m₂ s₁ known₁ log₁ a hl ha hi ih =>
      have ih := ih fun ev hev => hk ev (by simp [hev])
      have hne : e.slot ≠ a := fun h' => hk (.erased a) (by simp) a rfl h'.symm
      simpa [Abs.remove, hne] using ih
  obtain ⟨w, hw⟩ := (hl.reachable h).inv
  exact ⟨by simp [Element.now, hw.coupled.val _ _ key], key⟩

/-- if cells are only inserted, or only erased, every element finds the cell it was made from -/
theorem monotone_kept (h : Reachable fac m s known) (hl : Later fac m s known m' s' known' log) (es : List (Element α))
    (hes : elements m = some es) (hm : (∀ ev ∈ log, ∃ a c, ev = .inserted a c) ∨ ∀ ev ∈ log, ∃ a, ev = .erased a)
    (e : Element α) (he : e ∈ es) : e.now m' = some e.made := by
  rcases hm with hm | hm
  · refine (element_kept h hl es hes e he fun ev hev a ha => ?_).1
    obtain ⟨_, _, h'⟩ := hm ev hev
    rw [ha] at h'; cases h'
  · rw [element_now h hl es hes e he]
    have : ∀ l : List (Event α), (∀ ev ∈ l, ∃ a, ev = .erased a) → lastInserted e.slot l = none := by
      intro l hl
      induction l using List.reverseRecOn with
      | nil => rfl
      | append_singleton l ev ih =>
        obtain ⟨a, rfl⟩ := hl ev (by simp)
        rw [lastInserted_append]
        exact ih fun ev hev => hl ev (by simp [hev])
    rw [this log hm]
    rfl

/-- Exchange: if cells of a mesh without vacant slots are erased and then new ones are inserted, the element made
from the `i`-th erased cell finds the `i`-th inserted one. -/
theorem exchange (h : Reachable fac m s known) (hc : Compact s known) (as : List Nat) (hn : as.Nodup)
    (hs : ∀ a ∈ as, s a ≠ none) (ins : List (Nat × α))
    (hl : Later fac m s known m' s' known' (as.map .erased ++ ins.map fun p => .inserted p.1 p.2))
    (es : List (Element α)) (hes : elements m = some es) (i : Nat) (hi : i < ins.length) (hi' : i < as.length)
    (e : Element α) (he : e ∈ es) (hes : e.slot = as[i]) : e.now m' = some (ins[i].2) := by
  obtain ⟨w, hw⟩ := h.inv
  obtain ⟨w', hw', -, h1, h2⟩ := insertions (as.map Event.erased) as (fun hl' => by
    obtain ⟨w₁, k1, k2, -⟩ := erasures hw (Compact.pending hw hc) as hn hs hl'
    exact ⟨w₁, k1, k2⟩) ins hl
  have := h1 ins[i] (List.getElem_mem hi)
  rw [h2 i hi hi', ← hes] at this
  simp [Element.now, hw'.coupled.val _ _ this]

/-- in particular not the one it was made from, if that one is not inserted again at its turn -/
theorem exchange_stale (h : Reachable fac m s known) (hc : Compact s known) (a : Nat) (c : α) (hs : s a = some c) (c' : α)
    (hne : c' ≠ c) (a' : Nat) (hl : Later fac m s known m' s' known' [.erased a, .inserted a' c']) :
    ∃ es, elements m = some es ∧ ⟨a, c⟩ ∈ es ∧ Element.now m' ⟨a, c⟩ ≠ some c := by
  obtain ⟨es, h1, -, h3, -⟩ := elements_eq h
  refine ⟨es, h1, h3 a c hs, ?_⟩
  rw [exchange h hc [a] (by simp) (by simp [hs]) [(a', c')] hl es h1 0 (by simp) (by simp) ⟨a, c⟩ (h3 a c hs) rfl]
  simpa using hne

/-- the loop that makes the elements visits each cell of the mesh once -/
theorem elements_made (h : Reachable fac m s known) : ∃ es, elements m = some es ∧ m.cellList = some (es.map Element.made) ∧
    (es.map Element.slot).Nodup ∧ ∀ e, e ∈ es ↔ s e.slot = some e.made := by
  obtain ⟨es, h1, h2, h3, h4, h5⟩ := elements_eq h
  exact ⟨es, h1, h4, h5, fun e => ⟨h2 e, fun he => h3 _ _ he⟩⟩

/-- What the blocks compute on an element whose reference leads to another triangle: matrices are those of the triangle
the element was made from; source terms take the values of the function in the triangle found, and the area of the one
the element was made from. -/
theorem hybrid_blocks (x y : Fin 3 → Val (.vec 2)) (rule : Fem.Rule 2) (f : Val (.vec 2) → ℝ) (a b : Fin 3) :
    Fem.gradGrad rule (hybrid x y) a b = Fem.gradGrad rule (Fem.triP1 x) a b ∧
    Fem.mass rule (hybrid x y) a b = Fem.mass rule (Fem.triP1 x) a b ∧
    Fem.triangleArea y * Fem.sourceTerm f rule (hybrid x y) a = Fem.triangleArea x * Fem.sourceTerm f rule (Fem.triP1 y) a := by
  refine ⟨rfl, rfl, ?_⟩
  rw [Fem.sourceTerm_sum, Fem.sourceTerm_sum, ← List.sum_map_mul_left, ← List.sum_map_mul_left]
  congr 1
  refine List.map_congr_left fun p _ => ?_
  have h1 : Fem.factor (hybrid x y) p = Fem.factor (Fem.triP1 x) p := rfl
  have h2 : (hybrid x y).parametrization = (Fem.triP1 y).parametrization := rfl
  have h3 : (hybrid x y).shape = (Fem.triP1 y).shape := rfl
  rw [h1, h2, h3, Fem.factor, Fem.factor, Fem.tri1_detJ, Fem.tri1_detJ]
  ring

/-- an element that finds the triangle it was made from is the usual one -/
theorem hybrid_self (x : Fin 3 → Val (.vec 2)) : hybrid x x = Fem.triP1 x := rfl

/-- the source term is that of the triangle found only if the triangles have the same area -/
theorem hybrid_source_iff (x y : Fin 3 → Val (.vec 2)) (rule : Fem.Rule 2) (f : Val (.vec 2) → ℝ) (a : Fin 3)
    (hy : Fem.triangleArea y ≠ 0) : Fem.sourceTerm f rule (hybrid x y) a = Fem.sourceTerm f rule (Fem.triP1 y) a ↔
      Fem.triangleArea x = Fem.triangleArea y ∨ Fem.sourceTerm f rule (Fem.triP1 y) a = 0 := by
  have h := (hybrid_blocks x y rule f a a).2.2
  constructor
  · intro e
    rw [e] at h
    rcases mul_eq_mul_right_iff.1 h with h | h
    · exact .inl h.symm
    · exact .inr h
  · rintro (e | e)
    · rw [e] at h
      exact mul_left_cancel₀ hy h
    · rw [e, mul_zero] at h
      rw [e]
      exact (mul_eq_zero.1 h).resolve_left hy

/-! ## integrators -/

variable {n d : Nat}

theorem integrateLater_self (debug : Bool) (t : Quadrature.Table (n + 1)) (volume : Quadrature.Cell n d → ℝ)
    (cells : List (Quadrature.Cell n d)) (f : Val (.vec d) → ℝ) :
    integrateLater debug t volume cells cells f = Quadrature.integrate debug t volume cells f := rfl

theorem field_of (debug : Bool) (t : Quadrature.Table (n + 1)) (before : List (Quadrature.Cell n d))
    (hn : (before.map Quadrature.Cell.key).Nodup) : ∃ field, Quadrature.coordinatesField debug t before = some field ∧
      ∀ k, DiscreteField.read field k = (before.find? fun c => c.key = k).map (Quadrature.quadraturePoints t) := by
  have hi := Quadrature.inserted_map before Quadrature.Cell.key (Quadrature.quadraturePoints t)
  have hs : (Quadrature.coordinatesField debug t before).isSome = true := by
    cases debug with
    | false => exact Quadrature.run_release _ _
    | true => rw [Quadrature.coordinatesField, DiscreteField.field_debug, hi]; exact hn
  obtain ⟨field, hf⟩ := Option.isSome_iff_exists.1 hs
  refine ⟨field, hf, fun k => ?_⟩
  rw [DiscreteField.field_value debug _ field hf, Quadrature.valueOf_map]

/-- an integrator throws exactly if the mesh has a cell that it had not when the integrator was made -/
theorem integrateLater_throws (debug : Bool) (t : Quadrature.Table (n + 1)) (volume : Quadrature.Cell n d → ℝ)
    (before after : List (Quadrature.Cell n d)) (f : Val (.vec d) → ℝ) (hn : (before.map Quadrature.Cell.key).Nodup) :
    integrateLater debug t volume before after f = .throws ↔ ∃ c ∈ after, c.key ∉ before.map Quadrature.Cell.key := by
  obtain ⟨field, hf, hr⟩ := field_of debug t before hn
  rw [integrateLater, hf]
  simp only
  have hread : ∀ k, DiscreteField.read field k = none ↔ k ∉ before.map Quadrature.Cell.key := by
    intro k
    rw [hr, Option.map_eq_none_iff, List.find?_eq_none]
    simp
  generalize (0 : ℝ) = r
  induction after generalizing r with
  | nil => simp [Quadrature.integrateLoop]
  | cons c after ih =>
    rw [Quadrature.integrateLoop]
    cases h : DiscreteField.read field c.key with
    | none =>
      simp only [true_iff]
      exact ⟨c, by simp, (hread _).1 h⟩
    | some pts =>
      simp only [ih]
      have hc : ¬ c.key ∉ before.map Quadrature.Cell.key := fun hc => by
        rw [(hread _).2 hc] at h
        cases h
      simp only [List.mem_cons, exists_eq_or_imp, hc, false_or]

/-- after erasures the integrator gives the integral over the cells that are left; in general over the cells that the
mesh has now, as long as the nodes of the cells have not moved -/
theorem integrateLater_value (debug : Bool) (t : Quadrature.Table (n + 1)) (volume : Quadrature.Cell n d → ℝ)
    (before after : List (Quadrature.Cell n d)) (f : Val (.vec d) → ℝ) (hn : (before.map Quadrature.Cell.key).Nodup)
    (hs : ∀ c ∈ after, c ∈ before) :
    integrateLater debug t volume before after f = .value (Quadrature.quadratureSum t volume after f) := by
  obtain ⟨field, hf, hr⟩ := field_of debug t before hn
  rw [integrateLater, hf]
  simp only
  rw [Quadrature.integrateLoop_value t volume f id after, zero_add]
  · rfl
  · intro c hc
    have hfind : before.find? (fun c' => c'.key = c.key) = some c := by
      have hc := hs c hc
      clear hf hr hs
      induction before with
      | nil => cases hc
      | cons b before ih =>
        rw [List.map_cons, List.nodup_cons] at hn
        rcases List.mem_cons.1 hc with rfl | h
        · simp
        · have hne : b.key ≠ c.key := fun e => hn.1 (e ▸ List.mem_map_of_mem h)
          rw [List.find?_cons_of_neg (by simpa using hne)]
          exact ih hn.2 h
    rw [hr, hfind]
    rfl

/-! ## Summit writers -/

theorem writeLater_self (D type : Nat) (coords : Nat → List ℚ) (printed : ℚ → ℚ) (elementType : List Summit.Token)
    (order : List (Nat × Nat)) (cells : List Summit.Cell) :
    writeLater D type coords printed elementType order cells cells = Summit.write D type coords printed elementType order cells := rfl

/-- the number of a node in the file of a writer made when the mesh had the cells `before` -/
theorem writeCell_later {before : List Summit.Cell} {c : Summit.Cell} (hc : ∀ v ∈ c, v.point ∈ Summit.meshPoints before)
    (type : Nat) (elementType : List Summit.Token) :
    Summit.writeCell type (Summit.points before) elementType c =
      some (.num type :: c.map (fun v => .num ((Summit.fileIndex before v + 1 : Nat) : ℚ)) ++ [.num 1] ++ elementType) := by
  have h := Numbering.allSome_map (l := c) (f := fun v : Summit.Node => Numbering.lookup (Summit.points before) v.point)
    (g := fun v => Summit.fileIndex before v + 1) fun v hv => by
      rw [Summit.points, Numbering.lookup_number (hc v hv), Summit.fileIndex, Nat.add_comm]
  rw [Summit.writeCell, h]
  simp [List.map_map, Function.comp_def]

theorem allSome_none {β : Type} {l : List (Option β)} (h : none ∈ l) : Numbering.allSome l = none := by
  induction l with
  | nil => cases h
  | cons o l ih =>
    cases o with
    | none => simp [Numbering.allSome]
    | some b =>
      have := ih (by simpa using h)
      simp [Numbering.allSome, this]

/-- a writer throws exactly if the mesh has a cell with a point that no cell had when the writer was made -/
theorem writeLater_isSome {D type : Nat} {coords : Nat → List ℚ} {printed : ℚ → ℚ} {elementType : List Summit.Token}
    {order : List (Nat × Nat)} {before after : List Summit.Cell} (ho : order.Perm (Summit.points before)) :
    (writeLater D type coords printed elementType order before after).isSome = true ↔
      ∀ p ∈ Summit.meshPoints after, p ∈ Summit.meshPoints before := by
  rw [writeLater, Summit.pointsVector_eq ho]
  simp only
  constructor
  · intro h p hp
    by_contra hn
    obtain ⟨c, hc, hp⟩ := List.mem_flatMap.1 hp
    obtain ⟨v, hv, rfl⟩ := List.mem_map.1 hp
    have h1 : Numbering.allSome (after.map (Summit.writeCell type (Summit.points before) elementType)) = none := by
      refine allSome_none (List.mem_map.2 ⟨c, hc, ?_⟩)
      rw [Summit.writeCell, allSome_none, Option.map_none]
      refine List.mem_map.2 ⟨v, hv, ?_⟩
      rw [Summit.points, Numbering.number_eq, Numbering.lookup_zipIdx, if_neg fun h => hn (Numbering.mem_firsts.1 h)]
    rw [h1] at h
    cases h
  · intro h
    rw [Numbering.allSome_map fun c hc => writeCell_later (fun v hv => h _ (Summit.mem_meshPoints hc hv)) type elementType]
    rfl

/-- What the reader makes of a file of a writer made when the mesh had the cells `before`: the cells that the mesh has
now, and the points of all cells that the mesh had then. -/
theorem read_writeLater {D type V : Nat} {coords : Nat → List ℚ} {printed : ℚ → ℚ} {order : List (Nat × Nat)}
    {before after : List Summit.Cell} (ho : order.Perm (Summit.points before)) (hV : ∀ c ∈ after, c.length = V)
    (hD : ∀ p ∈ Summit.meshPoints before, (coords p).length = D) (file : List Summit.Token)
    (hw : writeLater D type coords printed [] order before after = some file) :
    Summit.reader D type V file = .ok ((Numbering.firsts (Summit.meshPoints before)).map (fun p => (coords p).map printed),
      after.map fun c => c.map (Summit.fileIndex before)) := by
  have hs := (writeLater_isSome (D := D) (type := type) (coords := coords) (printed := printed) (elementType := [])
    (after := after) ho).1 (by rw [hw]; rfl)
  have h2 := Numbering.allSome_map (l := after) (f := Summit.writeCell type (Summit.points before) [])
    fun c hc => writeCell_later (fun v hv => hs _ (Summit.mem_meshPoints hc hv)) type []
  simp only [writeLater, Summit.pointsVector_eq ho, h2] at hw
  obtain rfl := Option.some.inj hw
  set pts := (Numbering.firsts (Summit.meshPoints before)).map fun p => (coords p).map printed with hpts
  have hlen : (Summit.points before).length = pts.length := by simp [hpts, Summit.points, Numbering.number_length]
  have hv := Summit.readMany_vertices (D := D) pts (by
    intro p hp
    obtain ⟨q, hq, rfl⟩ := List.mem_map.mp hp
    rw [List.length_map]
    exact hD q (Numbering.mem_firsts.mp hq))
  have he := Summit.readElements_eq (type := type) (V := V) (nNodes := pts.length)
    (after.map fun c => c.map (Summit.fileIndex before)) (by
      intro c hc
      obtain ⟨d, hd, rfl⟩ := List.mem_map.mp hc
      rw [List.length_map]
      exact hV d hd) (by
      intro c hc i hi
      obtain ⟨d, hd, rfl⟩ := List.mem_map.mp hc
      obtain ⟨n, hn, rfl⟩ := List.mem_map.mp hi
      have := Numbering.idxOf_firsts_lt (hs _ (Summit.mem_meshPoints hd hn))
      simpa [hpts, Summit.fileIndex] using this) []
  rw [List.append_nil, List.flatMap_map] at he
  have he' : Summit.readElements type V pts.length after.length
      ⟨after.flatMap fun c => Summit.Token.num type ::
          c.map (fun n => .num ((Summit.fileIndex before n + 1 : Nat) : ℚ)) ++ [.num 1] ++ [], false⟩ =
      some (after.map fun c => c.map (Summit.fileIndex before), ⟨[], false⟩) := by
    rw [← he]
    simp only [List.length_map, List.map_map, Function.comp_def, List.append_nil]
  have h1 : ∀ s, Summit.readInt ⟨Summit.Token.num (1 : ℚ) :: s, false⟩ = (1, ⟨s, false⟩) := by
    intro s
    have := Summit.readInt_nat 1
    simpa using this _
  have hfl : ((Numbering.firsts (Summit.meshPoints before)).flatMap fun p => (coords p).map fun x => Summit.Token.num (printed x)) =
      pts.flatMap fun p => p.map Summit.Token.num := by
    simp [hpts, List.flatMap_map, Function.comp_def]
  rw [hlen, hfl]
  simp only [Summit.reader, List.cons_append, List.nil_append, Summit.readInt_nat, h1, List.append_assoc, hv, Int.toNat_natCast]
  simp only [List.append_assoc, List.cons_append, List.nil_append, List.append_nil] at he'
  have hn : ¬ (pts.length : Int) < 0 := by omega
  simp only [List.append_nil, List.append_assoc, List.cons_append, List.nil_append, ne_eq, not_true_eq_false, if_false, if_neg hn,
    List.flatten_eq_flatMap, List.flatMap_map, id_eq, he']
  simp

/-- the points of erased cells stay in the file -/
theorem orphan_points {D type V : Nat} {coords : Nat → List ℚ} {printed : ℚ → ℚ} {order : List (Nat × Nat)}
    {before after : List Summit.Cell} (ho : order.Perm (Summit.points before)) (hV : ∀ c ∈ after, c.length = V)
    (hD : ∀ p ∈ Summit.meshPoints before, (coords p).length = D) (file : List Summit.Token)
    (hw : writeLater D type coords printed [] order before after = some file) :
    ∃ nodes cells, Summit.reader D type V file = .ok (nodes, cells) ∧ cells.length = after.length ∧
      nodes.length = (Summit.meshPoints before).toFinset.card := by
  refine ⟨_, _, read_writeLater ho hV hD file hw, by simp, ?_⟩
  rw [List.length_map, ← List.toFinset_card_of_nodup (Numbering.firsts_nodup (Summit.meshPoints before))]
  congr 1
  ext p
  simp [Numbering.mem_firsts]

/-! ## examples -/

/-- a mesh with one cell, which is exchanged for another one -/
theorem exchange_example : ∃ (m m' : Mesh Nat) (s s' : Abs Nat) (known known' : Finset Nat) (a : Nat),
    Reachable (fun _ => []) m s known ∧ Compact s known ∧ s a = some 7 ∧
    Later (fun _ => []) m s known m' s' known' [.erased a, .inserted a 8] ∧
    ∃ es, elements m = some es ∧ (⟨a, 7⟩ : Element Nat) ∈ es ∧ Element.now m' ⟨a, 7⟩ = some 8 := by
  have hb : FreshBlock (Mesh.init : Mesh Nat).cells.alloc 1000 := by
    refine ⟨by decide, fun i a h => ?_⟩
    simp [Mesh.init, SVec.init, Alloc.State.init] at h
  obtain ⟨m, h1, -, h2⟩ := (MInv.init (fac := fun _ : Nat => [])).insert 7 1000 hb
  generalize hw : World.insert _ 1000 = w at h2
  generalize ha : World.loc _ 1000 = a at h1 h2
  obtain rfl : a = 1000 := by rw [← ha]; decide
  have hr : Reachable (fun _ => []) m _ _ := .insert 7 1000 .init hb h1
  have hal : m.cells.alloc = w.alloc := h2.coupled.alloc.symm
  obtain ⟨m₁, w₁, h3, h4, h5⟩ := h2.erase 1000 (by simp)
  have hf : FreshBlock m₁.cells.alloc 5000 := by
    rw [← h5.coupled.alloc]
    have : w₁.alloc.starts = w.alloc.starts ∧ w₁.alloc.segSize = w.alloc.segSize := by
      rcases h4 with rfl | ⟨-, rfl⟩
      · exact ⟨rfl, rfl⟩
      · exact ⟨rfl, rfl⟩
    refine ⟨by decide, fun i a h => ?_⟩
    rw [this.1, ← hw] at h
    rw [this.2, ← hw]
    have hi : i = 0 ∧ a = 1000 := by
      by_cases e : i = 0
      · subst e
        exact ⟨rfl, (Option.some.inj h).symm⟩
      · simp [World.insert, Alloc.insert, Alloc.locationForPlacement, Alloc.State.init, Alloc.allocSegment, Alloc.nextAvailable, e] at h
    obtain ⟨rfl, rfl⟩ := hi
    exact .inl (by decide)
  obtain ⟨m₂, h6, -, h7⟩ := h5.insert 8 5000 hf
  have hc : Compact (Abs.add (fun _ => none : Abs Nat) 1000 7) (insert 1000 ∅) := by
    intro a ha
    obtain rfl : a = 1000 := by simpa using ha
    simp [Abs.add]
  have hl : Later (fun _ : Nat => []) m _ _ m₂ _ _ [.erased 1000, .inserted (w₁.loc 5000) 8] :=
    .insert 8 5000 (.erase 1000 (.refl (s := Abs.add (fun _ => none) 1000 7) (known := insert 1000 ∅)) (Finset.mem_insert_self _ _) h3) hf h6
  have he := elements_eq hr
  obtain ⟨es, k1, -, k3, -⟩ := he
  have hm := k3 1000 7 (by simp [Abs.add])
  have key := exchange hr hc [1000] (by simp) (by simp [Abs.add]) [(w₁.loc 5000, 8)] hl es k1 0 (by simp) (by simp) ⟨1000, 7⟩ hm rfl
  have hloc : w₁.loc 5000 = 1000 := by
    obtain ⟨-, -, -, -, h⟩ := insertions [Event.erased (α := Nat) 1000] [1000] (fun hl' => by
      obtain ⟨w₁, k1, k2, -⟩ := erasures h2 (Compact.pending h2 hc) [1000] (by simp) (by simp [Abs.add]) hl'
      exact ⟨w₁, k1, k2⟩) [(w₁.loc 5000, 8)] hl
    exact h 0 (by simp) (by simp)
  rw [hloc] at hl
  exact ⟨m, m₂, _, _, _, _, 1000, hr, hc, by simp [Abs.add], hl, es, k1, hm, key⟩

/-- the triangle with nodes (0, 0), (h, 0), (0, h) -/
noncomputable def corner (h : ℝ) : Fin 3 → Val (.vec 2) := ![fun _ => 0, ![h, 0], ![0, h]]

/-- a small triangle exchanged for a large one: the source term is too small -/
example : Fem.sourceTerm (fun _ => 1) [(fun _ => 1 / 3, 1)] (hybrid (corner 1) (corner 2)) 0 ≠
    Fem.sourceTerm (fun _ => 1) [(fun _ => 1 / 3, 1)] (Fem.triP1 (corner 2)) 0 := by
  have ha : ∀ h, Fem.triangleArea (corner h) = h ^ 2 / 2 := by
    intro h
    simp [Fem.triangleArea, corner]
    ring
  rw [Ne, hybrid_source_iff _ _ _ _ _ (by rw [ha]; norm_num), not_or, ha, ha]
  refine ⟨by norm_num, ?_⟩
  rw [Fem.sourceTerm_sum]
  simp only [List.map_cons, List.map_nil, List.sum_cons, List.sum_nil, Fem.factor, Fem.tri1_detJ, ha]
  simp [Fem.triP1, Fem.shapeTri1, Geometry.area, Nat.factorial, Fem.coord, Expr.eval]

/-- a writer made before a cell was erased -/
example : ∃ file, writeLater 1 2 (fun p => [(p : ℚ)]) id [] [(10, 1), (11, 2), (12, 3)] [[⟨0, 10⟩, ⟨1, 11⟩], [⟨1, 11⟩, ⟨2, 12⟩]]
      [[⟨0, 10⟩, ⟨1, 11⟩]] = some file ∧
    Summit.reader 1 2 2 file = .ok ([[10], [11], [12]], [[0, 1]]) := by
  refine ⟨_, rfl, ?_⟩
  decide +kernel

end Mito.Snapshot
