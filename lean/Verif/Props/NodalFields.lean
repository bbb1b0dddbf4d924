import Verif.Fem.DiscretizerLemmas
import Verif.Fem.FieldProgramLemmas
import Verif.Fem.QuadraticLemmas
import Verif.Props.Blocks
import Verif.Props.Coordinates
import Verif.Props.Discretizer
import Verif.Props.Elements

/-!
# C133: fields that are set at the nodes of the mesh

tests/mito.lib/fem/fem_field.cc sets a finite element field at the nodes of the mesh, and compares it with the continuous field at the centers of
the elements.  tests/mito.lib/fem/localize_field.cc localizes a continuous field on a triangle.
-/

namespace Mito.Fem

open Mito.Functions Mito.Numbering Mito.Discretizer

variable {d n : Nat} {alloc : List Nat → Nat} {other : List Nat}

/-- **C133.**  First order elements: the program never fails, whatever the addresses, the order of the unordered set and the build.  On each
element the field has at its nodes the values of the continuous field. -/
theorem field_program (ha : ∀ l, alloc l ∉ l) (ho : other.Nodup) {cells : List (List Nat)} (hc : ∀ c ∈ cells, c.length = n)
    (debug : Bool) {order : List Nat} (hn : order.Nodup) (hm : ∀ v, v ∈ order ↔ v ∈ (elementsP1 alloc other [] cells).2.flatten)
    (E : List Nat → Element d n) (g : Nat → ℝ) :
    ∃ L, fieldProgram debug order (elementsP1 alloc other [] cells).1 (elementsP1 alloc other [] cells).2 g (cells.map E) cells = some L ∧
      List.Forall₂ (fun c l => (∀ ξ, l.eval ξ () = ∑ a : Fin n, ((E c).shape a).eval ξ () * g (c.getD a 0)) ∧
        ∀ ξ k, (Functions.gradient l).eval ξ k = ∑ a : Fin n, ((E c).dshape a).eval ξ k * g (c.getD a 0)) cells L := by
  obtain ⟨φ, h1, h2, -, -, h4⟩ := elementsP1_eq ha ho cells
  have hφ : ∀ k ∈ cells.flatten, φ k ∈ order := fun k hk => by
    rw [hm, h1]
    obtain ⟨c, hcc, hk⟩ := List.mem_flatten.mp hk
    exact List.mem_flatten.mpr ⟨c.map φ, List.mem_map.mpr ⟨c, hcc, rfl⟩, List.mem_map.mpr ⟨k, hk, rfl⟩⟩
  obtain ⟨u, a1, a2, -⟩ := fieldProgram_spec (g := g) (elements := cells.map E) debug hn
    (fun e he v hv => (hm v).mpr (List.mem_flatten.mpr ⟨e, he, hv⟩)) (fun k hk => ⟨h2 k hk, hφ k hk⟩) h4
  refine ⟨_, a1, ?_⟩
  rw [h1]
  have key : ∀ l : List (List Nat), (∀ c ∈ l, c.length = n ∧ ∀ k ∈ c, u (φ k) = g k) →
      List.Forall₂ (fun c l => (∀ ξ, l.eval ξ () = ∑ a : Fin n, ((E c).shape a).eval ξ () * g (c.getD a 0)) ∧
        ∀ ξ k, (Functions.gradient l).eval ξ k = ∑ a : Fin n, ((E c).dshape a).eval ξ k * g (c.getD a 0)) l
        (((l.map E).zip (l.map fun x => x.map φ)).map fun ec => localize ec.1 (fun a => ec.2.getD a 0) (.fem u)) := by
    intro l
    induction l with
    | nil => exact fun _ => .nil
    | cons c l ih =>
      intro h
      obtain ⟨hl, hu⟩ := h c List.mem_cons_self
      have hv : ∀ a : Fin n, u ((c.map φ).getD a 0) = g (c.getD a 0) := by
        intro a
        have hlt : (a : Nat) < c.length := by rw [hl]; exact a.2
        simp only [List.getD_eq_getElem?_getD, List.getElem?_map, List.getElem?_eq_getElem hlt, Option.map_some, Option.getD_some]
        exact hu _ (List.getElem_mem hlt)
      refine .cons ⟨fun ξ => ?_, fun ξ k => ?_⟩ (ih fun c hcc => h c (List.mem_cons_of_mem _ hcc))
      · rw [localize_fem]
        exact Finset.sum_congr rfl fun a _ => by rw [hv]
      · rw [localize_fem_gradient]
        exact Finset.sum_congr rfl fun a _ => by rw [hv]
  exact key cells fun c hcc => ⟨hc c hcc, fun k hk => a2 k (List.mem_flatten.mpr ⟨c, hcc, hk⟩)⟩

/-- **C133.**  Triangles: affine fields are reproduced at every point of every element, with their gradient. -/
theorem affine_triangles (ha : ∀ l, alloc l ∉ l) (ho : other.Nodup) {cells : List (List Nat)} (hc : ∀ c ∈ cells, c.length = 3)
    (debug : Bool) {order : List Nat} (hn : order.Nodup) (hm : ∀ v, v ∈ order ↔ v ∈ (elementsP1 alloc other [] cells).2.flatten)
    (pos : Nat → Val (.vec 2)) (b : ℝ) (s : Fin 2 → ℝ) :
    let E (c : List Nat) : Element 2 3 := triP1 fun a => pos (c.getD a 0)
    ∃ L, fieldProgram debug order (elementsP1 alloc other [] cells).1 (elementsP1 alloc other [] cells).2 (fun k => affine b s (pos k))
        (cells.map E) cells = some L ∧
      List.Forall₂ (fun c l => (∀ ξ, l.eval ξ () = affine b s ((E c).parametrization.eval ξ)) ∧
        ∀ ξ k, (Functions.gradient l).eval ξ k = ∑ j, s j * (E c).jacobian ξ (j, k)) cells L := by
  intro E
  obtain ⟨L, h1, h2⟩ := field_program ha ho hc debug hn hm E fun k => affine b s (pos k)
  refine ⟨L, h1, h2.imp fun c l h => ⟨fun ξ => ?_, fun ξ k => ?_⟩⟩
  · obtain ⟨e0, e1, e2⟩ := tri1_eval ξ
    rw [h.1, Fin.sum_univ_three]
    simp only [E, triP1, affine, tri_parametrization, Fin.sum_univ_two, e0, e1, e2]
    simp
    ring
  · obtain ⟨e0, e1, e2⟩ := tri1_dshape ξ k
    rw [h.2, Fin.sum_univ_three]
    simp only [Element.dshape]
    simp only [E, triP1, affine, dyadic, Pi.add_apply, Fin.sum_univ_two, e0, e1, e2]
    fin_cases k <;> simp <;> ring

/-- **C133.**  Segments. -/
theorem affine_segments (ha : ∀ l, alloc l ∉ l) (ho : other.Nodup) {cells : List (List Nat)} (hc : ∀ c ∈ cells, c.length = 2)
    (debug : Bool) {order : List Nat} (hn : order.Nodup) (hm : ∀ v, v ∈ order ↔ v ∈ (elementsP1 alloc other [] cells).2.flatten)
    (pos : Nat → Val (.vec 1)) (b : ℝ) (s : Fin 1 → ℝ) :
    let E (c : List Nat) : Element 1 2 := segP1 fun a => pos (c.getD a 0)
    ∃ L, fieldProgram debug order (elementsP1 alloc other [] cells).1 (elementsP1 alloc other [] cells).2 (fun k => affine b s (pos k))
        (cells.map E) cells = some L ∧
      List.Forall₂ (fun c l => (∀ ξ, l.eval ξ () = affine b s ((E c).parametrization.eval ξ)) ∧
        ∀ ξ k, (Functions.gradient l).eval ξ k = ∑ j, s j * (E c).jacobian ξ (j, k)) cells L := by
  intro E
  obtain ⟨L, h1, h2⟩ := field_program ha ho hc debug hn hm E fun k => affine b s (pos k)
  refine ⟨L, h1, h2.imp fun c l h => ⟨fun ξ => ?_, fun ξ k => ?_⟩⟩
  · obtain ⟨e0, e1⟩ := seg1_eval ξ
    rw [h.1, Fin.sum_univ_two]
    simp only [E, segP1, affine, Expr.eval, mul, Fin.sum_univ_two, e0, e1]
    simp [e0, e1]
    ring
  · obtain ⟨e0, e1⟩ := seg1_dshape ξ k
    rw [h.2, Fin.sum_univ_two]
    simp only [Element.dshape]
    obtain ⟨e0', e1'⟩ := seg1_dshape ξ 0
    simp only [E, segP1, affine, mul, e0, e1]
    simp [e0', e1']
    ring

/-- **C133.**  tests/mito.lib/fem/fem_field.cc:58-80 on every mesh of triangles: the localized field at (1/3, 1/3) is `x + y` at the center. -/
theorem fem_field_test (ha : ∀ l, alloc l ∉ l) (ho : other.Nodup) {cells : List (List Nat)} (hc : ∀ c ∈ cells, c.length = 3)
    (debug : Bool) {order : List Nat} (hn : order.Nodup) (hm : ∀ v, v ∈ order ↔ v ∈ (elementsP1 alloc other [] cells).2.flatten)
    (pos : Nat → Val (.vec 2)) :
    ∃ L, fieldProgram debug order (elementsP1 alloc other [] cells).1 (elementsP1 alloc other [] cells).2 (fun k => pos k 0 + pos k 1)
        (cells.map fun c => triP1 fun a => pos (c.getD a 0)) cells = some L ∧
      List.Forall₂ (fun c l => l.eval (fun _ => 1 / 3) () =
        (Geometry.cartesian 2).barycenter (n := 2) (fun a => pos (c.getD a 0)) 0 + (Geometry.cartesian 2).barycenter (n := 2) (fun a => pos (c.getD a 0)) 1) cells L := by
  obtain ⟨L, h1, h2⟩ := affine_triangles ha ho hc debug hn hm pos 0 fun _ => 1
  have e : (fun k => affine 0 (fun _ => 1) (pos k)) = fun k => pos k 0 + pos k 1 := by
    funext k
    simp [affine]
  rw [e] at h1
  refine ⟨L, h1, h2.imp fun c l h => ?_⟩
  rw [h.1]
  simp only [triP1, affine, tri_parametrization, Fin.sum_univ_two, Geometry.cartesian_barycenter]
  simp [Fin.sum_univ_three]
  ring

/-- **C133 (finding).**  The same program with quadratic triangles: `node_map` has only the nodes of the mesh, so the field stays zero at the
middle of the edges. -/
theorem quadratic_program (ha : ∀ l, alloc l ∉ l) (ho : other.Nodup) (cells : List Cell) (debug : Bool) {order : List Nat} (hn : order.Nodup)
    (hm : ∀ v, v ∈ order ↔ v ∈ (elementsP2 alloc other ⟨[], []⟩ cells).2.flatten) (E : Cell → Element 2 6) (g : Nat → ℝ) :
    ∃ L, fieldProgram debug order (elementsP2 alloc other ⟨[], []⟩ cells).1.nodes (elementsP2 alloc other ⟨[], []⟩ cells).2 g (cells.map E)
        (cells.map nodesOf) = some L ∧
      List.Forall₂ (fun c l => ∀ ξ, l.eval ξ () = ((E c).shape 0).eval ξ () * g c.1 + ((E c).shape 1).eval ξ () * g c.2.1 +
        ((E c).shape 2).eval ξ () * g c.2.2) cells L := by
  obtain ⟨φ, h1, h2, -, -, h4⟩ := elementsP2_eq ha ho cells
  have hin : ∀ k ∈ (cells.map nodesOf).flatten, Sum.inl k ∈ cells.flatMap places := by
    intro k hk
    obtain ⟨l, hl, hk⟩ := List.mem_flatten.mp hk
    obtain ⟨c, hc, rfl⟩ := List.mem_map.mp hl
    refine List.mem_flatMap.mpr ⟨c, hc, ?_⟩
    simp only [nodesOf, List.mem_cons, List.not_mem_nil, or_false] at hk
    rcases hk with rfl | rfl | rfl <;> simp [places]
  have hφ : ∀ p ∈ cells.flatMap places, φ p ∈ order := fun p hp => by
    rw [hm, h1]
    obtain ⟨c, hcc, hp⟩ := List.mem_flatMap.mp hp
    exact List.mem_flatten.mpr ⟨(places c).map φ, List.mem_map.mpr ⟨c, hcc, rfl⟩, List.mem_map.mpr ⟨p, hp, rfl⟩⟩
  obtain ⟨u, a1, a2, a3⟩ := fieldProgram_spec (g := g) (elements := cells.map E) (cells := cells.map nodesOf) (φ := fun k => φ (.inl k)) debug hn
    (fun e he v hv => (hm v).mpr (List.mem_flatten.mpr ⟨e, he, hv⟩)) (fun k hk => ⟨h2 _ (hin k hk), hφ _ (hin k hk)⟩)
    (fun k hk k' hk' e => Sum.inl_injective (h4 _ (hin k hk) _ (hin k' hk') e))
  have hmid : ∀ e, .inr e ∈ cells.flatMap places → u (φ (.inr e)) = 0 := fun e he =>
    a3 _ fun k hk e' => by simpa using h4 _ (hin k hk) _ he e'
  refine ⟨_, a1, ?_⟩
  rw [h1]
  have key : ∀ l : List Cell, (∀ c ∈ l, c ∈ cells) →
      List.Forall₂ (fun c l => ∀ ξ, l.eval ξ () = ((E c).shape 0).eval ξ () * g c.1 + ((E c).shape 1).eval ξ () * g c.2.1 +
        ((E c).shape 2).eval ξ () * g c.2.2) l
        (((l.map E).zip (l.map fun c => (places c).map φ)).map fun ec => localize ec.1 (fun a => ec.2.getD a 0) (.fem u)) := by
    intro l
    induction l with
    | nil => exact fun _ => .nil
    | cons c l ih =>
      intro h
      have hc := h c List.mem_cons_self
      have hnode : ∀ k ∈ nodesOf c, u (φ (.inl k)) = g k := fun k hk =>
        a2 k (List.mem_flatten.mpr ⟨_, List.mem_map.mpr ⟨c, hc, rfl⟩, hk⟩)
      have hedge : ∀ e, Sum.inr e ∈ places c → u (φ (.inr e)) = 0 := fun e he => hmid e (List.mem_flatMap.mpr ⟨c, hc, he⟩)
      refine .cons (fun ξ => ?_) (ih fun c hcc => h c (List.mem_cons_of_mem _ hcc))
      rw [localize_fem, Fin.sum_univ_six]
      have e0 := hnode c.1 (by simp [nodesOf])
      have e1 := hnode c.2.1 (by simp [nodesOf])
      have e2 := hnode c.2.2 (by simp [nodesOf])
      have e3 := hedge s(c.1, c.2.1) (by simp [places])
      have e4 := hedge s(c.2.1, c.2.2) (by simp [places])
      have e5 := hedge s(c.2.2, c.1) (by simp [places])
      simp only [places, List.map_cons, List.map_nil]
      simp [e0, e1, e2, e3, e4, e5]
  exact key cells fun c hc => hc

/-- **C133 (finding).**  With quadratic triangles the program gives minus a third of every affine field at the center, so the test would fail
for every mesh with a cell on whose center the field is not zero. -/
theorem quadratic_test_fails (ha : ∀ l, alloc l ∉ l) (ho : other.Nodup) (cells : List Cell) (debug : Bool) {order : List Nat} (hn : order.Nodup)
    (hm : ∀ v, v ∈ order ↔ v ∈ (elementsP2 alloc other ⟨[], []⟩ cells).2.flatten) (pos : Nat → Val (.vec 2)) (b : ℝ) (s : Fin 2 → ℝ) :
    let x (c : Cell) : Fin 3 → Val (.vec 2) := ![pos c.1, pos c.2.1, pos c.2.2]
    ∃ L, fieldProgram debug order (elementsP2 alloc other ⟨[], []⟩ cells).1.nodes (elementsP2 alloc other ⟨[], []⟩ cells).2
        (fun k => affine b s (pos k)) (cells.map fun c => triP2 (x c)) (cells.map nodesOf) = some L ∧
      List.Forall₂ (fun c l => l.eval (fun _ => 1 / 3) () = -affine b s ((Geometry.cartesian 2).barycenter (n := 2) (x c)) / 3 ∧
        (affine b s ((Geometry.cartesian 2).barycenter (n := 2) (x c)) ≠ 0 →
          l.eval (fun _ => 1 / 3) () ≠ affine b s ((Geometry.cartesian 2).barycenter (n := 2) (x c)))) cells L := by
  intro x
  obtain ⟨L, h1, h2⟩ := quadratic_program ha ho cells debug hn hm (fun c => triP2 (x c)) fun k => affine b s (pos k)
  refine ⟨L, h1, h2.imp fun c l h => ?_⟩
  have e : l.eval (fun _ => 1 / 3) () = -affine b s ((Geometry.cartesian 2).barycenter (n := 2) (x c)) / 3 := by
    obtain ⟨e0, e1, e2, -⟩ := tri2_eval (fun _ => 1 / 3)
    rw [h]
    simp only [triP2, e0, e1, e2, affine, Fin.sum_univ_two, Geometry.cartesian_barycenter]
    simp [x, Fin.sum_univ_three]
    ring
  exact ⟨e, fun hne h' => hne (by linarith)⟩

/-- **C133.**  With the values at all six nodes, quadratic fields are reproduced. -/
theorem quadratic_reproduced {κ : Type} (x : Fin 3 → Val (.vec 2)) (c : Fin 6 → κ) (u : κ → ℝ) (b : ℝ) (s : Fin 2 → ℝ) (q : Fin 2 → Fin 2 → ℝ)
    (h : ∀ a, u (c a) = quadratic b s q (nodesTri2 x a)) (ξ : Val (.vec 2)) :
    (localize (triP2 x) c (.fem u)).eval ξ () = quadratic b s q ((triP2 x).parametrization.eval ξ) := by
  rw [localize_fem, ← shape_tri2_quadratic]
  exact Finset.sum_congr rfl fun a _ => by rw [h, mul_comm]

/-- **C133.**  The gradient of a localized field is that of the field at the physical point times the jacobian. -/
theorem localize_gradient {κ : Type} {e : Element d n} (h : IsElement e) (c : Fin n → κ) (f : Expr (.vec d) .scalar) (ξ : Val (.vec d))
    (k : Fin d) : (Functions.gradient (localize e c (.field f))).eval ξ k =
      ∑ j, (Functions.gradient f).eval (e.parametrization.eval ξ) j * e.jacobian ξ (j, k) := by
  rw [gradient_eval, localize, Expr.derivative, eval_sumList, List.map_map, enum, ← List.ofFn_eq_map, List.sum_ofFn, Finset.sum_apply]
  refine Finset.sum_congr rfl fun j _ => ?_
  rw [gradient_eval, ← parametrization_derivative h]
  simp [Expr.eval, mul, mul_comm]

/-- **C133.**  tests/mito.lib/fem/localize_field.cc:28-59 for every field and at every point: on the triangle of the test the localized field and
its gradient are those of the field. -/
theorem localize_field_test {κ : Type} (c : Fin 3 → κ) (f : Expr (.vec 2) .scalar) (ξ : Val (.vec 2)) :
    let e : Element 2 3 := triP1 ![![1, 0], ![0, 1], ![0, 0]]
    (localize e c (.field f)).eval ξ () = f.eval ξ () ∧
      ∀ k, (Functions.gradient (localize e c (.field f))).eval ξ k = (Functions.gradient f).eval ξ k := by
  intro e
  have hp : e.parametrization.eval ξ = ξ := by
    funext i
    simp only [e, triP1, tri_parametrization]
    fin_cases i <;> simp
  refine ⟨by rw [localize_field, hp], fun k => ?_⟩
  rw [localize_gradient (.tri1 _), hp, Fin.sum_univ_two]
  obtain ⟨e0, e1, e2⟩ := tri1_dshape ξ k
  simp only [e, triP1, dyadic, Pi.add_apply, e0, e1, e2]
  fin_cases k <;> simp

/-- two triangles in the plane -/
example : ∃ (order : List Nat), order.Nodup ∧
    (∀ v, v ∈ order ↔ v ∈ (elementsP1 exAlloc [] [] [[10, 11, 12], [11, 13, 12]]).2.flatten) ∧
    ∀ c ∈ [[10, 11, 12], [11, 13, 12]], c.length = 3 :=
  ⟨(elementsP1 exAlloc [] [] [[10, 11, 12], [11, 13, 12]]).2.flatten.dedup, List.nodup_dedup _, fun v => List.mem_dedup, by decide⟩

end Mito.Fem
