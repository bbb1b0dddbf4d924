import Verif.Spec.RefineSteps
import Verif.Props.Refine
import Verif.Mesh.RefineShapeLemmas

/-! # Refining in steps (C89) -/

namespace Mito.Refine

variable {K : Type*} [Field K]

theorem each_shape {β : Type*} {f : Nat → β → Nat × List (List (PNode K))} {g : β → List (List (Nat → K))} (l : List β)
    (h : ∀ k, ∀ x ∈ l, shape (f k x).2 = g x) (k : Nat) : shape (each f k l).2 = l.flatMap g := by
  induction l generalizing k with
  | nil => rfl
  | cons x l ih =>
    have h1 := h k x (List.mem_cons_self ..)
    have h2 := ih (fun k y hy => h k y (List.mem_cons_of_mem _ hy)) (f k x).1
    rw [each, List.flatMap_cons, ← h1, ← h2]
    simp [shape]

theorem subdivideSegment_shape (n : Nat) : ∀ (k : Nat) (c : PNode K × PNode K),
    shape (subdivideSegment n k c).2 = divide (n + 1) [c.1.pos, c.2.pos] := by
  induction n with
  | zero => intro k c; simp [subdivideSegment, shape, divide, parts, halves, midnode]
  | succ n ih =>
    intro k c
    rw [subdivideSegment, each_shape _ (fun k x _ => ih k x)]
    rw [divide]
    simp [halves, parts, midnode]

theorem subdivideTriangle_shape (n : Nat) : ∀ (k : Nat) (c : PNode K × PNode K × PNode K),
    shape (subdivideTriangle n k c).2 = divide (n + 1) [c.1.pos, c.2.1.pos, c.2.2.pos] := by
  induction n with
  | zero => intro k c; simp [subdivideTriangle, shape, divide, parts, quarters, midnode]
  | succ n ih =>
    intro k c
    rw [subdivideTriangle, each_shape _ (fun k x _ => ih k x)]
    rw [divide]
    simp [quarters, parts, midnode]

/-- The positions after `n` refinements of segments and triangles: every cell is divided `n` times. -/
theorem refine_shape (n k : Nat) (cells : List (List (PNode K))) (hc : ∀ c ∈ cells, c.length = 2 ∨ c.length = 3) :
    shape (tetra n k cells).2 = (shape cells).flatMap (divide n) := by
  cases n with
  | zero =>
    rw [tetra]
    induction cells with
    | nil => rfl
    | cons c cells ih =>
      have := ih fun c' h => hc c' (List.mem_cons_of_mem _ h)
      simp only [shape, List.map_cons, List.flatMap_cons, divide] at this ⊢
      rw [← this]
      rfl
  | succ n =>
    rw [tetra, each_shape (g := fun c => divide (n + 1) (c.map PNode.pos)) _ fun k' c h => ?_, shape, List.flatMap_map]
    have hl := hc c h
    match c with
    | [a, b] => exact subdivideSegment_shape n k' (a, b)
    | [a, b, e] => exact subdivideTriangle_shape n k' (a, b, e)
    | [] | [_] | _ :: _ :: _ :: _ :: _ => simp at hl

theorem divide_add (m n : Nat) (c : List (Nat → K)) : divide (m + n) c = (divide m c).flatMap (divide n) := by
  induction m generalizing c with
  | zero => simp [divide]
  | succ m ih =>
    rw [Nat.succ_add, divide, divide, List.flatMap_assoc]
    exact List.flatMap_congr fun x _ => ih x

/-- C89.  Refining segments and triangles `m` times and then `n` times gives the mesh refined `m + n` times: the same cells, in the same
order, with nodes at the same positions.  (Which nodes are made first does not matter.) -/
theorem refine_steps (m n k k' k'' : Nat) (cells : List (List (PNode K))) (hc : ∀ c ∈ cells, c.length = 2 ∨ c.length = 3) :
    shape (tetra n k' (tetra m k cells).2).2 = shape (tetra (m + n) k'' cells).2 := by
  have hl : ∀ d ∈ (tetra m k cells).2, d.length = 2 ∨ d.length = 3 := by
    cases m with
    | zero => exact hc
    | succ m =>
      refine each_forall (P := fun d => d.length = 2 ∨ d.length = 3) _ (fun k' c h d hd => ?_) _
      have hl := hc c h
      have key : ∀ L : List (List (PNode K)), ∀ d ∈ L, d.map PNode.pos ∈ shape L := fun L d hd => List.mem_map_of_mem hd
      have hdiv : ∀ m (c : List (Nat → K)), c.length = 2 ∨ c.length = 3 → ∀ d ∈ divide m c, d.length = 2 ∨ d.length = 3 := by
        intro m
        induction m with
        | zero => intro c hc d hd; rw [divide, List.mem_singleton] at hd; rwa [hd]
        | succ m ih =>
          intro c hc d hd
          rw [divide] at hd
          obtain ⟨e, he, hd⟩ := List.mem_flatMap.mp hd
          refine ih e ?_ d hd
          match c with
          | [a, b] =>
            simp only [parts, List.mem_cons, List.not_mem_nil, or_false] at he
            rcases he with rfl | rfl <;> simp
          | [a, b, x] =>
            simp only [parts, List.mem_cons, List.not_mem_nil, or_false] at he
            rcases he with rfl | rfl | rfl | rfl <;> simp
          | [] | [_] | _ :: _ :: _ :: _ :: _ => simp at hc
      have h1 := key _ d hd
      match c with
      | [a, b] =>
        rw [subdivideCell, subdivideSegment_shape] at h1
        simpa using hdiv _ _ (by simp) _ h1
      | [a, b, e] =>
        rw [subdivideCell, subdivideTriangle_shape] at h1
        simpa using hdiv _ _ (by simp) _ h1
      | [] | [_] | _ :: _ :: _ :: _ :: _ => simp at hl
  rw [refine_shape n k' _ hl, refine_shape m k _ hc, refine_shape (m + n) k'' _ hc, List.flatMap_assoc]
  exact List.flatMap_congr fun c _ => (divide_add m n c).symm

/-- C89, what holds for tetrahedra too: the numbers of cells and the total volumes agree. -/
theorem refine_steps_count_partial [LinearOrder K] [IsStrictOrderedRing K] (N m n k k' k'' : Nat) (cells : List (List (PNode K)))
    (hc : ∀ c ∈ cells, c.length = N + 1) (h1 : 1 ≤ N) (h3 : N ≤ 3) :
    (tetra n k' (tetra m k cells).2).2.length = (tetra (m + n) k'' cells).2.length ∧
    ∀ i j l, ((tetra n k' (tetra m k cells).2).2.map (signedVolume i j l)).sum =
      ((tetra (m + n) k'' cells).2.map (signedVolume i j l)).sum := by
  have hl : ∀ d ∈ (tetra m k cells).2, d.length = N + 1 := fun d hd => by
    obtain ⟨_, _, h, _⟩ := refine_children N m k cells hc h1 h3 d hd
    exact h
  refine ⟨?_, fun i j l => ?_⟩
  · rw [refine_count N n k' _ hl h1 h3, refine_count N m k _ hc h1 h3, refine_count N (m + n) k'' _ hc h1 h3, pow_add]
    ring
  · rw [refine_total_volume N n k' _ hl h1 h3, refine_total_volume N m k _ hc h1 h3, refine_total_volume N (m + n) k'' _ hc h1 h3]

/-- C89 is false for tetrahedra: refining the corner tetrahedron twice does not give the mesh refined by two.  Some cell of the one has
nodes at positions that are not the positions of the nodes of any cell of the other, in any order. -/
theorem refine_steps_fails : ∃ d ∈ (tetra 1 10 (tetra 1 4 [exTetrahedron]).2).2,
    ∀ e ∈ (tetra 2 4 [exTetrahedron]).2, ¬ (d.map PNode.pos).Perm (e.map PNode.pos) := by
  have key : ∃ d ∈ (tetra 1 10 (tetra 1 4 [exTetrahedron]).2).2,
      ∀ e ∈ (tetra 2 4 [exTetrahedron]).2, ∃ p ∈ d, ∀ q ∈ e, [p.pos 0, p.pos 1, p.pos 2] ≠ [q.pos 0, q.pos 1, q.pos 2] := by
    decide +kernel
  obtain ⟨d, hd, h⟩ := key
  refine ⟨d, hd, fun e he hp => ?_⟩
  obtain ⟨p, hp', h'⟩ := h e he
  obtain ⟨q, hq, e⟩ := List.mem_map.mp (hp.subset (List.mem_map_of_mem hp'))
  exact h' q hq (by rw [e])

end Mito.Refine
