import Verif.Fem.DiscreteSystemLemmas
import Mathlib.Algebra.CharZero.Defs
import Mathlib.Algebra.BigOperators.Ring.Finset
import Mathlib.Data.Rat.Defs
import Mathlib.Tactic.FieldSimp
import Mathlib.LinearAlgebra.Matrix.Determinant.Basic

/-! # C53 to C57: equations, assembly, solution -/

namespace Mito.DiscreteSystem

open Mito.Assoc

variable {R : Type}

/-! ### C53 -/

/-- Exactly the unconstrained nodes have equations, numbered from zero without gaps; constrained nodes are
in the map with `-1`, other nodes are not in the map. -/
theorem equations_number (V : FunctionSpace R) :
    Numbers V (equationOf (buildEquationMap V).1) (buildEquationMap V).2 ∧
      (∀ x ∈ V.constrained, get (buildEquationMap V).1 x = some (-1)) ∧
      ∀ x, x ∉ V.constrained → x ∉ V.elements.flatten → get (buildEquationMap V).1 x = none := by
  have h := buildEquationMap_eq V
  refine ⟨⟨fun x => ?_, fun x i hi => ?_, fun x y i hx hy => ?_, fun i hi => ?_⟩,
    fun x hx => ?_, fun x hx hx' => ?_⟩
  · rw [equationOf_buildEquationMap, ← mem_interior]
    by_cases hx : x ∈ interior V <;> simp [hx]
  · rw [equationOf_buildEquationMap] at hi
    split at hi
    · rename_i hx
      obtain rfl := Option.some.inj hi
      rw [h.1]
      exact List.idxOf_lt_length_iff.mpr hx
    · simp at hi
  · rw [equationOf_buildEquationMap] at hx hy
    split at hx
    · rename_i mx
      split at hy
      · rename_i my
        have e := (Option.some.inj hx).trans (Option.some.inj hy).symm
        exact (List.idxOf_inj mx).mp e
      · simp at hy
    · simp at hx
  · rw [h.1] at hi
    refine ⟨(interior V)[i], ?_⟩
    rw [equationOf_buildEquationMap, if_pos (List.getElem_mem hi),
      (interior_nodup V).idxOf_getElem]
  · rw [h.2.2, if_pos hx]
  · rw [h.2.2, if_neg hx, if_neg hx']

variable [CommRing R]

/-! ### C54 -/

/-- Assembling never throws and adds to each entry the sum of the contributions of the elements. -/
theorem assemble_sum (V : FunctionSpace R) (blocks : Nat → Blocks R) (s : LinearSystem R) :
    ∃ s', assemble (buildEquationMap V).1 blocks V.elements.zipIdx s = some s' ∧
      (∀ i j, s'.matrix i j = s.matrix i j + K V blocks i j) ∧
      ∀ i, s'.rhs i = s.rhs i + F V blocks i := by
  obtain ⟨s', h1, h2, h3⟩ := assemble_eq (m := (buildEquationMap V).1) blocks V.elements.zipIdx (by
    intro p hp x hx
    have hm : x ∈ V.elements.flatten :=
      List.mem_flatten.mpr ⟨p.1, List.fst_mem_of_mem_zipIdx hp, hx⟩
    rw [(buildEquationMap_eq V).2.2]
    split
    · rfl
    · first | rfl | (rw [if_pos hm]; rfl)) s
  exact ⟨s', h1, fun i j => by rw [h3, zipIdx_sum]; rfl, fun i => by rw [h2, zipIdx_sum]; rfl⟩

/-- The elementary matrix and vector are the sums of the blocks. -/
theorem computeBlocks_sum (lhs : List (Nat → Nat → Nat → R)) (rhs : List (Nat → Nat → R)) (e : Nat) :
    (∀ i j, (computeBlocks lhs rhs e).matrix i j = (lhs.map fun b => b e i j).sum) ∧
      ∀ i, (computeBlocks lhs rhs e).vector i = (rhs.map fun b => b e i).sum := by
  have h1 : ∀ (l : List (Nat → Nat → Nat → R)) (m : Nat → Nat → R) (i j : Nat),
      (l.foldl (fun m b => fun i j => m i j + b e i j) m) i j = m i j + (l.map fun b => b e i j).sum := by
    intro l
    induction l with
    | nil => simp
    | cons b l ih => intro m i j; rw [List.foldl_cons, ih]; simp [add_assoc]
  have h2 : ∀ (l : List (Nat → Nat → R)) (m : Nat → R) (i : Nat),
      (l.foldl (fun m b => fun i => m i + b e i) m) i = m i + (l.map fun b => b e i).sum := by
    intro l
    induction l with
    | nil => simp
    | cons b l ih => intro m i; rw [List.foldl_cons, ih]; simp [add_assoc]
  exact ⟨fun i j => by simp only [computeBlocks, h1, zero_add],
    fun i => by simp only [computeBlocks, h2, zero_add]⟩

/-- Symmetric elementary matrices make a symmetric matrix. -/
theorem assemble_symmetric (V : FunctionSpace R) (blocks : Nat → Blocks R)
    (hs : ∀ e < V.elements.length, ∀ a b, (blocks e).matrix a b = (blocks e).matrix b a) (i j : Nat) :
    K V blocks i j = K V blocks j i := by
  unfold K
  refine Finset.sum_congr rfl fun e _ => ?_
  unfold matrixContribution
  rw [Finset.sum_comm]
  refine Finset.sum_congr rfl fun a _ => Finset.sum_congr rfl fun b _ => ?_
  rw [hs e e.isLt]
  exact if_congr And.comm rfl rfl

theorem sum_equation {n : Nat} (o : Option Nat) (hn : ∀ i, o = some i → i < n) (f : Nat → R) :
    (∑ i : Fin n, if o = some i.val then f i else 0) = (o.map f).getD 0 := by
  rcases o with _ | k
  · simp
  · have hk := hn k rfl
    rw [Finset.sum_eq_single (⟨k, hk⟩ : Fin n)]
    · simp
    · intro b _ hb
      rw [if_neg]
      intro e
      exact hb (Fin.ext (Option.some.inj e).symm)
    · simp

/-- The assembled matrix is the sum of the elementary forms: for coefficients `v`, `w` of the equations,
extended by zero to the constrained nodes, `v K w` is the sum over the elements of the elementary matrix
applied to the values at the nodes of the element. -/
theorem assemble_bilinear (V : FunctionSpace R) (blocks : Nat → Blocks R) (v w : Nat → R) :
    let n := (buildEquationMap V).2
    let ext (u : Nat → R) (x : Nat) : R := ((equationOf (buildEquationMap V).1 x).map u).getD 0
    (∑ i : Fin n, ∑ j : Fin n, v i * K V blocks i j * w j) =
      ∑ e : Fin V.elements.length, ∑ a : Fin V.elements[e].length, ∑ b : Fin V.elements[e].length,
        ext v V.elements[e][a] * (blocks e).matrix a b * ext w V.elements[e][b] := by
  intro n ext
  have hlt := (equations_number V).1.lt
  have hext : ∀ (u : Nat → R) (x : Nat),
      (∑ i : Fin n, if equationOf (buildEquationMap V).1 x = some i.val then u i else 0) = ext u x :=
    fun u x => sum_equation _ (fun i hi => hlt x i hi) u
  simp only [K, Finset.mul_sum, Finset.sum_mul, matrixContribution]
  have s1 : ∀ i : Fin n, (∑ j : Fin n, ∑ e : Fin V.elements.length,
      ∑ a : Fin V.elements[e].length, ∑ b : Fin V.elements[e].length, v i *
        (if equationOf (buildEquationMap V).1 V.elements[e][a] = some i.val ∧
          equationOf (buildEquationMap V).1 V.elements[e][b] = some j.val then (blocks e).matrix a b else 0) *
        w j) = ∑ e : Fin V.elements.length, ∑ a : Fin V.elements[e].length,
          ∑ b : Fin V.elements[e].length,
            (if equationOf (buildEquationMap V).1 V.elements[e][a] = some i.val then v i else 0) *
              ((blocks e).matrix a b * ext w V.elements[e][b]) := by
    intro i
    rw [Finset.sum_comm]
    refine Finset.sum_congr rfl fun e _ => ?_
    rw [Finset.sum_comm]
    refine Finset.sum_congr rfl fun a _ => ?_
    rw [Finset.sum_comm]
    refine Finset.sum_congr rfl fun b _ => ?_
    rw [← hext, Finset.mul_sum, Finset.mul_sum]
    refine Finset.sum_congr rfl fun j _ => ?_
    by_cases h1 : equationOf (buildEquationMap V).1 V.elements[e][a] = some i.val <;>
      by_cases h2 : equationOf (buildEquationMap V).1 V.elements[e][b] = some j.val
    · rw [if_pos ⟨h1, h2⟩, if_pos h1, if_pos h2, mul_assoc]
    · rw [if_neg (fun h => h2 h.2), if_neg h2]; simp
    · rw [if_neg (fun h => h1 h.1), if_neg h1]; simp
    · rw [if_neg (fun h => h1 h.1), if_neg h1]; simp
  rw [Finset.sum_congr rfl fun i _ => s1 i, Finset.sum_comm]
  refine Finset.sum_congr rfl fun e _ => ?_
  rw [Finset.sum_comm]
  refine Finset.sum_congr rfl fun a _ => ?_
  rw [Finset.sum_comm]
  refine Finset.sum_congr rfl fun b _ => ?_
  rw [← Finset.sum_mul, hext, mul_assoc]

/-! ### C55 -/

/-- The field of a new system holds zero at each node. -/
theorem create_field (V : FunctionSpace R) (x : Nat) :
    get (create V).field x = if x ∈ V.elements.flatten then some 0 else none := by
  have : ∀ l : List Nat, get (l.map fun n => (n, (0 : R))) x = if x ∈ l then some 0 else none := by
    intro l
    induction l with
    | nil => rfl
    | cons n l ih =>
      rw [List.map_cons, get_cons, ih]
      by_cases e : n = x
      · simp [e]
      · simp [e, Ne.symm e]
  rw [create]
  simp only [this, List.mem_dedup]

/-- Reading the solution puts at each unconstrained node its own entry and changes no other value. -/
theorem readSolution_field (V : FunctionSpace R) (u : Nat → R) (f : DiscreteField.Field Nat R)
    (hf : ∀ x ∈ V.elements.flatten, x ∉ V.constrained → (get f x).isSome = true) :
    ∃ f', readSolution u (buildEquationMap V).1 f = some f' ∧ ∀ x, get f' x =
      match equationOf (buildEquationMap V).1 x with
      | some i => some (u i)
      | none => get f x :=
  readSolution_eq u _ (buildEquationMap_eq V).2.1 f fun x hx => by
    have := ((equations_number V).1.isSome x).mp hx
    exact hf x this.1 this.2

/-! ### C57 -/

/-- After `k` calls of `solve`, matrix and right-hand side have been added up `k` times; if `k > 0`, the field
holds the solution of that system at the unconstrained nodes and zero at the others. -/
theorem solveTimes_eq (solver : Nat → (Nat → Nat → R) → (Nat → R) → Nat → R) (V : FunctionSpace R)
    (blocks : Nat → Blocks R) (k : Nat) :
    ∃ S, solveTimes solver blocks k (create V) = some S ∧
      S.linear.matrix = (fun i j => (k : R) * K V blocks i j) ∧
      S.linear.rhs = (fun i => (k : R) * F V blocks i) ∧
      (∀ x, equationOf (buildEquationMap V).1 x = none → get S.field x = get (create V).field x) ∧
      (0 < k → ∀ x i, equationOf (buildEquationMap V).1 x = some i →
        get S.field x = some (solver (buildEquationMap V).2 (fun i j => (k : R) * K V blocks i j)
          (fun i => (k : R) * F V blocks i) i)) := by
  suffices H : ∀ (k k0 : Nat) (S0 : System R), S0.space = V →
      S0.equations = (buildEquationMap V).1 → S0.nEquations = (buildEquationMap V).2 →
      S0.linear.matrix = (fun i j => (k0 : R) * K V blocks i j) →
      S0.linear.rhs = (fun i => (k0 : R) * F V blocks i) →
      (∀ x ∈ V.elements.flatten, (get S0.field x).isSome = true) →
      ∃ S, solveTimes solver blocks k S0 = some S ∧
        S.linear.matrix = (fun i j => ((k0 + k : Nat) : R) * K V blocks i j) ∧
        S.linear.rhs = (fun i => ((k0 + k : Nat) : R) * F V blocks i) ∧
        (∀ x, equationOf (buildEquationMap V).1 x = none → get S.field x = get S0.field x) ∧
        (0 < k → ∀ x i, equationOf (buildEquationMap V).1 x = some i →
          get S.field x = some (solver (buildEquationMap V).2
            (fun i j => ((k0 + k : Nat) : R) * K V blocks i j)
            (fun i => ((k0 + k : Nat) : R) * F V blocks i) i)) by
    obtain ⟨S, h⟩ := H k 0 (create V) rfl rfl rfl (by simp [create, LinearSystem.create])
      (by simp [create, LinearSystem.create]) (fun x hx => by rw [create_field, if_pos hx]; rfl)
    exact ⟨S, by simpa using h⟩
  intro k
  induction k with
  | zero => exact fun k0 S0 _ _ _ hm hr _ => ⟨S0, rfl, hm, hr, fun _ _ => rfl, fun h => by omega⟩
  | succ k ih =>
    intro k0 S0 hV he hn hm hr hf
    obtain ⟨l, a1, a2, a3⟩ := assemble_sum V blocks S0.linear
    obtain ⟨f, r1, r2⟩ := readSolution_field V (solver S0.nEquations l.matrix l.rhs) S0.field
      (fun x hx _ => hf x hx)
    have hs : solve solver blocks S0 = some { S0 with field := f, linear := l } := by
      rw [solve, hV, he, a1]
      simp only [r1]
    have hm' : l.matrix = fun i j => ((k0 + 1 : Nat) : R) * K V blocks i j := by
      funext i j
      rw [a2, hm]; push_cast; ring
    have hr' : l.rhs = fun i => ((k0 + 1 : Nat) : R) * F V blocks i := by
      funext i
      rw [a3, hr]; push_cast; ring
    obtain ⟨S, h1, h2, h3, h4, h5⟩ := ih (k0 + 1) { S0 with field := f, linear := l } hV he hn hm' hr'
      (fun x hx => by
        dsimp only
        rw [r2]
        rcases equationOf (buildEquationMap V).1 x with _ | i
        · exact hf x hx
        · rfl)
    have hk : k0 + 1 + k = k0 + (k + 1) := by omega
    rw [hk] at h2 h3 h5
    refine ⟨S, by rw [solveTimes, hs]; exact h1, h2, h3, fun x hx => ?_, fun _ x i hx => ?_⟩
    · rw [h4 x hx]
      dsimp only
      rw [r2, hx]
    · rcases Nat.eq_zero_or_pos k with rfl | hk0
      · rw [solveTimes, Option.some.injEq] at h1
        subst h1
        dsimp only
        rw [r2, hx, hn, hm', hr']
      · exact h5 hk0 x i hx

end Mito.DiscreteSystem

namespace Mito.DiscreteSystem

open Mito.Assoc

variable {R : Type} [Field R] [CharZero R]

theorem exact_unique {solver : Nat → (Nat → Nat → R) → (Nat → R) → Nat → R} (hx : Exact solver)
    (n : Nat) (A : Nat → Nat → R) (f : Nat → R) (hA : IsUnit (asMatrix n A).det) (c : R) (hc : c ≠ 0)
    (i : Nat) (hi : i < n) :
    solver n (fun i j => c * A i j) (fun i => c * f i) i = solver n A f i := by
  have hs : asMatrix n (fun i j => c * A i j) = c • asMatrix n A := by
    ext a b; simp [asMatrix]
  have hA' : IsUnit (asMatrix n fun i j => c * A i j).det := by
    rw [hs, Matrix.det_smul]
    exact (IsUnit.mk0 _ (pow_ne_zero _ hc)).mul hA
  have e1 := hx n _ (fun i => c * f i) hA'
  have e2 := hx n A f hA
  rw [hs, Matrix.smul_mulVec] at e1
  have e3 : (asMatrix n A).mulVec
      (fun j : Fin n => solver n (fun i j => c * A i j) (fun i => c * f i) j) =
      (asMatrix n A).mulVec (fun j : Fin n => solver n A f j) := by
    rw [e2]
    funext k
    have := congrFun e1 k
    simp only [Pi.smul_apply, smul_eq_mul] at this
    exact mul_left_cancel₀ hc this
  have inj : Function.Injective (asMatrix n A).mulVec :=
    Matrix.mulVec_injective_iff_isUnit.mpr ((Matrix.isUnit_iff_isUnit_det _).mpr hA)
  exact congrFun (inj e3) ⟨i, hi⟩

/-- If the assembled matrix is invertible and the solver is exact, solving again, however often, gives the
same field, although the system is accumulated: `solveTimes_eq`. -/
theorem solve_again {solver : Nat → (Nat → Nat → R) → (Nat → R) → Nat → R} (hx : Exact solver)
    (V : FunctionSpace R) (blocks : Nat → Blocks R)
    (hK : IsUnit (asMatrix (buildEquationMap V).2 (K V blocks)).det) (k : Nat) :
    ∃ S S', solveTimes solver blocks 1 (create V) = some S ∧
      solveTimes solver blocks (k + 1) (create V) = some S' ∧
      ∀ x, get S'.field x = get S.field x := by
  obtain ⟨S, h1, _, _, h2, h3⟩ := solveTimes_eq solver V blocks 1
  obtain ⟨S', h1', _, _, h2', h3'⟩ := solveTimes_eq solver V blocks (k + 1)
  refine ⟨S, S', h1, h1', fun x => ?_⟩
  rcases he : equationOf (buildEquationMap V).1 x with _ | i
  · rw [h2 x he, h2' x he]
  · have hi := (equations_number V).1.lt x i he
    rw [h3 (by omega) x i he, h3' (by omega) x i he,
      exact_unique hx _ _ _ hK _ (Nat.cast_ne_zero.mpr (by omega)) i hi,
      exact_unique hx _ _ _ hK _ (Nat.cast_ne_zero.mpr (by omega)) i hi]

/-! ### C56 -/

omit [CharZero R] in
/-- The solution is zero at every constrained node, whatever values are prescribed. -/
theorem constrained_zero (solver : Nat → (Nat → Nat → R) → (Nat → R) → Nat → R) (V : FunctionSpace R)
    (blocks : Nat → Blocks R) (k : Nat) (x : Nat) (hx : x ∈ V.elements.flatten)
    (hc : x ∈ V.constrained) :
    ∃ S, solveTimes solver blocks k (create V) = some S ∧ get S.field x = some 0 := by
  obtain ⟨S, h1, _, _, h2, _⟩ := solveTimes_eq solver V blocks k
  refine ⟨S, h1, ?_⟩
  rw [h2 x ?_, create_field, if_pos hx]
  rcases he : equationOf (buildEquationMap V).1 x with _ | i
  · rfl
  · exact absurd hc (((equations_number V).1.isSome x).mp (by rw [he]; rfl)).2

omit [CharZero R] in
/-- Prescribed values are imposed if they are zero. -/
theorem prescribed_partial (solver : Nat → (Nat → Nat → R) → (Nat → R) → Nat → R) (V : FunctionSpace R)
    (blocks : Nat → Blocks R) (k : Nat) (hz : ∀ x ∈ V.constrained, V.prescribed x = 0) (x : Nat)
    (hx : x ∈ V.elements.flatten) (hc : x ∈ V.constrained) :
    ∃ S, solveTimes solver blocks k (create V) = some S ∧ get S.field x = some (V.prescribed x) := by
  rw [hz x hc]
  exact constrained_zero solver V blocks k x hx hc

omit [CharZero R] in
/-- C56 is false: a value other than zero prescribed at a node is never imposed, by any solver. -/
theorem prescribed_fails (solver : Nat → (Nat → Nat → R) → (Nat → R) → Nat → R) (V : FunctionSpace R)
    (blocks : Nat → Blocks R) (k : Nat) (x : Nat) (hx : x ∈ V.elements.flatten)
    (hc : x ∈ V.constrained) (hp : V.prescribed x ≠ 0) :
    ∃ S, solveTimes solver blocks k (create V) = some S ∧ get S.field x ≠ some (V.prescribed x) := by
  obtain ⟨S, h1, h2⟩ := constrained_zero solver V blocks k x hx hc
  exact ⟨S, h1, by rw [h2]; exact fun e => hp (Option.some.inj e).symm⟩

/-! ### Examples -/

/-- two segments; the first node is constrained, with prescribed value one -/
def exV : FunctionSpace ℚ := ⟨[[7, 3], [3, 5]], [7], fun _ => 1⟩
/-- stiffness one, load one -/
def exBlocks (_ : Nat) : Blocks ℚ := ⟨fun a b => if a = b then 1 else -1, fun _ => 1 / 2⟩

example : buildEquationMap exV = ([(7, -1), (3, 0), (5, 1)], 2) := by decide +kernel
example : (assemble (buildEquationMap exV).1 exBlocks exV.elements.zipIdx LinearSystem.create).map
    (fun s => (s.matrix 0 0, s.matrix 0 1, s.matrix 1 0, s.matrix 1 1, s.rhs 0, s.rhs 1)) =
    some (2, -1, -1, 1, 1, 1 / 2) := by decide +kernel

/-- A solver for two equations (Cramer's rule): with it, the field after one and after three solves. -/
def exSolver (_ : Nat) (A : Nat → Nat → ℚ) (f : Nat → ℚ) : Nat → ℚ
  | 0 => (f 0 * A 1 1 - A 0 1 * f 1) / (A 0 0 * A 1 1 - A 0 1 * A 1 0)
  | _ => (A 0 0 * f 1 - f 0 * A 1 0) / (A 0 0 * A 1 1 - A 0 1 * A 1 0)

example : (solveTimes exSolver exBlocks 1 (create exV)).map (·.field) =
    some [(7, 0), (3, 3 / 2), (5, 2)] := by decide +kernel
example : (solveTimes exSolver exBlocks 3 (create exV)).map (·.field) =
    some [(7, 0), (3, 3 / 2), (5, 2)] := by decide +kernel
example : (7 : Nat) ∈ exV.elements.flatten ∧ 7 ∈ exV.constrained ∧ exV.prescribed 7 ≠ 0 := by
  refine ⟨by decide, by decide, by decide +kernel⟩

/-- there is an exact solver, so `solve_again` is not vacuous -/
theorem exact_exists : ∃ solver : Nat → (Nat → Nat → R) → (Nat → R) → Nat → R, Exact solver := by
  refine ⟨fun n A f j => if h : j < n then ((asMatrix n A)⁻¹.mulVec fun i : Fin n => f i) ⟨j, h⟩ else 0, ?_⟩
  intro n A f hA
  have : (fun j : Fin n => if h : j.val < n then
      ((asMatrix n A)⁻¹.mulVec fun i : Fin n => f i) ⟨j, h⟩ else 0) =
      (asMatrix n A)⁻¹.mulVec fun i : Fin n => f i := by
    funext j
    simp
  rw [this, Matrix.mulVec_mulVec, Matrix.mul_nonsing_inv _ hA, Matrix.one_mulVec]

end Mito.DiscreteSystem
