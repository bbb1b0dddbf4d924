import Verif.Spec.PetscHandles
import Mathlib.Data.List.Perm.Basic
import Mathlib.Data.List.Nodup
import Mathlib.Data.List.Count
import Mathlib.Tactic.Common

/-! # References and owners -/

namespace Mito.Handles

/-- the objects that are referred to from outside of PETSc (or that nobody can refer to any more) are `O`; a solver refers to its matrix twice -/
structure HInv (h : Heap) (O : List Nat) : Prop where
  nodup : O.Nodup
  lt : ∀ i ∈ O, i < h.next
  refs : ∀ i, h.refs i = O.count i + 2 * O.countP (fun j => h.ops j = some i)
  target : ∀ j m, h.ops j = some m → m < h.next ∧ h.ops m = none
  fresh : ∀ j, h.next ≤ j → h.ops j = none

variable {h : Heap} {O O' : List Nat}

theorem HInv.perm (hi : HInv h O) (p : O.Perm O') : HInv h O' :=
  ⟨p.nodup_iff.mp hi.nodup, fun i hm => hi.lt i (p.mem_iff.mpr hm), fun i => by rw [hi.refs i, p.count_eq, p.countP_eq], hi.target, hi.fresh⟩

theorem HInv.live (hi : HInv h O) {i : Nat} (hm : i ∈ O) : h.refs i ≠ 0 := by
  rw [hi.refs i]
  have := List.count_pos_iff.mpr hm
  omega

theorem HInv.untargeted (hi : HInv h O) : O.countP (fun j => h.ops j = some h.next) = 0 := by
  rw [List.countP_eq_zero]
  intro j _ hj
  have := (hi.target j _ (of_decide_eq_true hj)).1
  omega

theorem HInv.notMem_next (hi : HInv h O) : h.next ∉ O := fun hm => absurd (hi.lt _ hm) (by omega)

theorem HInv.create (hi : HInv h O) : HInv h.create.1 (h.next :: O) where
  nodup := List.nodup_cons.mpr ⟨hi.notMem_next, hi.nodup⟩
  lt i hm := by
    rcases List.mem_cons.mp hm with rfl | hm
    · exact Nat.lt_succ_self _
    · exact Nat.lt_succ_of_lt (hi.lt i hm)
  refs i := by
    have e : (decide (h.ops h.next = some i)) = false := by rw [hi.fresh _ (Nat.le_refl _)]; rfl
    show Function.update h.refs h.next 1 i = (h.next :: O).count i + 2 * (h.next :: O).countP (fun j => h.ops j = some i)
    rw [List.countP_cons_of_neg (by simp [e]), List.count_cons]
    by_cases hn : i = h.next
    · subst hn
      rw [Function.update_self, hi.untargeted, List.count_eq_zero_of_not_mem hi.notMem_next]
      simp
    · rw [Function.update_of_ne hn, hi.refs i]
      simp [Ne.symm hn]
  target j m hj := ⟨Nat.lt_succ_of_lt (hi.target j m hj).1, (hi.target j m hj).2⟩
  fresh j hj := hi.fresh j (by have : h.next + 1 ≤ j := hj; omega)

/-- giving up an object -/
theorem HInv.destroy {i : Nat} (hi : HInv h (i :: O)) : ∃ h', h.destroy (.obj i) = some h' ∧ HInv h' O ∧ h'.ops = h.ops ∧ h'.next = h.next := by
  have hnd := List.nodup_cons.mp hi.nodup
  have hr := hi.refs i
  rw [List.count_cons_self, List.count_eq_zero_of_not_mem hnd.1, List.countP_cons] at hr
  have hself : h.ops i ≠ some i := fun e => by
    have := (hi.target i i e).2
    rw [e] at this
    cases this
  rw [if_neg (by simpa using hself)] at hr
  have hc : ∀ x, h.refs x = (if x = i then 1 else 0) + O.count x + 2 * ((if h.ops i = some x then 1 else 0) + O.countP (fun j => h.ops j = some x)) := by
    intro x
    rw [hi.refs x, List.count_cons, List.countP_cons]
    by_cases h1 : x = i
    · subst h1; simp; split <;> omega
    · have h2 : (i == x) = false := by simp [Ne.symm h1]
      simp only [h2, h1, if_false, decide_eq_true_eq, Bool.false_eq_true]
      split <;> omega
  have h0 : h.refs i ≠ 0 := hi.live List.mem_cons_self
  cases hm : h.ops i with
  | none =>
    have hd : h.destroy (.obj i) = some (h.drop i 1) := by
      simp only [Heap.destroy, if_neg h0, hm]
      split <;> rfl
    refine ⟨_, hd, ⟨hnd.2, fun x hx => hi.lt x (List.mem_cons_of_mem _ hx), fun x => ?_, hi.target, hi.fresh⟩, rfl, rfl⟩
    show Function.update h.refs i (h.refs i - 1) x = O.count x + 2 * O.countP (fun j => h.ops j = some x)
    have hx := hc x
    rw [hm] at hx
    by_cases h1 : x = i
    · subst h1
      rw [Function.update_self]
      simp at hx
      omega
    · rw [Function.update_of_ne h1]
      simp [h1] at hx
      omega
  | some m =>
    have hz : O.countP (fun j => h.ops j = some i) = 0 := by
      rw [List.countP_eq_zero]
      intro j _ hj
      have := (hi.target j _ (of_decide_eq_true hj)).2
      rw [hm] at this
      cases this
    have h1 : h.refs i = 1 := by omega
    have hmi : m ≠ i := by rintro rfl; exact hself hm
    have hd : h.destroy (.obj i) = some ((h.drop i 1).drop m 2) := by
      simp only [Heap.destroy, if_neg h0, hm]
      rw [if_pos h1]
    refine ⟨_, hd, ⟨hnd.2, fun x hx => hi.lt x (List.mem_cons_of_mem _ hx), fun x => ?_, hi.target, hi.fresh⟩, rfl, rfl⟩
    show Function.update (Function.update h.refs i (h.refs i - 1)) m (Function.update h.refs i (h.refs i - 1) m - 2) x =
      O.count x + 2 * O.countP (fun j => h.ops j = some x)
    rw [Function.update_of_ne hmi]
    have hx := hc x
    rw [hm] at hx
    by_cases h2 : x = m
    · subst h2
      rw [Function.update_self]
      simp [hmi] at hx
      omega
    · have h3 : some m ≠ some x := by simp [Ne.symm h2]
      rw [if_neg h3] at hx
      rw [Function.update_of_ne h2]
      by_cases h4 : x = i
      · subst h4
        rw [Function.update_self]
        simp at hx
        omega
      · rw [Function.update_of_ne h4]
        simp [h4] at hx
        omega

/-- the objects of a handle -/
def objs : Handle → List Nat
  | .obj i => [i]
  | _ => []

theorem HInv.usable (hi : HInv h O) {x : Handle} (hx : ∀ i ∈ objs x, i ∈ O) : h.usable x = true ↔ ∃ i, x = .obj i := by
  cases x with
  | garbage => simp [Heap.usable]
  | null => simp [Heap.usable]
  | obj i =>
    have := hi.live (hx i (by simp [objs]))
    simp [Heap.usable, this]

/-- destroying what is not garbage -/
theorem HInv.destroy_handle {x : Handle} (hi : HInv h (objs x ++ O)) (hx : x ≠ .garbage) :
    ∃ h', h.destroy x = some h' ∧ HInv h' O ∧ h'.ops = h.ops ∧ h'.next = h.next := by
  cases x with
  | garbage => exact absurd rfl hx
  | null => exact ⟨h, rfl, hi, rfl, rfl⟩
  | obj i => exact HInv.destroy (by simpa [objs] using hi)

/-- `KSPCreate` and `KSPSetOperators` -/
theorem HInv.createSolver (hi : HInv h O) {S : System} {m : Nat} (hS : S.matrix = .obj m) (hm : m ∈ O) (hom : h.ops m = none) :
    ∃ h', createSolver h S = some (h', .obj h.next) ∧ HInv h' (h.next :: O) ∧ h'.ops = Function.update h.ops h.next (some m) ∧
      h'.next = h.next + 1 := by
  have hc := hi.create
  have hne : m ≠ h.next := fun e => hi.notMem_next (e ▸ hm)
  have h1 := hc.live (List.mem_cons_self (a := h.next) (l := O))
  have h2 := hc.live (List.mem_cons_of_mem h.next hm)
  refine ⟨⟨h.next + 1, Function.update h.create.1.refs m (h.create.1.refs m + 2), Function.update h.ops h.next (some m)⟩, ?_, ?_, rfl, rfl⟩
  · simp only [Handles.createSolver, hS, Heap.setOperators]
    show (if h.create.1.refs h.next = 0 ∨ h.create.1.refs m = 0 then none else some _ : Option Heap).bind _ = _
    rw [if_neg (by tauto)]
    rfl
  · refine ⟨hc.nodup, hc.lt, fun x => ?_, ?_, ?_⟩
    · show Function.update h.create.1.refs m (h.create.1.refs m + 2) x =
        (h.next :: O).count x + 2 * (h.next :: O).countP (fun j => Function.update h.ops h.next (some m) j = some x)
      have hO : O.countP (fun j => Function.update h.ops h.next (some m) j = some x) = O.countP (fun j => h.ops j = some x) := by
        refine List.countP_congr fun j hj => ?_
        rw [Function.update_of_ne (fun e : j = h.next => hi.notMem_next (e ▸ hj))]
      have hx : h.create.1.refs x = (h.next :: O).count x + 2 * (h.next :: O).countP (fun j => h.ops j = some x) := hc.refs x
      have hm' : h.create.1.refs m = (h.next :: O).count m + 2 * (h.next :: O).countP (fun j => h.ops j = some m) := hc.refs m
      rw [List.countP_cons, hi.fresh _ (Nat.le_refl _)] at hx hm'
      rw [List.countP_cons, hO, Function.update_self]
      by_cases h3 : x = m
      · subst h3
        rw [Function.update_self]
        simp at hx ⊢
        omega
      · rw [Function.update_of_ne h3]
        simp [Ne.symm h3] at hx ⊢
        omega
    · intro j x hj
      change Function.update h.ops h.next (some m) j = some x at hj
      show x < h.next + 1 ∧ Function.update h.ops h.next (some m) x = none
      by_cases h3 : j = h.next
      · subst h3
        rw [Function.update_self] at hj
        cases hj
        exact ⟨Nat.lt_succ_of_lt (hi.lt m hm), by rw [Function.update_of_ne hne]; exact hom⟩
      · rw [Function.update_of_ne h3] at hj
        obtain ⟨h4, h5⟩ := hi.target j x hj
        exact ⟨Nat.lt_succ_of_lt h4, by rw [Function.update_of_ne (by omega)]; exact h5⟩
    · intro j hj
      have : h.next + 1 ≤ j := hj
      show Function.update h.ops h.next (some m) j = none
      rw [Function.update_of_ne (by omega)]
      exact hi.fresh j (by omega)

theorem HInv.createSolver_null (hi : HInv h O) {S : System} (hS : S.matrix = .null) :
    Handles.createSolver h S = some (h.create.1, .obj h.next) ∧ HInv h.create.1 (h.next :: O) := by
  have hc := hi.create
  have h1 := hc.live (List.mem_cons_self (a := h.next) (l := O))
  refine ⟨?_, hc⟩
  simp only [Handles.createSolver, hS, Heap.setOperators]
  show (if h.create.1.refs h.next = 0 then none else some _ : Option Heap).bind _ = _
  rw [if_neg h1]
  rfl

/-! ## States -/

theorem flatMap_set {α β : Type*} (f : α → List β) : ∀ {l : List α} {s : Nat} {a : α}, l[s]? = some a →
    ∃ r, (l.flatMap f).Perm (f a ++ r) ∧ ∀ b, ((l.set s b).flatMap f).Perm (f b ++ r)
  | [], s, a, h => by simp at h
  | x :: l, 0, a, h => by
    simp only [List.getElem?_cons_zero, Option.some.injEq] at h
    subst h
    exact ⟨l.flatMap f, by simp, fun b => by simp⟩
  | x :: l, s + 1, a, h => by
    rw [List.getElem?_cons_succ] at h
    obtain ⟨r, h1, h2⟩ := flatMap_set f h
    refine ⟨f x ++ r, ?_, fun b => ?_⟩
    · rw [List.flatMap_cons]
      exact (h1.append_left _).trans (List.perm_append_comm_assoc _ _ _)
    · rw [List.set_cons_succ, List.flatMap_cons]
      exact ((h2 b).append_left _).trans (List.perm_append_comm_assoc _ _ _)

def System.objs (S : System) : List Nat := Handles.objs S.matrix ++ (Handles.objs S.solution ++ Handles.objs S.rhs)

/-- the handles of a linear system are in the same phase -/
inductive Uniform (h : Heap) : System → Phase → Prop
  | fresh : Uniform h ⟨.garbage, .garbage, .garbage⟩ .fresh
  | gone : Uniform h ⟨.null, .null, .null⟩ .gone
  | alive (a b c : Nat) : h.ops a = none → Uniform h ⟨.obj a, .obj b, .obj c⟩ .alive

def System.phase (S : System) : Phase :=
  match S.matrix with
  | .garbage => .fresh
  | .null => .gone
  | .obj _ => .alive

def solverPhase (h : Heap) (K : Solver) : Phase :=
  match K.ksp with
  | .garbage => .fresh
  | .null => .gone
  | .obj j => if (h.ops j).isSome then .alive else .idle

/-- the phases of a state -/
def phases (st : State) (L : List Nat) : Phases :=
  ⟨st.systems.map System.phase, st.solvers.map fun K => (K.system, solverPhase st.heap K), !L.isEmpty⟩

def owners (st : State) : List Nat := st.systems.flatMap System.objs ++ st.solvers.flatMap fun K => objs K.ksp

structure SInv (st : State) (L : List Nat) : Prop where
  heap : HInv st.heap (owners st ++ L)
  uniform : ∀ S ∈ st.systems, Uniform st.heap S S.phase

theorem Uniform.congr {h h' : Heap} (ho : h'.ops = h.ops) {S : System} {q : Phase} (hu : Uniform h S q) : Uniform h' S q := by
  cases hu with
  | fresh => exact .fresh
  | gone => exact .gone
  | alive a b c ha => exact .alive a b c (ho ▸ ha)

theorem uniform_phase {h : Heap} {S : System} {q : Phase} (hu : Uniform h S q) : S.phase = q := by cases hu <;> rfl

theorem solverPhase_congr {h h' : Heap} (ho : h'.ops = h.ops) : solverPhase h' = solverPhase h := by
  funext K
  simp only [solverPhase, ho]

/-- destroying a linear system -/
theorem destroySystem_cases {h : Heap} {S : System} {q : Phase} (hu : Uniform h S q) {O : List Nat} (hi : HInv h (S.objs ++ O)) :
    (q = .fresh ∧ destroySystem h S = none) ∨
    (q ≠ .fresh ∧ ∃ h', destroySystem h S = some (h', ⟨.null, .null, .null⟩) ∧ HInv h' O ∧ h'.ops = h.ops ∧ h'.next = h.next) := by
  by_cases hq : q = .fresh
  · subst hq
    cases hu
    exact Or.inl ⟨rfl, rfl⟩
  · refine Or.inr ⟨hq, ?_⟩
    have hg : S.matrix ≠ .garbage ∧ S.rhs ≠ .garbage ∧ S.solution ≠ .garbage := by cases hu <;> simp_all
    simp only [System.objs, List.append_assoc] at hi
    obtain ⟨h1, e1, i1, o1, n1⟩ := hi.destroy_handle hg.1
    obtain ⟨h2, e2, i2, o2, n2⟩ := i1.destroy_handle hg.2.2
    obtain ⟨h3, e3, i3, o3, n3⟩ := i2.destroy_handle hg.2.1
    refine ⟨h3, ?_, i3, by rw [o3, o2, o1], by rw [n3, n2, n1]⟩
    simp [destroySystem, e1, e2, e3]

variable {st : State} {L : List Nat}

theorem SInv.init : SInv .init [] := by
  refine ⟨⟨List.nodup_nil, fun i hm => ?_, fun i => ?_, fun j m hj => ?_, fun j _ => rfl⟩, fun S hS => ?_⟩
  · simp [owners, State.init] at hm
  · simp [owners, State.init, Heap.empty]
  · cases hj
  · cases hS

/-- the owners apart from a linear system -/
theorem owners_system {s : Nat} {S : System} (hS : st.systems[s]? = some S) :
    ∃ r, (owners st).Perm (S.objs ++ r) ∧ ∀ (h : Heap) (T : System), (owners ⟨h, st.systems.set s T, st.solvers⟩).Perm (T.objs ++ r) := by
  obtain ⟨r, h1, h2⟩ := flatMap_set System.objs hS
  refine ⟨r ++ st.solvers.flatMap fun K => objs K.ksp, ?_, fun h T => ?_⟩
  · rw [← List.append_assoc]
    exact h1.append_right _
  · rw [← List.append_assoc]
    exact (h2 T).append_right _

/-- the owners apart from a solver -/
theorem owners_solver {k : Nat} {K : Solver} (hK : st.solvers[k]? = some K) :
    ∃ r, (owners st).Perm (objs K.ksp ++ r) ∧
      ∀ (h : Heap) (K' : Solver), (owners ⟨h, st.systems, st.solvers.set k K'⟩).Perm (objs K'.ksp ++ r) := by
  obtain ⟨r, h1, h2⟩ := flatMap_set (fun K : Solver => objs K.ksp) hK
  refine ⟨st.systems.flatMap System.objs ++ r, ?_, fun h K' => ?_⟩
  · exact (h1.append_left _).trans (List.perm_append_comm_assoc _ _ _)
  · exact ((h2 K').append_left _).trans (List.perm_append_comm_assoc _ _ _)

theorem mem_owners {s : Nat} {S : System} (hS : st.systems[s]? = some S) {i : Nat} (hi : i ∈ S.objs) : i ∈ owners st ++ L :=
  List.mem_append_left _ (List.mem_append_left _ (List.mem_flatMap.mpr ⟨S, List.mem_of_getElem? hS, hi⟩))

theorem mem_owners_solver {k : Nat} {K : Solver} (hK : st.solvers[k]? = some K) {i : Nat} (hi : i ∈ objs K.ksp) : i ∈ owners st ++ L :=
  List.mem_append_left _ (List.mem_append_right _ (List.mem_flatMap.mpr ⟨K, List.mem_of_getElem? hK, hi⟩))

/-- what a step does is what the specification says -/
def Agrees (st : State) (L : List Nat) (o : Op) : Prop :=
  (∃ st' L', step st o = some st' ∧ SInv st' L' ∧ follow (phases st L) o = some (phases st' L')) ∨
    (step st o = none ∧ follow (phases st L) o = none)

theorem phases_system (s : Nat) : (phases st L).systems[s]? = (st.systems[s]?).map System.phase := by simp [phases]

theorem phases_solver (k : Nat) : (phases st L).solvers[k]? = (st.solvers[k]?).map fun K => (K.system, solverPhase st.heap K) := by
  simp [phases]

theorem agrees_system (hs : SInv st L) : Agrees st L .system := by
  refine Or.inl ⟨_, L, rfl, ⟨?_, ?_⟩, ?_⟩
  · have e : owners { st with systems := st.systems ++ [⟨.garbage, .garbage, .garbage⟩] } = owners st := by
      simp [owners, System.objs, objs]
    rw [e]
    exact hs.heap
  · intro S hS
    rcases List.mem_append.mp hS with h | h
    · exact hs.uniform S h
    · rw [List.mem_singleton.mp h]
      exact .fresh
  · simp [follow, phases, System.phase]

theorem agrees_solver (hs : SInv st L) (s : Nat) : Agrees st L (.solver s) := by
  cases hS : st.systems[s]? with
  | none =>
    refine Or.inr ⟨by simp [step, hS], ?_⟩
    simp only [follow, phases_system, hS]
    rfl
  | some S =>
    refine Or.inl ⟨{ st with solvers := st.solvers ++ [⟨s, .garbage⟩] }, L, by simp [step, hS], ⟨?_, hs.uniform⟩, ?_⟩
    · have e : owners { st with solvers := st.solvers ++ [⟨s, .garbage⟩] } = owners st := by simp [owners, objs]
      rw [e]
      exact hs.heap
    · simp only [follow, phases_system, hS]
      simp [phases, solverPhase]

theorem agrees_createSystem (hs : SInv st L) (s : Nat) : Agrees st L (.createSystem s) := by
  cases hS : st.systems[s]? with
  | none =>
    refine Or.inr ⟨by simp [step, hS], ?_⟩
    simp only [follow, phases_system, hS]
    rfl
  | some S =>
    obtain ⟨r, h1, h2⟩ := owners_system hS
    have hc := hs.heap.create.create.create
    have hu := hs.uniform S (List.mem_of_getElem? hS)
    refine Or.inl ⟨{ st with heap := (createSystem st.heap).1, systems := st.systems.set s (createSystem st.heap).2 }, S.objs ++ L,
      by simp [step, hS], ⟨?_, ?_⟩, ?_⟩
    · refine HInv.perm (O := (st.heap.next + 1 + 1) :: (st.heap.next + 1) :: st.heap.next :: (owners st ++ L)) hc ?_
      have h3 := h2 (createSystem st.heap).1 (createSystem st.heap).2
      have e : (createSystem st.heap).2.objs = [st.heap.next + 1 + 1, st.heap.next, st.heap.next + 1] := rfl
      rw [e] at h3
      refine List.Perm.trans ?_ (h3.append_right _).symm
      refine List.Perm.cons _ ((List.Perm.swap _ _ _).trans ?_)
      refine ((List.Perm.cons _ (List.Perm.cons _ ?_)))
      refine (h1.append_right L).trans ?_
      rw [List.append_assoc]
      exact List.perm_append_comm_assoc _ _ _
    · intro T hT
      rcases List.mem_or_eq_of_mem_set hT with h | rfl
      · exact Uniform.congr (h := st.heap) (h' := (createSystem st.heap).1) rfl (hs.uniform T h)
      · exact Uniform.alive _ _ _ (hs.heap.fresh (st.heap.next + 2) (by omega))
    · simp only [follow, phases_system, hS, Option.map_some]
      have e : (!(S.objs ++ L).isEmpty) = (!L.isEmpty || S.phase == Phase.alive) := by
        generalize hq : S.phase = q at hu
        cases hu <;> cases L <;> rfl
      simp only [phases, e, List.map_set]
      rfl

theorem agrees_destroySystem (hs : SInv st L) (s : Nat) : Agrees st L (.destroySystem s) := by
  cases hS : st.systems[s]? with
  | none =>
    refine Or.inr ⟨by simp [step, hS], ?_⟩
    simp only [follow, phases_system, hS]
    rfl
  | some S =>
    obtain ⟨r, h1, h2⟩ := owners_system hS
    have hu := hs.uniform S (List.mem_of_getElem? hS)
    have hi := hs.heap.perm ((h1.append_right L).trans (by rw [List.append_assoc]))
    rcases destroySystem_cases hu hi with ⟨hq, he⟩ | ⟨hq, h', he, i', o', -⟩
    · refine Or.inr ⟨by simp [step, hS, he], ?_⟩
      simp only [follow, phases_system, hS, Option.map_some]
      simp [hq]
    · refine Or.inl ⟨{ st with heap := h', systems := st.systems.set s ⟨.null, .null, .null⟩ }, L, by simp [step, hS, he], ⟨?_, ?_⟩, ?_⟩
      · exact i'.perm ((h2 h' ⟨.null, .null, .null⟩).append_right L).symm
      · intro T hT
        rcases List.mem_or_eq_of_mem_set hT with h | rfl
        · exact (hs.uniform T h).congr o'
        · exact .gone
      · simp only [follow, phases_system, hS, Option.map_some]
        simp only [phases, List.map_set, solverPhase_congr o']
        show (if S.phase = .fresh then none else _ : Option Phases) = _
        rw [if_neg hq]
        rfl

/-- steps that only look at handles -/
theorem agrees_use (hs : SInv st L) (s : Nat) (o : Op) (ho : o = .useMatrix s ∨ o = .useRhs s ∨ o = .getSolution s ∨ o = .print s) :
    Agrees st L o := by
  cases hS : st.systems[s]? with
  | none => rcases ho with rfl | rfl | rfl | rfl <;> exact Or.inr ⟨by simp [step, hS], by simp only [follow, phases_system, hS]; rfl⟩
  | some S =>
    have hu := hs.uniform S (List.mem_of_getElem? hS)
    have hus : ∀ x : Handle, (∀ i ∈ objs x, i ∈ S.objs) → (st.heap.usable x = true ↔ ∃ i, x = .obj i) := fun x hx =>
      hs.heap.usable fun i hi => mem_owners hS (hx i hi)
    have u1 := hus S.matrix (by intro i hi; simp [System.objs, hi])
    have u2 := hus S.rhs (by intro i hi; simp [System.objs, hi])
    have u3 := hus S.solution (by intro i hi; simp [System.objs, hi])
    by_cases hq : S.phase = .alive
    · rw [hq] at hu
      cases hu with
      | alive a b c ha =>
        have v1 := u1.mpr ⟨a, rfl⟩
        have v2 := u2.mpr ⟨b, rfl⟩
        have v3 := u3.mpr ⟨c, rfl⟩
        refine Or.inl ⟨st, L, ?_, hs, ?_⟩
        · rcases ho with rfl | rfl | rfl | rfl <;> simp_all [step]
        · rcases ho with rfl | rfl | rfl | rfl <;> simp only [follow, phases_system, hS, Option.map_some] <;> simp [hq]
    · have w : (¬ ∃ i, S.matrix = .obj i) ∧ (¬ ∃ i, S.rhs = .obj i) ∧ ¬ ∃ i, S.solution = .obj i := by
        generalize hp : S.phase = p at hu hq
        cases hu with
        | fresh => simp
        | gone => simp
        | alive => exact absurd rfl hq
      refine Or.inr ⟨?_, ?_⟩
      · rw [← u1, ← u2, ← u3] at w
        rcases ho with rfl | rfl | rfl | rfl <;> simp [step, hS, w]
      · rcases ho with rfl | rfl | rfl | rfl <;> simp only [follow, phases_system, hS, Option.map_some] <;> simp [hq]

theorem agrees_createSolver (hs : SInv st L) (k : Nat) : Agrees st L (.createSolver k) := by
  cases hK : st.solvers[k]? with
  | none =>
    refine Or.inr ⟨by simp [step, hK], ?_⟩
    simp only [follow, phases_solver, hK]
    rfl
  | some K =>
    cases hS : st.systems[K.system]? with
    | none =>
      refine Or.inr ⟨by simp [step, hK, hS], ?_⟩
      simp only [follow, phases_solver, hK, Option.map_some]
      simp [phases_system, hS]
    | some S =>
      obtain ⟨r, h1, h2⟩ := owners_solver hK
      have hu := hs.uniform S (List.mem_of_getElem? hS)
      -- the state after a successful creation
      have done : ∀ h', createSolver st.heap S = some (h', .obj st.heap.next) → HInv h' (st.heap.next :: (owners st ++ L)) →
          (∀ j, j < st.heap.next → h'.ops j = st.heap.ops j) → (h'.ops st.heap.next).isSome = (S.phase == .alive) → S.phase ≠ .fresh →
          Agrees st L (.createSolver k) := by
        intro h' he hi ho hn hf
        refine Or.inl ⟨{ st with heap := h', solvers := st.solvers.set k ⟨K.system, .obj st.heap.next⟩ }, objs K.ksp ++ L,
          by simp [step, hK, hS, he], ⟨?_, ?_⟩, ?_⟩
        · refine hi.perm ?_
          refine List.Perm.trans ?_ ((h2 h' ⟨K.system, .obj st.heap.next⟩).append_right _).symm
          show (st.heap.next :: (owners st ++ L)).Perm (st.heap.next :: (r ++ (objs K.ksp ++ L)))
          refine List.Perm.cons _ ((h1.append_right L).trans ?_)
          rw [List.append_assoc]
          exact List.perm_append_comm_assoc _ _ _
        · intro T hT
          have hT' := hs.uniform T hT
          obtain ⟨t, ht⟩ := List.getElem?_of_mem hT
          have hlt : ∀ i ∈ T.objs, i < st.heap.next := fun i hi => hs.heap.lt i (mem_owners (st := st) ht hi)
          generalize hp : T.phase = p at hT'
          cases hT' with
          | fresh => exact .fresh
          | gone => exact .gone
          | alive a b c ha => exact .alive a b c (by rw [← ha]; exact ho a (hlt a (by simp [System.objs, objs])))
        · simp only [follow, phases_solver, hK, Option.map_some]
          simp only [Option.bind_eq_bind, Option.bind_some, phases_system, hS, Option.map_some, if_neg hf]
          have e1 : (!(objs K.ksp ++ L).isEmpty) = ((!L.isEmpty || solverPhase st.heap K == Phase.alive) || solverPhase st.heap K == Phase.idle) := by
            cases hx : K.ksp with
            | garbage => cases L <;> simp [objs, solverPhase, hx]
            | null => cases L <;> simp [objs, solverPhase, hx]
            | obj j => cases L <;> cases hj : (st.heap.ops j).isSome <;> simp [objs, solverPhase, hx, hj]
          have e2 : (st.solvers.map fun K => (K.system, solverPhase h' K)) = st.solvers.map fun K => (K.system, solverPhase st.heap K) := by
            refine List.map_congr_left fun K' hK' => ?_
            obtain ⟨t, ht⟩ := List.getElem?_of_mem hK'
            have hlt : ∀ i ∈ objs K'.ksp, i < st.heap.next := fun i hi => hs.heap.lt i (mem_owners_solver ht hi)
            simp only [solverPhase]
            cases hx : K'.ksp with
            | garbage => rfl
            | null => rfl
            | obj j => simp only [ho j (hlt j (by simp [hx, objs]))]
          have e3 : solverPhase h' ⟨K.system, .obj st.heap.next⟩ = if S.phase = .alive then .alive else .idle := by
            simp only [solverPhase, hn]
            by_cases hq : S.phase = .alive <;> simp [hq]
          simp only [phases, List.map_set, e1, e2, e3]
          rfl
      generalize hp : S.phase = q at hu done
      cases hu with
      | fresh =>
        refine Or.inr ⟨by simp [step, hK, hS, createSolver, Heap.create, Heap.setOperators], ?_⟩
        simp only [follow, phases_solver, hK, Option.map_some]
        simp only [Option.bind_eq_bind, Option.bind_some, phases_system, hS, Option.map_some, hp, if_true]
      | gone =>
        obtain ⟨h1, h2⟩ := hs.heap.createSolver_null (S := ⟨.null, .null, .null⟩) rfl
        refine done _ h1 h2 (fun j _ => rfl) ?_ (by simp)
        show (st.heap.ops st.heap.next).isSome = _
        rw [hs.heap.fresh _ (Nat.le_refl _)]
        rfl
      | alive a b c ha =>
        obtain ⟨h', h1, h2, h3, -⟩ := hs.heap.createSolver (S := ⟨.obj a, .obj b, .obj c⟩) rfl
          (mem_owners hS (by simp [System.objs, objs])) ha
        refine done _ h1 h2 (fun j hj => ?_) ?_ (by simp)
        · rw [h3, Function.update_of_ne (by omega)]
        · rw [h3, Function.update_self]
          rfl

theorem agrees_destroySolver (hs : SInv st L) (k : Nat) : Agrees st L (.destroySolver k) := by
  cases hK : st.solvers[k]? with
  | none =>
    refine Or.inr ⟨by simp [step, hK], ?_⟩
    simp only [follow, phases_solver, hK]
    rfl
  | some K =>
    cases hS : st.systems[K.system]? with
    | none =>
      refine Or.inr ⟨by simp [step, hK, hS], ?_⟩
      simp only [follow, phases_solver, hK, Option.map_some]
      simp [phases_system, hS]
    | some S =>
      obtain ⟨r, h1, h2⟩ := owners_system hS
      have hu := hs.uniform S (List.mem_of_getElem? hS)
      have hi := hs.heap.perm ((h1.append_right L).trans (by rw [List.append_assoc]))
      have hf : follow (phases st L) (.destroySolver k) =
          if S.phase = .fresh ∨ solverPhase st.heap K = .fresh then none
          else some { phases st L with systems := (phases st L).systems.set K.system .gone,
                                       solvers := (phases st L).solvers.set k (K.system, .gone) } := by
        simp only [follow, phases_solver, hK, Option.map_some]
        simp only [Option.bind_eq_bind, Option.bind_some, phases_system, hS, Option.map_some]
        rfl
      rcases destroySystem_cases hu hi with ⟨hq, he⟩ | ⟨hq, h', he, i', o', -⟩
      · refine Or.inr ⟨by simp [step, hK, hS, he], ?_⟩
        rw [hf, if_pos (Or.inl hq)]
      · by_cases hg : K.ksp = .garbage
        · refine Or.inr ⟨by simp [step, hK, hS, he, hg, Heap.destroy], ?_⟩
          rw [hf, if_pos (Or.inr (by simp [solverPhase, hg]))]
        · have hn : ¬ (S.phase = .fresh ∨ solverPhase st.heap K = .fresh) := by
            rintro (h | h)
            · exact hq h
            · cases hx : K.ksp with
              | garbage => exact hg hx
              | null => simp [solverPhase, hx] at h
              | obj j => simp only [solverPhase, hx] at h; split at h <;> cases h
          have i1 : HInv h' (owners ⟨h', st.systems.set K.system ⟨.null, .null, .null⟩, st.solvers⟩ ++ L) :=
            i'.perm ((h2 h' ⟨.null, .null, .null⟩).append_right L).symm
          obtain ⟨r', h3, h4⟩ := owners_solver (st := ⟨h', st.systems.set K.system ⟨.null, .null, .null⟩, st.solvers⟩) (k := k) hK
          obtain ⟨h'', e2, i2, o2, -⟩ := (i1.perm ((h3.append_right L).trans (by rw [List.append_assoc]))).destroy_handle hg
          refine Or.inl ⟨⟨h'', st.systems.set K.system ⟨.null, .null, .null⟩, st.solvers.set k ⟨K.system, .null⟩⟩, L,
            by simp [step, hK, hS, he, e2], ⟨?_, ?_⟩, ?_⟩
          · exact i2.perm ((h4 h'' ⟨K.system, .null⟩).append_right L).symm
          · intro T hT
            rcases List.mem_or_eq_of_mem_set hT with h | rfl
            · exact (hs.uniform T h).congr (h' := h'') (by rw [o2, o'])
            · exact .gone
          · rw [hf, if_neg hn]
            have ho : h''.ops = st.heap.ops := by rw [o2, o']
            simp only [phases, List.map_set, solverPhase_congr ho]
            rfl

theorem agrees_setOptions (hs : SInv st L) (k : Nat) : Agrees st L (.setOptions k) := by
  cases hK : st.solvers[k]? with
  | none =>
    refine Or.inr ⟨by simp [step, hK], ?_⟩
    simp only [follow, phases_solver, hK]
    rfl
  | some K =>
    have hu := hs.heap.usable (x := K.ksp) fun i hi => mem_owners_solver hK hi
    have hp : (∃ i, K.ksp = .obj i) ↔ (solverPhase st.heap K = .alive ∨ solverPhase st.heap K = .idle) := by
      cases hx : K.ksp with
      | garbage => simp [solverPhase, hx]
      | null => simp [solverPhase, hx]
      | obj j => cases hj : (st.heap.ops j).isSome <;> simp [solverPhase, hx, hj]
    have hf : follow (phases st L) (.setOptions k) =
        if solverPhase st.heap K = .alive ∨ solverPhase st.heap K = .idle then some (phases st L) else none := by
      simp only [follow, phases_solver, hK, Option.map_some]
      rfl
    by_cases h : ∃ i, K.ksp = .obj i
    · exact Or.inl ⟨st, L, by simp [step, hK, hu.mpr h], hs, by rw [hf, if_pos (hp.mp h)]⟩
    · refine Or.inr ⟨?_, by rw [hf, if_neg (fun h' => h (hp.mpr h'))]⟩
      rw [← hu] at h
      simp [step, hK, h]

theorem agrees_solve (hs : SInv st L) (k : Nat) : Agrees st L (.solve k) := by
  cases hK : st.solvers[k]? with
  | none =>
    refine Or.inr ⟨by simp [step, hK], ?_⟩
    simp only [follow, phases_solver, hK]
    rfl
  | some K =>
    cases hS : st.systems[K.system]? with
    | none =>
      refine Or.inr ⟨by simp [step, hK, hS], ?_⟩
      simp only [follow, phases_solver, hK, Option.map_some]
      simp [phases_system, hS]
    | some S =>
      have hu := hs.uniform S (List.mem_of_getElem? hS)
      have hus : ∀ x : Handle, (∀ i ∈ objs x, i ∈ S.objs) → (st.heap.usable x = true ↔ ∃ i, x = .obj i) := fun x hx =>
        hs.heap.usable fun i hi => mem_owners hS (hx i hi)
      have u1 := hus S.matrix (by intro i hi; simp [System.objs, hi])
      have u2 := hus S.rhs (by intro i hi; simp [System.objs, hi])
      have u3 := hus S.solution (by intro i hi; simp [System.objs, hi])
      have u4 := hs.heap.usable (x := K.ksp) fun i hi => mem_owners_solver hK hi
      have hp : (st.heap.usable K.ksp = true ∧ st.heap.hasOperators K.ksp = true) ↔ solverPhase st.heap K = .alive := by
        rw [u4]
        cases hx : K.ksp with
        | garbage => simp [solverPhase, hx]
        | null => simp [solverPhase, hx]
        | obj j => cases hj : (st.heap.ops j).isSome <;> simp [solverPhase, hx, hj, Heap.hasOperators]
      have hq : (st.heap.usable S.matrix = true ∧ st.heap.usable S.rhs = true ∧ st.heap.usable S.solution = true) ↔ S.phase = .alive := by
        rw [u1, u2, u3]
        generalize hp : S.phase = q at hu
        cases hu <;> simp
      have hf : follow (phases st L) (.solve k) =
          if S.phase = .alive ∧ solverPhase st.heap K = .alive then some (phases st L) else none := by
        simp only [follow, phases_solver, hK, Option.map_some]
        simp only [Option.bind_eq_bind, Option.bind_some, phases_system, hS, Option.map_some]
        rfl
      have hst : step st (.solve k) = if S.phase = .alive ∧ solverPhase st.heap K = .alive then some st else none := by
        simp only [step, hK, hS, Option.bind_eq_bind, Option.bind_some, Bool.and_eq_true]
        by_cases h : S.phase = .alive ∧ solverPhase st.heap K = .alive
        · rw [if_pos h, if_pos (by tauto)]
          rfl
        · rw [if_neg h, if_neg (by tauto)]
      by_cases h : S.phase = .alive ∧ solverPhase st.heap K = .alive
      · exact Or.inl ⟨st, L, by rw [hst, if_pos h], hs, by rw [hf, if_pos h]⟩
      · exact Or.inr ⟨by rw [hst, if_neg h], by rw [hf, if_neg h]⟩

theorem step_agrees (hs : SInv st L) (o : Op) (ho : ∀ s, o ≠ .copySystem s) : Agrees st L o := by
  cases o with
  | system => exact agrees_system hs
  | copySystem s => exact absurd rfl (ho s)
  | createSystem s => exact agrees_createSystem hs s
  | destroySystem s => exact agrees_destroySystem hs s
  | useMatrix s => exact agrees_use hs s _ (Or.inl rfl)
  | useRhs s => exact agrees_use hs s _ (Or.inr (Or.inl rfl))
  | getSolution s => exact agrees_use hs s _ (Or.inr (Or.inr (Or.inl rfl)))
  | print s => exact agrees_use hs s _ (Or.inr (Or.inr (Or.inr rfl)))
  | solver s => exact agrees_solver hs s
  | createSolver k => exact agrees_createSolver hs k
  | destroySolver k => exact agrees_destroySolver hs k
  | setOptions k => exact agrees_setOptions hs k
  | solve k => exact agrees_solve hs k

/-- what a program does is what the specification says -/
theorem run_agrees : ∀ {ops : List Op} {st : State} {L : List Nat}, SInv st L → NoCopies ops →
    (∃ st' L', run st ops = some st' ∧ SInv st' L' ∧ follows (phases st L) ops = some (phases st' L')) ∨
      (run st ops = none ∧ follows (phases st L) ops = none)
  | [], st, L, hs, _ => Or.inl ⟨st, L, rfl, hs, rfl⟩
  | o :: ops, st, L, hs, hn => by
    rcases step_agrees hs o (fun s e => hn s (e ▸ List.mem_cons_self)) with ⟨st', L', h1, h2, h3⟩ | ⟨h1, h3⟩
    · simp only [run, follows, h1, h3, Option.bind_some]
      exact run_agrees h2 fun s hm => hn s (List.mem_cons_of_mem _ hm)
    · simp [run, follows, h1, h3]

/-- the last references are gone when nobody owns anything -/
theorem released_iff (hs : SInv st L) : st.Released ↔ (phases st L).Clean := by
  constructor
  · intro h
    have hO : owners st ++ L = [] := by
      rw [List.eq_nil_iff_forall_not_mem]
      exact fun i hi => hs.heap.live hi (h i)
    obtain ⟨h1, rfl⟩ := List.append_eq_nil_iff.mp hO
    obtain ⟨h2, h3⟩ := List.append_eq_nil_iff.mp h1
    refine ⟨rfl, fun q hq => ?_, fun r hr => ?_⟩
    · obtain ⟨S, hS, rfl⟩ := List.mem_map.mp hq
      have e := List.flatMap_eq_nil_iff.mp h2 S hS
      have hu := hs.uniform S hS
      generalize hp : S.phase = q at hu
      cases hu with
      | fresh => exact Or.inl rfl
      | gone => exact Or.inr rfl
      | alive => simp [System.objs, objs] at e
    · obtain ⟨K, hK, rfl⟩ := List.mem_map.mp hr
      have e := List.flatMap_eq_nil_iff.mp h3 K hK
      cases hx : K.ksp with
      | garbage => simp [solverPhase, hx]
      | null => simp [solverPhase, hx]
      | obj j => simp [objs, hx] at e
  · rintro ⟨h1, h2, h3⟩ i
    have hL : L = [] := by simpa [phases] using h1
    subst hL
    have hO : owners st ++ [] = [] := by
      rw [List.append_nil, owners, List.append_eq_nil_iff, List.flatMap_eq_nil_iff, List.flatMap_eq_nil_iff]
      refine ⟨fun S hS => ?_, fun K hK => ?_⟩
      · have h4 := h2 _ (List.mem_map_of_mem hS)
        have hu := hs.uniform S hS
        generalize hp : S.phase = q at hu h4
        cases hu with
        | fresh => rfl
        | gone => rfl
        | alive => simp at h4
      · have h4 := h3 _ (List.mem_map_of_mem hK)
        cases hx : K.ksp with
        | garbage => rfl
        | null => rfl
        | obj j =>
          simp only [solverPhase, hx] at h4
          split at h4 <;> simp at h4
    rw [hs.heap.refs i, hO]
    rfl

end Mito.Handles
