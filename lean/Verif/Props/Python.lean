import Verif.Extension.PythonLemmas

/-!
# C127: Python programs on the module, and undefined behaviour
-/

namespace Mito.Python

/-! ## Coordinates -/

/-- An item is read exactly at the indices of the array; a negative index, which counts from the end for a tuple, and one past the end are undefined. -/
theorem getItem_defined (x : List α) (i : Int) : (getItem x i).isSome ↔ 0 ≤ i ∧ i < x.length := by
  unfold getItem
  split
  · simp; omega
  · simp only [isSome_getElem?]
    omega

example : getItem [2, 3] 1 = some 3 ∧ getItem [2, 3] (-1) = none ∧ getItem [2, 3] 2 = none := by decide

theorem getItem_nat (x : List α) (i : Nat) : getItem x (i : Int) = x[i]? := by
  rw [getItem, if_neg (by omega), Int.toNat_natCast]

/-- `zip(x, t)` asks the coordinates once more after the tuple is used up: it is defined exactly if the tuple is shorter than the coordinates. -/
theorem zip_first_defined (x : List α) (t : List β) (i : Nat) : (zipFirst x i t).isSome ↔ i + t.length < x.length := by
  induction t generalizing i with
  | nil => simp [zipFirst, getItem_nat]
  | cons b t ih =>
    rw [zipFirst, getItem_nat]
    cases h : x[i]? with
    | none =>
      have := List.getElem?_eq_none_iff.mp h
      simp; omega
    | some a =>
      simp only [Option.bind_some, Option.isSome_map, ih, List.length_cons]
      omega

/-- `zip(t, x)` is defined exactly if the tuple is not longer than the coordinates. -/
theorem zip_second_defined (x : List α) (t : List β) (i : Nat) (hi : i ≤ x.length) : (zipSecond x i t).isSome ↔ i + t.length ≤ x.length := by
  induction t generalizing i with
  | nil => simp [zipSecond, hi]
  | cons b t ih =>
    rw [zipSecond, getItem_nat]
    cases h : x[i]? with
    | none =>
      have := List.getElem?_eq_none_iff.mp h
      simp; omega
    | some a =>
      have := (List.getElem?_eq_some_iff.mp h).1
      simp only [Option.bind_some, Option.isSome_map, List.length_cons]
      rw [ih (i + 1) (by omega)]
      omega

/-- the pairs are those of the lists -/
theorem zip_second_value (x : List α) (t : List β) (i : Nat) (hi : i + t.length ≤ x.length) : zipSecond x i t = some (t.zip (x.drop i)) := by
  induction t generalizing i with
  | nil => simp [zipSecond]
  | cons b t ih =>
    have hlt : i < x.length := by simp at hi; omega
    rw [zipSecond, getItem_nat, List.getElem?_eq_getElem hlt, Option.bind_some, ih (i + 1) (by simp at hi; omega), List.drop_eq_getElem_cons hlt]
    rfl

/-- The repository's own tests tests/mito.ext/coordinates_2D.py:12 and tests/mito.ext/coordinates_3D.py:12 zip coordinates with a tuple of as many numbers, which is undefined. -/
theorem zip_tests_undefined (x : List α) (t : List β) (h : t.length = x.length) : zipFirst x 0 t = none := by
  have := zip_first_defined x t 0
  rw [← Option.not_isSome_iff_eq_none, this]
  omega

/-- With the arguments of `zip` exchanged the tests would be defined, and compare each coordinate with its number. -/
theorem zip_tests_exchanged (x : List α) : zipSecond x 0 x = some (x.zip x) := by
  simpa using zip_second_value x x 0 (by simp)

/-- Unpacking and `list(x)` read the coordinates in order, and then one item that is not there: there is no way to stop. -/
theorem iterate_reads (x : List α) (n : Nat) : iterate x n = if n ≤ x.length then some (x.take n) else none := by
  induction n with
  | zero => simp [iterate]
  | succ n ih =>
    rw [iterate, ih, getItem_nat]
    rcases Nat.lt_trichotomy n x.length with h | h | h
    · rw [if_pos (Nat.le_of_lt h), if_pos (show n + 1 ≤ x.length from h), List.getElem?_eq_getElem h]
      simp [List.take_append_getElem]
    · subst h
      simp
    · rw [if_neg (by omega), if_neg (by omega)]
      rfl

theorem iterate_undefined (x : List α) : ∃ n, iterate x n = none := ⟨x.length + 1, by rw [iterate_reads, if_neg (by omega)]⟩

/-! ## Lifetimes -/

/-- The property fails: the mesh, the coordinate system or the manifold may die before the integrator. -/
theorem lifetimes_fail :
    run State.alive init integrateTest ≠ .undefined ∧
    -- `del mesh` before `integrate`
    run State.alive init [.field 0, .coords 1, .mesh 2 1, .manifold 3 2 1, .integrator 4 3, .delete 2, .integrate 4 0] = .undefined ∧
    -- `del coord_system`
    run State.alive init [.field 0, .coords 1, .mesh 2 1, .manifold 3 2 1, .integrator 4 3, .delete 1, .integrate 4 0] = .undefined ∧
    -- `GaussIntegrator2Triangle2D(ManifoldTriangle2D(mesh, coord_system)).integrate(field)`
    run State.alive init [.field 0, .coords 1, .mesh 2 1, .manifold 3 2 1, .integrator 4 3, .delete 3, .integrate 4 0] = .undefined ∧
    -- the mesh is a temporary
    run State.alive init [.coords 1, .mesh 2 1, .manifold 3 2 1, .delete 2, .integrator 4 3] = .undefined ∧
    -- a new mesh in the variable of the old one
    run State.alive init [.field 0, .coords 1, .mesh 2 1, .manifold 3 2 1, .integrator 4 3, .mesh 2 1, .integrate 4 0] = .undefined := by
  decide

/-- the repository's own program runs -/
theorem integrate_test : ∃ s, run State.alive init integrateTest = .ok s := ⟨_, rfl⟩

/-- Making an integrator is undefined exactly if the mesh or the coordinate system of the manifold is dead. -/
theorem integrator_undefined_iff (s : State) (x v : Nat) :
    step State.alive s (.integrator x v) = .undefined ↔
      ∃ o m c, s.lookup v = some o ∧ s.objs[o]? = some (.manifold m c) ∧ ¬ (s.alive m = true ∧ s.alive c = true) := by
  simp only [step]
  cases hv : s.lookup v with
  | none => simp
  | some o =>
    cases ho : s.objs[o]? with
    | none => simp [ho]
    | some a =>
      cases a with
      | manifold m c =>
        simp only [ho, touchManifold]
        constructor
        · intro h
          refine ⟨o, m, c, rfl, ho, fun hl => ?_⟩
          rw [if_pos (by simp [hl.1, hl.2])] at h
          cases h
        · rintro ⟨o', m', c', ho', hm', hl⟩
          cases ho'
          rw [ho] at hm'
          cases hm'
          rw [if_neg (by simpa using hl)]
      | _ => simp [ho]

/-- Integrating is undefined exactly if the manifold, its mesh or its coordinate system is dead. -/
theorem integrate_undefined_iff {s : State} (ht : s.Typed) (v w : Nat) :
    step State.alive s (.integrate v w) = .undefined ↔
      ∃ i f o m c, s.lookup v = some i ∧ s.lookup w = some f ∧ s.objs[f]? = some .field ∧ s.objs[i]? = some (.integrator o) ∧ s.objs[o]? = some (.manifold m c) ∧
        ¬ (s.alive o = true ∧ s.alive m = true ∧ s.alive c = true) := by
  constructor
  · intro h
    simp only [step] at h
    split at h
    · split at h
      · rename_i o hi hf
        obtain ⟨m, c, hmc⟩ := ht.2 _ _ hi
        refine ⟨_, _, o, m, c, by assumption, by assumption, hf, hi, hmc, fun hl => ?_⟩
        rw [if_pos (by simp [touchManifold, hmc, hl.1, hl.2.1, hl.2.2])] at h
        cases h
      · cases h
    · cases h
  · rintro ⟨i, f, o, m, c, hv, hw, hf, hi, ho, hl⟩
    simp only [step, hv, hw, hi, hf, touchManifold, ho]
    rw [if_neg (by simpa using hl)]

/-- the references of a run are in order, so that the theorem above applies along it -/
theorem run_typed (live : State → Nat → Bool) {s t : State} (h : s.Typed) (p : List Stmt) (hp : run live s p = .ok t) : t.Typed := by
  induction p generalizing s with
  | nil => cases hp; exact h
  | cons c p ih =>
    rw [run] at hp
    cases hc : step live s c with
    | ok u => rw [hc] at hp; exact ih (typed_step live h c hc) hp
    | raised => rw [hc] at hp; cases hp
    | undefined => rw [hc] at hp; cases hp

/-- the variable that a statement binds -/
def Stmt.target : Stmt → Option Nat
  | .coords x | .mesh x _ | .manifold x _ _ | .integrator x _ | .field x | .assign x _ => some x
  | _ => none

/-- no variable is deleted or bound twice -/
def Simple (p : List Stmt) : Prop := (∀ x, Stmt.delete x ∉ p) ∧ (p.filterMap Stmt.target).Nodup

/-- **A program that neither deletes a variable nor binds one twice, and lets none go out of scope, is never undefined.** -/
theorem simple_defined (p : List Stmt) (hp : Simple p) : run State.alive init p ≠ .undefined := by
  suffices H : ∀ (s : State), s.Typed → (∀ o < s.objs.length, s.alive o = true) → (∀ q ∈ s.vars, q.1 ∉ p.filterMap Stmt.target) → run State.alive s p ≠ .undefined from
    H init typed_init (by simp [init]) (by simp [init])
  obtain ⟨hd, hn⟩ := hp
  induction p with
  | nil => intro s _ _ _; simp [run]
  | cons c p ih =>
    intro s ht ha hv
    have hdef : step State.alive s c ≠ .undefined := by
      have hl : ∀ {o : Nat} {a : Obj}, s.objs[o]? = some a → s.alive o = true := fun h => ha _ (List.getElem?_eq_some_iff.mp h).1
      exact step_defined State.alive ht (fun x q m c _ h => ⟨hl (ht.1 q m c h).1, hl (ht.1 q m c h).2⟩)
        (fun x q m a b _ h h' => ⟨hl h', hl (ht.1 m a b h').1, hl (ht.1 m a b h').2⟩) c
    rw [run]
    cases hc : step State.alive s c with
    | raised => simp
    | undefined => exact absurd hc hdef
    | ok t =>
      have hd' : ∀ x, Stmt.delete x ∉ p := fun x h => hd x (List.mem_cons_of_mem _ h)
      have hn' : (p.filterMap Stmt.target).Nodup := by
        rw [List.filterMap_cons] at hn
        split at hn
        · exact hn
        · exact (List.nodup_cons.mp hn).2
      refine ih hd' hn' t (typed_step _ ht c hc) ?_ ?_ <;> clear ih
      all_goals
        have fresh : ∀ x, c.target = some x → x ∉ p.filterMap Stmt.target ∧ s.vars.filter (fun q => !(q.1 == x)) = s.vars := by
          intro x hx
          rw [List.filterMap_cons, hx] at hn hv
          refine ⟨(List.nodup_cons.mp hn).1, List.filter_eq_self.mpr fun q hq => ?_⟩
          have := hv q hq
          simp only [List.mem_cons, not_or] at this
          simpa using this.1
        have hv' : ∀ q ∈ s.vars, q.1 ∉ p.filterMap Stmt.target := by
          intro q hq hmem
          refine hv q hq ?_
          rw [List.filterMap_cons]
          split
          · exact hmem
          · exact List.mem_cons_of_mem _ hmem
        have hnew : ∀ x o, c.target = some x → (∀ a < (s.new x o).objs.length, (s.new x o).alive a = true) ∧ ∀ q ∈ (s.new x o).vars, q.1 ∉ p.filterMap Stmt.target := by
          intro x o hx
          obtain ⟨h1, h2⟩ := fresh x hx
          simp only [State.new, State.bind, State.alive, h2, List.length_append, List.length_singleton, List.any_cons, Bool.or_eq_true, List.mem_cons]
          refine ⟨fun a hlt => ?_, fun q hq => ?_⟩
          · rcases Nat.lt_or_ge a s.objs.length with h | h
            · exact Or.inr (ha a h)
            · exact Or.inl (by simp; omega)
          · rcases hq with rfl | hq
            · exact h1
            · exact hv' q hq
        have hbind : ∀ x o, c.target = some x → (∀ a < (s.bind x o).objs.length, (s.bind x o).alive a = true) ∧ ∀ q ∈ (s.bind x o).vars, q.1 ∉ p.filterMap Stmt.target := by
          intro x o hx
          obtain ⟨h1, h2⟩ := fresh x hx
          simp only [State.bind, State.alive, h2, List.any_cons, Bool.or_eq_true, List.mem_cons]
          refine ⟨fun a hlt => Or.inr (ha a hlt), fun q hq => ?_⟩
          rcases hq with rfl | hq
          · exact h1
          · exact hv' q hq
        cases c with
        | coords x => cases hc; first | exact (hnew x _ rfl).1 | exact (hnew x _ rfl).2
        | field x => cases hc; first | exact (hnew x _ rfl).1 | exact (hnew x _ rfl).2
        | mesh x c =>
          simp only [step] at hc
          split at hc
          · cases hc; first | exact (hnew x _ rfl).1 | exact (hnew x _ rfl).2
          · cases hc
        | manifold x m c =>
          simp only [step] at hc
          split at hc
          · split at hc
            · cases hc; first | exact (hnew x _ rfl).1 | exact (hnew x _ rfl).2
            · cases hc
          · cases hc
        | integrator x m =>
          simp only [step] at hc
          split at hc
          · split at hc
            · split at hc
              · cases hc; first | exact (hnew x _ rfl).1 | exact (hnew x _ rfl).2
              · cases hc
            · cases hc
          · cases hc
        | integrate i f =>
          simp only [step] at hc
          split at hc
          · split at hc
            · split at hc
              · cases hc; first | exact ha | exact hv'
              · cases hc
            · cases hc
          · cases hc
        | assign x y =>
          simp only [step] at hc
          split at hc
          · cases hc; first | exact (hbind x _ rfl).1 | exact (hbind x _ rfl).2
          · cases hc
        | delete x => exact absurd (List.mem_cons_self ..) (hd x)

/-- **With `py::keep_alive` on the constructors no program is undefined**, whatever it deletes and binds. -/
theorem kept_defined (p : List Stmt) : run kept init p ≠ .undefined := by
  suffices H : ∀ s : State, s.Typed → run kept s p ≠ .undefined from H init typed_init
  induction p with
  | nil => intro s _; simp [run]
  | cons c p ih =>
    intro s ht
    have hdef : step kept s c ≠ .undefined := by
      refine step_defined kept ht (fun x q m c hx h => ?_) (fun x q m a b hx h h' => ?_) c
      · exact ⟨kept_one (alive_of_lookup hx) h (by simp [Obj.refs]), kept_one (alive_of_lookup hx) h (by simp [Obj.refs])⟩
      · exact ⟨kept_one (alive_of_lookup hx) h (by simp [Obj.refs]), kept_two (alive_of_lookup hx) h (by simp [Obj.refs]) h' (by simp [Obj.refs]),
          kept_two (alive_of_lookup hx) h (by simp [Obj.refs]) h' (by simp [Obj.refs])⟩
    rw [run]
    cases hc : step kept s c with
    | raised => simp
    | undefined => exact absurd hc hdef
    | ok t => exact ih t (typed_step _ ht c hc)

/-- a program that is undefined today and runs then -/
example : ∃ s, run kept init [.field 0, .coords 1, .mesh 2 1, .manifold 3 2 1, .integrator 4 3, .delete 1, .delete 2, .delete 3, .integrate 4 0] = .ok s := ⟨_, rfl⟩

example : Simple integrateTest := by
  refine ⟨fun x => ?_, ?_⟩
  · simp [integrateTest]
  · decide

/-- Where a program is defined today, it does the same with `keep_alive`. -/
theorem kept_same (p : List Stmt) (s : State) (h : run State.alive s p ≠ .undefined) : run kept s p = run State.alive s p := by
  have touch : ∀ (s : State) (m : Nat), touchManifold (State.alive s) s m = true → touchManifold (kept s) s m = true := by
    intro s m h
    unfold touchManifold at h ⊢
    split at h
    · simp only [Bool.and_eq_true] at h ⊢
      exact ⟨kept_of_alive h.1, kept_of_alive h.2⟩
    · exact h
  induction p generalizing s with
  | nil => rfl
  | cons c p ih =>
    have hdef : step State.alive s c ≠ .undefined := by
      intro hc
      rw [run, hc] at h
      exact h rfl
    have hs : step kept s c = step State.alive s c := by
      cases c with
      | integrator x m =>
        simp only [step] at hdef ⊢
        split
        · split
          · rename_i ho
            simp only [*] at hdef
            split at hdef
            · rename_i hl
              rw [if_pos (touch s _ hl), if_pos hl]
            · exact absurd rfl hdef
          · rfl
        · rfl
      | integrate i f =>
        simp only [step] at hdef ⊢
        split
        · split
          · simp only [*] at hdef
            split at hdef
            · rename_i hl
              have hl' := hl
              simp only [Bool.and_eq_true] at hl
              rw [if_pos (by simp [kept_of_alive hl.1, touch s _ hl.2]), if_pos hl']
            · exact absurd rfl hdef
          · rfl
        · rfl
      | _ => rfl
    rw [run, run, hs]
    rw [run] at h
    cases hc : step State.alive s c with
    | ok t => rw [hc] at h; exact ih t h
    | raised => rfl
    | undefined => rfl

end Mito.Python
