import Verif.Utilities.StdSharedPointer

/-! # C154: the identity of nodes -/

namespace Mito.StdSharedPointer

/-- what holds in every state of a program -/
structure Inv (s : State) : Prop where
  nodup : s.scope.Nodup
  known : ∀ x ∈ s.scope, ∀ r, s.held x = some r → r.address ≠ 0 ∧ r.birth < s.made
  same : ∀ x ∈ s.scope, ∀ y ∈ s.scope, ∀ r q, s.held x = some r → s.held y = some q → (r.address = q.address ↔ r.birth = q.birth)

theorem inv_init : Inv .init := ⟨List.nodup_nil, by simp [State.init], by simp [State.init]⟩

/-- it is enough that every variable refers to something that one referred to before -/
theorem inv_of {s t : State} (h : Inv s) (hn : t.scope.Nodup) (hm : t.made = s.made)
    (hh : ∀ x ∈ t.scope, ∀ r, t.held x = some r → ∃ y ∈ s.scope, s.held y = some r) : Inv t := by
  refine ⟨hn, fun x hx r hr => ?_, fun x hx y hy r q hr hq => ?_⟩
  · obtain ⟨y, hy, e⟩ := hh x hx r hr
    rw [hm]
    exact h.known y hy r e
  · obtain ⟨x', hx', e⟩ := hh x hx r hr
    obtain ⟨y', hy', e'⟩ := hh y hy q hq
    exact h.same x' hx' y' hy' r q e e'

theorem not_occupied {s : State} {a : Nat} (h : s.occupied a = false) {x : Var} (hx : x ∈ s.scope) {r : Resource} (hr : s.held x = some r) :
    r.address ≠ a := by
  intro e
  have := (List.any_eq_false.mp h) x hx
  simp [hr, e] at this

/-- C154.  Every operation keeps the invariant. -/
theorem inv_step {s t : State} (h : Inv s) {o : Op} (e : step s o = some t) : Inv t := by
  cases o with
  | make x a =>
    simp only [step] at e
    split at e
    · cases e
    · rename_i hc
      simp only [not_or, Bool.not_eq_true] at hc
      obtain ⟨hx, ha, ho⟩ := hc
      obtain rfl := Option.some.inj e
      have key : ∀ z ∈ x :: s.scope, ∀ r, (if z = x then some (⟨a, s.made⟩ : Resource) else s.held z) = some r →
          r = ⟨a, s.made⟩ ∨ z ∈ s.scope ∧ s.held z = some r := by
        intro z hz r hr
        by_cases hzx : z = x
        · rw [if_pos hzx] at hr
          exact Or.inl (Option.some.inj hr).symm
        · rw [if_neg hzx] at hr
          exact Or.inr ⟨(List.mem_cons.mp hz).resolve_left hzx, hr⟩
      refine ⟨List.nodup_cons.mpr ⟨hx, h.nodup⟩, fun z hz r hr => ?_, fun z hz y hy r q hr hq => ?_⟩
      · rcases key z hz r hr with rfl | ⟨hz', hr'⟩
        · exact ⟨ha, Nat.lt_succ_self _⟩
        · obtain ⟨h1, h2⟩ := h.known z hz' r hr'
          exact ⟨h1, Nat.lt_succ_of_lt h2⟩
      · rcases key z hz r hr with rfl | ⟨hz', hr'⟩ <;> rcases key y hy q hq with rfl | ⟨hy', hq'⟩
        · simp
        · have h1 := not_occupied ho hy' hq'
          have h2 := (h.known y hy' q hq').2
          constructor
          · intro e; exact absurd e.symm h1
          · intro e; simp only at e; omega
        · have h1 := not_occupied ho hz' hr'
          have h2 := (h.known z hz' r hr').2
          constructor
          · intro e; exact absurd e h1
          · intro e; simp only at e; omega
        · exact h.same z hz' y hy' r q hr' hq'
  | copy x y =>
    simp only [step] at e
    split at e
    · cases e
    · rename_i hc
      simp only [not_or, not_not] at hc
      obtain rfl := Option.some.inj e
      refine inv_of h (List.nodup_cons.mpr ⟨hc.1, h.nodup⟩) rfl fun z hz r hr => ?_
      simp only [State.put] at hr
      split at hr
      · exact ⟨y, hc.2, hr⟩
      · rename_i hzx
        exact ⟨z, (List.mem_cons.mp hz).resolve_left hzx, hr⟩
  | move x y =>
    simp only [step] at e
    split at e
    · cases e
    · rename_i hc
      simp only [not_or, not_not] at hc
      obtain rfl := Option.some.inj e
      refine inv_of h (List.nodup_cons.mpr ⟨hc.1, h.nodup⟩) rfl fun z hz r hr => ?_
      simp only [State.put] at hr
      split at hr
      · exact ⟨y, hc.2, hr⟩
      · rename_i hzx
        split at hr
        · cases hr
        · exact ⟨z, (List.mem_cons.mp hz).resolve_left hzx, hr⟩
  | assign x y =>
    simp only [step] at e
    split at e
    · cases e
    · rename_i hc
      simp only [not_or, not_not] at hc
      obtain rfl := Option.some.inj e
      refine inv_of h h.nodup rfl fun z hz r hr => ?_
      simp only [State.put] at hr hz
      split at hr
      · exact ⟨y, hc.2, hr⟩
      · exact ⟨z, hz, hr⟩
  | moveAssign x y =>
    simp only [step] at e
    split at e
    · cases e
    · rename_i hc
      simp only [not_or, not_not] at hc
      obtain rfl := Option.some.inj e
      refine inv_of h h.nodup rfl fun z hz r hr => ?_
      simp only [State.put] at hr hz
      split at hr
      · exact ⟨y, hc.2, hr⟩
      · split at hr
        · cases hr
        · exact ⟨z, hz, hr⟩
  | drop x =>
    simp only [step] at e
    split at e
    · cases e
    · obtain rfl := Option.some.inj e
      exact inv_of h (h.nodup.erase x) rfl fun z hz r hr => ⟨z, List.mem_of_mem_erase hz, hr⟩

theorem inv_run {s t : State} (h : Inv s) {l : List Op} (e : run s l = some t) : Inv t := by
  induction l generalizing s with
  | nil => exact Option.some.inj e ▸ h
  | cons o l ih =>
    obtain ⟨s', h1, h2⟩ := Option.bind_eq_some_iff.mp e
    exact ih (inv_step h h1) h2

/-- C154.  Two handles are equal exactly if the same call made what they refer to, or both are null. -/
theorem eq_iff {l : List Op} {s : State} (h : run .init l = some s) {x y : Var} (hx : x ∈ s.scope) (hy : y ∈ s.scope) :
    s.eq x y = true ↔ (s.arrow x).map Resource.birth = (s.arrow y).map Resource.birth := by
  have hi := inv_run inv_init h
  unfold State.eq State.id State.arrow
  cases ex : s.held x with
  | none =>
    cases ey : s.held y with
    | none => simp
    | some q => simpa using fun e : 0 = q.address => (hi.known y hy q ey).1 e.symm
  | some r =>
    cases ey : s.held y with
    | none => simpa using (hi.known x hx r ex).1
    | some q => simpa using hi.same x hx y hy r q ex ey

/-- the variable is assigned to, moved from or dropped -/
def Op.touches (x : Var) : Op → Prop
  | .make _ _ | .copy _ _ => False
  | .move _ y => y = x
  | .assign z _ => z = x
  | .moveAssign z y => z = x ∨ y = x
  | .drop z => z = x

/-- C154.  Until then a variable refers to the same resource, and its id is the same. -/
theorem kept {s t : State} {l : List Op} (e : run s l = some t) {x : Var} (hx : x ∈ s.scope) (hl : ∀ o ∈ l, ¬ o.touches x) :
    x ∈ t.scope ∧ t.held x = s.held x ∧ t.id x = s.id x := by
  suffices x ∈ t.scope ∧ t.held x = s.held x from ⟨this.1, this.2, by rw [State.id, State.id, this.2]⟩
  induction l generalizing s with
  | nil => exact Option.some.inj e ▸ ⟨hx, rfl⟩
  | cons o l ih =>
    obtain ⟨s', h1, h2⟩ := Option.bind_eq_some_iff.mp e
    have ho := hl o (by simp)
    suffices hs : x ∈ s'.scope ∧ s'.held x = s.held x by
      have := ih h2 hs.1 fun o' h' => hl o' (by simp [h'])
      exact ⟨this.1, this.2.trans hs.2⟩
    cases o <;> simp only [step] at h1 <;> split at h1 <;> cases h1
    all_goals
      rename_i hc
      simp only [not_or, not_not] at hc
      simp only [Op.touches, not_or] at ho
    · have hne := ne_of_mem_of_not_mem hx hc.1
      exact ⟨by simp [hx], by simp [hne]⟩
    · have hne := ne_of_mem_of_not_mem hx hc.1
      exact ⟨by simp [hx], by simp [State.put, hne]⟩
    · have hne := ne_of_mem_of_not_mem hx hc.1
      exact ⟨by simp [hx], by simp [State.put, hne, Ne.symm ho]⟩
    · exact ⟨hx, by simp [State.put, Ne.symm ho]⟩
    · exact ⟨hx, by simp [State.put, Ne.symm ho.1, Ne.symm ho.2]⟩
    · exact ⟨(List.mem_erase_of_ne (Ne.symm ho)).mpr hx, rfl⟩

/-- C154.  So an id that was read from a handle that is still there identifies the node. -/
theorem id_identifies {l l' : List Op} {s t : State} (h : run .init l = some s) (h' : run s l' = some t) {x y : Var} (hx : x ∈ s.scope)
    (hl : ∀ o ∈ l', ¬ o.touches x) (hy : y ∈ t.scope) {r : Resource} (hr : s.held x = some r) :
    t.id y = s.id x ↔ ∃ q, t.held y = some q ∧ q.birth = r.birth := by
  obtain ⟨k1, k2, k3⟩ := kept h' hx hl
  have hrun : run .init (l ++ l') = some t := by
    clear hx hl hr k1 k2 k3 hy
    revert h
    generalize State.init = u
    induction l generalizing u with
    | nil => intro h; exact Option.some.inj h ▸ h'
    | cons o l ih =>
      intro h
      obtain ⟨u', h1, h2⟩ := Option.bind_eq_some_iff.mp h
      exact Option.bind_eq_some_iff.mpr ⟨u', h1, ih u' h2⟩
  have he := eq_iff hrun hy k1
  rw [State.eq, beq_iff_eq, State.arrow, State.arrow, k2, hr] at he
  rw [← k3, he]
  simp

/-- C154.  The id of a node that is gone does not identify it: a later node may have the same. -/
theorem id_reused : ∃ (l l' : List Op) (s t : State), run .init l = some s ∧ run s l' = some t ∧ 0 ∈ s.scope ∧ 1 ∈ t.scope ∧
    t.id 1 = s.id 0 ∧ (s.held 0).map Resource.birth = some 0 ∧ (t.held 1).map Resource.birth = some 1 :=
  ⟨[.make 0 8], [.drop 0, .make 1 8], _, _, rfl, rfl, by decide, by decide, by decide, by decide, by decide⟩

/-- C154.  Only moves make null handles. -/
theorem no_null {l : List Op} {s : State} (h : run .init l = some s) (hl : ∀ o ∈ l, ∀ x y, o ≠ .move x y ∧ o ≠ .moveAssign x y) :
    ∀ x ∈ s.scope, (s.arrow x).isSome = true := by
  have hi : ∀ x ∈ State.init.scope, (State.init.arrow x).isSome = true := by simp [State.init]
  revert h hi
  generalize State.init = u
  induction l generalizing u with
  | nil => intro h hi; exact Option.some.inj h ▸ hi
  | cons o l ih =>
    intro h hi
    obtain ⟨u', h1, h2⟩ := Option.bind_eq_some_iff.mp h
    refine ih (fun o' h' => hl o' (by simp [h'])) u' h2 fun z hz => ?_
    have ho := hl o (by simp)
    simp only [State.arrow] at hi ⊢
    cases o <;> simp only [step] at h1 <;> split at h1 <;> cases h1
    all_goals
      rename_i hc
      simp only [not_or, not_not] at hc
    · simp only at hz ⊢
      split
      · rfl
      · rename_i hzx
        exact hi z ((List.mem_cons.mp hz).resolve_left hzx)
    · simp only [State.put] at hz ⊢
      split
      · exact hi _ hc.2
      · rename_i hzx
        exact hi z ((List.mem_cons.mp hz).resolve_left hzx)
    · exact absurd rfl (ho _ _).1
    · simp only [State.put] at hz ⊢
      split
      · exact hi _ hc.2
      · exact hi z hz
    · exact absurd rfl (ho _ _).2
    · exact hi z (List.mem_of_mem_erase hz)

/-- C154.  A copy refers to the same resource and leaves its source as it is; a move leaves its source null, unless it is onto itself. -/
theorem copies_and_moves {s t : State} {x y : Var} :
    (step s (.copy x y) = some t ∨ step s (.assign x y) = some t → t.arrow x = s.arrow y ∧ t.arrow y = s.arrow y) ∧
    (step s (.move x y) = some t ∨ step s (.moveAssign x y) = some t →
      t.arrow x = s.arrow y ∧ t.arrow y = if x = y then s.arrow y else none) := by
  constructor
  · rintro (h | h) <;> simp only [step] at h <;> split at h <;> cases h <;>
      exact ⟨by simp [State.put, State.arrow], by simp [State.put, State.arrow]⟩
  · rintro (h | h) <;> simp only [step] at h <;> split at h <;> cases h <;>
      refine ⟨by simp [State.put, State.arrow], ?_⟩ <;> by_cases e : x = y
    all_goals first | (subst e; simp [State.put, State.arrow]) | simp [State.put, State.arrow, e, Ne.symm e]

/-- C154.  Handles that were moved from are null, all equal to each other, and not to be used; assigned to itself by a move, a handle keeps its
resource. -/
theorem moved_from : ∃ s, run .init [.make 0 8, .make 1 16, .move 2 0, .move 3 1, .moveAssign 2 2] = some s ∧ s.eq 0 1 = true ∧
    s.arrow 0 = none ∧ s.arrow 1 = none ∧ s.eq 2 3 = false ∧ s.arrow 2 = some ⟨8, 0⟩ ∧ s.arrow 3 = some ⟨16, 1⟩ :=
  ⟨_, rfl, by decide, by decide, by decide, by decide, by decide, by decide⟩

/-- non-vacuity: two nodes, copies and an assignment -/
example : ∃ s, run .init [.make 0 8, .make 1 16, .copy 2 0, .assign 1 2, .drop 0, .make 3 16] = some s ∧ s.eq 1 2 = true ∧ s.eq 1 3 = false :=
  ⟨_, rfl, by decide, by decide⟩

end Mito.StdSharedPointer
