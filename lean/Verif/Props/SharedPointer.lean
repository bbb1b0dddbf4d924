import Verif.Utilities.SharedPointerLemmas

/-!
# C01, C02: reference counts

Specification: `Verif/Spec/SharedPointer.lean`.
-/

set_option linter.unusedSimpArgs false

namespace Mito.SharedPointer

/-! ## C01 -/

/-- **C01, exact form.**  For every history of pointer operations without undefined behaviour, the
count of every resource is the number of live pointers holding it *plus* the number of times a
pointer to it was move-assigned onto a pointer to it. -/
theorem references_eq_holders_add_selfMoves (ops : List Op) (t : State)
    (h : run .init ops = .ok t) (r : Res) :
    t.count r = (holders t r).card + selfMoves .init r ops := by
  have := run_excess .init t ops r h
  simp [State.init, holders] at this
  unfold holders State.init
  omega

/-- **C01.**  In every history without undefined behaviour that never move-assigns a pointer onto a
pointer to the same resource, `references()` called on any live non-null pointer is the number of
live pointers to that resource. -/
theorem references_exact_partial (ops : List Op) (t : State)
    (h : run .init ops = .ok t) (v : Var) (hv : v ∈ t.live) (r : Res) (hr : t.handle v = some r)
    (hm : selfMoves .init r ops = 0) :
    references t v = some ((holders t r).card : Int) := by
  have := references_eq_holders_add_selfMoves ops t h r
  simp [references, hv, hr, this, hm]

/-- **C01.**  Counts never drop below the number of holders: no history makes a resource that is
still held look unused. -/
theorem held_resource_isValid (ops : List Op) (t : State)
    (h : run .init ops = .ok t) (v : Var) (hv : v ∈ t.live) (r : Res) (hr : t.handle v = some r) :
    isValid t r = true := by
  have := references_eq_holders_add_selfMoves ops t h r
  have hc : 0 < (holders t r).card := Finset.card_pos.mpr ⟨v, by simp [holders, hv, hr]⟩
  simp only [isValid, decide_eq_true_eq]
  omega

/-- **C01.**  Without same-resource moves, a resource counts as used exactly if somebody holds it. -/
theorem isValid_iff_held_partial (ops : List Op) (t : State) (h : run .init ops = .ok t) (r : Res)
    (hm : selfMoves .init r ops = 0) :
    isValid t r = true ↔ ∃ v ∈ t.live, t.handle v = some r := by
  have := references_eq_holders_add_selfMoves ops t h r
  simp only [isValid, decide_eq_true_eq]
  have hc : 0 < (holders t r).card ↔ ∃ v ∈ t.live, t.handle v = some r := by
    rw [Finset.card_pos]; simp [holders, Finset.Nonempty]
  rw [← hc]; omega

/-- a history that copies, moves between different resources, resets and destroys -/
def sampleHistory : List Op :=
  [.ofHandle 0 7, .copy 1 0, .ofHandle 2 8, .moveAssign 2 1, .copyAssign 1 0, .default 3,
   .copyAssign 3 2, .reset 0, .destroy 2]

/-- the hypotheses of the theorems above are met by a non-trivial history -/
example : ∃ t, run .init sampleHistory = .ok t ∧ selfMoves .init 7 sampleHistory = 0 ∧
    references t 1 = some 2 ∧ (holders t 7).card = 2 :=
  ⟨_, rfl, by decide, by decide, by decide⟩

/-- **C01, unrestricted form is false.**  `p = std::move(p)`: nobody holds the resource any more and
its count is still one. -/
theorem references_not_exact_selfMove :
    ∃ (ops : List Op) (t : State), run .init ops = .ok t ∧
      (holders t 7).card = 0 ∧ t.count 7 = 1 ∧ isValid t 7 = true :=
  ⟨[.ofHandle 0 7, .moveAssign 0 0], _, rfl, by decide, by decide, by decide⟩

/-- **C01, unrestricted form is false** also for two distinct pointers: after `p = std::move(q)`
where both hold the same resource, one pointer is left and `references()` answers two. -/
theorem references_not_exact_sameResourceMove :
    ∃ (ops : List Op) (t : State), run .init ops = .ok t ∧
      holders t 7 = {0} ∧ references t 0 = some 2 :=
  ⟨[.ofHandle 0 7, .copy 1 0, .moveAssign 0 1], _, rfl, by decide, by decide⟩

/-! ## C02 -/

/-- **C02.**  Move construction transfers the handle and leaves all counts alone. -/
theorem move_transfers (s : State) (v w : Var) (hv : v ∉ s.live) (hw : w ∈ s.live) :
    ∃ t, step s (.move v w) = .ok t ∧ t.live = insert v s.live ∧
      t.handle v = s.handle w ∧ t.handle w = none ∧
      (∀ x, x ≠ v → x ≠ w → t.handle x = s.handle x) ∧ t.count = s.count := by
  have hvw : v ≠ w := fun e => hv (e ▸ hw)
  refine ⟨setHandle (construct s v (s.handle w)) w none, by simp [step, hv, hw], rfl, by simp [setHandle, construct, hvw], by simp [setHandle],
    fun x h1 h2 => by simp [setHandle, construct, h1, h2], rfl⟩

/-- **C02.**  Move assignment between pointers with different handles transfers the handle, releases
the overwritten one and leaves all other counts alone. -/
theorem moveAssign_transfers (s : State) (v w : Var) (hv : v ∈ s.live) (hw : w ∈ s.live)
    (hne : s.handle v ≠ s.handle w) :
    ∃ t, step s (.moveAssign v w) = .ok t ∧ t.live = s.live ∧
      t.handle v = s.handle w ∧ t.handle w = none ∧
      (∀ x, x ≠ v → x ≠ w → t.handle x = s.handle x) ∧
      ∀ r, t.count r = s.count r - (if s.handle v = some r then 1 else 0) := by
  have hvw : v ≠ w := fun e => hne (e ▸ rfl)
  refine ⟨_, by simp [step, hv, hw, Ne.symm hne]; rfl, ?_⟩
  refine ⟨by simp [setHandle], by simp [setHandle, hvw], by simp [setHandle],
    fun x h1 h2 => by simp [setHandle, h1, h2], fun r => by simp [setHandle]⟩

/-- **C02.**  Copy construction from a non-null pointer adds exactly one reference. -/
theorem copy_adds_one (s : State) (v w : Var) (hv : v ∉ s.live) (hw : w ∈ s.live) (r : Res)
    (hr : s.handle w = some r) :
    ∃ t, step s (.copy v w) = .ok t ∧ t.live = insert v s.live ∧
      t.handle v = some r ∧ (∀ x, x ≠ v → t.handle x = s.handle x) ∧
      ∀ x, t.count x = s.count x + (if x = r then 1 else 0) := by
  refine ⟨_, by simp [step, hv, hw, hr, acquire]; rfl, rfl,
    by simp [acquireRes, construct, setHandle],
    fun x h => by simp [acquireRes, construct, setHandle, h], fun x => ?_⟩
  simp only [acquireRes, construct, setHandle]
  split <;> simp

/-- **C02.**  Copy assignment from a non-null pointer: one reference moves from the overwritten
resource (if any) to the new one; self-assignment and same-resource assignment change nothing. -/
theorem copyAssign_counts (s : State) (v w : Var) (hv : v ∈ s.live) (hw : w ∈ s.live) (r : Res)
    (hr : s.handle w = some r) :
    ∃ t, step s (.copyAssign v w) = .ok t ∧ t.live = s.live ∧
      t.handle v = some r ∧ (∀ x, x ≠ v → t.handle x = s.handle x) ∧
      ∀ x, t.count x = s.count x - (if s.handle v = some x then 1 else 0)
        + (if r = x then 1 else 0) := by
  by_cases e : s.handle v = some r
  · refine ⟨s, by simp [step, hv, hw, hr, e], rfl, e, fun _ _ => rfl, fun x => by
      simp [e]⟩
  · refine ⟨_, by simp [step, hv, hw, hr, acquire, Ne.symm e]; rfl,
      by simp [acquireRes, setHandle],
      by simp [acquireRes, setHandle],
      fun x h => by simp [acquireRes, setHandle, h], fun x => ?_⟩
    simp only [acquireRes, setHandle, count_release]
    by_cases h : x = r
    · simp [h]
    · simp [h, Ne.symm h]

/-- **C02.**  `reset` makes the pointer null and removes exactly one reference if it was not. -/
theorem reset_releases (s : State) (v : Var) (hv : v ∈ s.live) :
    ∃ t, step s (.reset v) = .ok t ∧ t.live = s.live ∧ t.handle v = none ∧
      (∀ x, x ≠ v → t.handle x = s.handle x) ∧
      ∀ r, t.count r = s.count r - (if s.handle v = some r then 1 else 0) :=
  ⟨_, by simp [step, hv]; rfl, by simp [setHandle], by simp [setHandle],
    fun x h => by simp [setHandle, h], fun r => by simp [setHandle]⟩

/-- **C02.**  Destruction removes exactly one reference if the pointer was not null. -/
theorem destroy_releases (s : State) (v : Var) (hv : v ∈ s.live) :
    ∃ t, step s (.destroy v) = .ok t ∧ t.live = s.live.erase v ∧
      (∀ x, x ≠ v → t.handle x = s.handle x) ∧
      ∀ r, t.count r = s.count r - (if s.handle v = some r then 1 else 0) :=
  ⟨_, by simp [step, hv]; rfl, by simp, fun x _ => by simp, fun r => by simp⟩

/-- **C02.**  Copying a null pointer is undefined behaviour, whatever the rest of the state. -/
theorem copy_null_ub (s : State) (v w : Var) (hv : v ∉ s.live) (hw : w ∈ s.live)
    (hn : s.handle w = none) : step s (.copy v w) = .ub := by
  simp [step, hv, hw, hn, acquire]

/-- **C02.**  Assigning a null pointer to a non-null one is undefined behaviour. -/
theorem copyAssign_null_ub (s : State) (v w : Var) (hv : v ∈ s.live) (hw : w ∈ s.live)
    (hn : s.handle w = none) (hr : s.handle v ≠ none) : step s (.copyAssign v w) = .ub := by
  simp [step, hv, hw, hn, acquire, Ne.symm hr]

/-- **C02.**  The only other sources of undefined behaviour are lifetime errors: an operation whose
pointer arguments are alive (and whose new pointer is not) and that copies no null pointer
succeeds. -/
theorem step_ok_iff (s : State) (op : Op) :
    (∃ t, step s op = .ok t) ↔
      match op with
      | .default v | .ofHandle v _ => v ∉ s.live
      | .copy v w => v ∉ s.live ∧ w ∈ s.live ∧ s.handle w ≠ none
      | .move v w => v ∉ s.live ∧ w ∈ s.live
      | .copyAssign v w => v ∈ s.live ∧ w ∈ s.live ∧ (s.handle w ≠ none ∨ s.handle v = none)
      | .moveAssign v w => v ∈ s.live ∧ w ∈ s.live
      | .reset v | .destroy v => v ∈ s.live := by
  cases op with
  | default v => by_cases hv : v ∈ s.live <;> simp [step, hv]
  | ofHandle v r => by_cases hv : v ∈ s.live <;> simp [step, hv, acquire]
  | copy v w =>
    by_cases hv : v ∈ s.live <;> by_cases hw : w ∈ s.live <;>
      cases hh : s.handle w <;> simp [step, hv, hw, hh, acquire]
  | move v w => by_cases hv : v ∈ s.live <;> by_cases hw : w ∈ s.live <;> simp [step, hv, hw]
  | copyAssign v w =>
    by_cases hv : v ∈ s.live <;> by_cases hw : w ∈ s.live <;>
      cases hh : s.handle w <;> cases hh' : s.handle v <;>
        simp [step, hv, hw, hh, hh', acquire]
    rename_i a b
    by_cases e : a = b <;> simp [e]
  | moveAssign v w => by_cases hv : v ∈ s.live <;> by_cases hw : w ∈ s.live <;> simp [step, hv, hw]
  | reset v => by_cases hv : v ∈ s.live <;> simp [step, hv]
  | destroy v => by_cases hv : v ∈ s.live <;> simp [step, hv]

/-- **C02.**  Which pointers `is_nullptr` after an operation: the default constructed, the reset and the
moved-from ones, and the targets of null sources; nothing else changes. -/
theorem isNullptr_step (s t : State) (op : Op) (h : step s op = .ok t) (x : Var) :
    isNullptr t x =
      match op with
      | .default v => x = v || isNullptr s x
      | .ofHandle v _ => x ≠ v && isNullptr s x
      | .copy v _ => x ≠ v && isNullptr s x
      | .move v w => x = w || (if x = v then isNullptr s w else isNullptr s x)
      | .copyAssign v w => if x = v then isNullptr s w else isNullptr s x
      | .moveAssign v w => x = w || (if x = v then isNullptr s w else isNullptr s x)
      | .reset v => x = v || isNullptr s x
      | .destroy _ => isNullptr s x := by
  have hok := (step_ok_iff s op).mp ⟨t, h⟩
  cases op with
  | default v =>
    simp only [step, hok, if_false, Outcome.ok.injEq] at h
    subst h
    by_cases e : x = v <;> simp [isNullptr, construct, setHandle, e]
  | ofHandle v r =>
    simp only [step, hok, if_false, acquire, Outcome.ok.injEq] at h
    subst h
    by_cases e : x = v <;> simp [isNullptr, acquireRes, construct, setHandle, e]
  | copy v w =>
    obtain ⟨r, hr⟩ := Option.ne_none_iff_exists'.mp hok.2.2
    simp only [step, hok.1, hok.2.1, not_true_eq_false, or_self, if_false, hr, acquire,
      Outcome.ok.injEq] at h
    subst h
    by_cases e : x = v <;> simp [isNullptr, acquireRes, construct, setHandle, e]
  | move v w =>
    simp only [step, hok.1, hok.2, not_true_eq_false, or_self, if_false, Outcome.ok.injEq] at h
    subst h
    by_cases e : x = v <;> by_cases e' : x = w <;> simp [isNullptr, construct, setHandle, e, e']
    all_goals (by_cases e'' : v = w <;> simp_all)
  | copyAssign v w =>
    obtain ⟨t', h1, h2, h3, h4, h5⟩ : ∃ t', step s (.copyAssign v w) = .ok t' ∧ True ∧
        t'.handle v = s.handle w ∧ (∀ x, x ≠ v → t'.handle x = s.handle x) ∧ True := by
      cases hw : s.handle w with
      | some r =>
        obtain ⟨t', a, _, b, c, _⟩ := copyAssign_counts s v w hok.1 hok.2.1 r hw
        exact ⟨t', a, trivial, b, c, trivial⟩
      | none =>
        have hv : s.handle v = none := hok.2.2.resolve_left (by simp [hw])
        exact ⟨s, by simp [step, hok.1, hok.2.1, hw, hv], trivial, hv, fun _ _ => rfl, trivial⟩
    rw [h] at h1
    obtain rfl : t = t' := by simpa using h1
    by_cases e : x = v
    · simp [isNullptr, e, h3]
    · simp [isNullptr, e, h4 x e]
  | moveAssign v w =>
    simp only [step, hok.1, hok.2, not_true_eq_false, or_self, if_false, Outcome.ok.injEq] at h
    subst h
    by_cases hh : s.handle w = s.handle v
    · by_cases e : x = w
      · simp [isNullptr, setHandle, e]
      · by_cases e' : x = v
        · simp [isNullptr, setHandle, hh, e', show v ≠ w from e' ▸ e]
        · simp [isNullptr, setHandle, hh, e, e']
    · by_cases e : x = w
      · simp [isNullptr, setHandle, e]
      · by_cases e' : x = v
        · simp [isNullptr, setHandle, hh, e', show v ≠ w from e' ▸ e]
        · simp [isNullptr, setHandle, hh, e, e']
  | reset v =>
    obtain ⟨t', h1, _, h3, h4, _⟩ := reset_releases s v hok
    rw [h] at h1
    obtain rfl : t = t' := by simpa using h1
    by_cases e : x = v
    · simp [isNullptr, e, h3]
    · simp [isNullptr, e, h4 x e]
  | destroy v =>
    simp only [step, show v ∈ s.live from hok, not_true_eq_false, if_false, Outcome.ok.injEq] at h
    subst h
    simp [isNullptr]

/-- **C02.**  `references` may be asked of exactly the live pointers that are not null. -/
theorem references_defined_iff (s : State) (v : Var) :
    (∃ n, references s v = some n) ↔ v ∈ s.live ∧ isNullptr s v = false := by
  by_cases hv : v ∈ s.live <;> cases hh : s.handle v <;> simp [references, isNullptr, hv, hh]

example : ∃ s t, run .init sampleHistory = .ok s ∧ step s (.moveAssign 1 3) = .ok t ∧
    isNullptr s 3 = false ∧ isNullptr t 3 = true ∧ isNullptr t 1 = false :=
  ⟨_, _, rfl, rfl, by decide, by decide, by decide⟩

end Mito.SharedPointer
