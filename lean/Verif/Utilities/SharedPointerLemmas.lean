import Verif.Spec.SharedPointer
import Mathlib.Tactic.Ring

/-! # Helper lemmas for reference counting -/

set_option linter.unusedSimpArgs false

namespace Mito.SharedPointer

@[simp] theorem count_release (s : State) (h : Option Res) (r : Res) :
    (release s h).count r = s.count r - (if h = some r then 1 else 0) := by
  cases h with
  | none => simp [release]
  | some x =>
    simp only [release, releaseRes, Option.some.injEq]
    by_cases e : r = x
    · simp [e]
    · simp [e, Ne.symm e, eq_comm]

@[simp] theorem live_release (s : State) (h : Option Res) : (release s h).live = s.live := by
  cases h <;> rfl
@[simp] theorem handle_release (s : State) (h : Option Res) : (release s h).handle = s.handle := by
  cases h <;> rfl

theorem holders_insert (s t : State) (v : Var) (h : Option Res) (r : Res) (hv : v ∉ s.live)
    (hl : t.live = insert v s.live)
    (hh : t.handle = fun x => if x = v then h else s.handle x) :
    ((holders t r).card : Int) = (holders s r).card + (if h = some r then 1 else 0) := by
  have e : holders t r = (if h = some r then insert v (holders s r) else holders s r) := by
    ext x
    by_cases hx : x = v
    · subst hx
      by_cases e : h = some r <;> simp [holders, hl, hh, e, hv]
    · by_cases e : h = some r <;> simp [holders, hl, hh, e, hx]
  rw [e]
  by_cases e : h = some r
  · rw [if_pos e, if_pos e, Finset.card_insert_of_notMem (by simp [holders, hv])]
    push_cast; ring
  · simp [e]

theorem holders_set (s t : State) (v : Var) (h : Option Res) (r : Res) (hv : v ∈ s.live)
    (hl : t.live = s.live)
    (hh : t.handle = fun x => if x = v then h else s.handle x) :
    ((holders t r).card : Int) = (holders s r).card - (if s.handle v = some r then 1 else 0)
      + (if h = some r then 1 else 0) := by
  have e0 : ((holders s r).erase v).card + (if s.handle v = some r then 1 else 0)
      = (holders s r).card := by
    by_cases e : s.handle v = some r
    · have : v ∈ holders s r := by simp [holders, hv, e]
      rw [if_pos e]; exact Finset.card_erase_add_one this
    · have : v ∉ holders s r := by simp [holders, e]
      simp [e, Finset.erase_eq_of_notMem this]
  have e : holders t r =
      (if h = some r then insert v ((holders s r).erase v) else (holders s r).erase v) := by
    ext x
    by_cases hx : x = v
    · subst hx
      by_cases e : h = some r <;> simp [holders, hl, hh, e, hv]
    · by_cases e : h = some r <;> simp [holders, hl, hh, e, hx]
  rw [e]
  by_cases e : h = some r
  · rw [if_pos e, if_pos e, Finset.card_insert_of_notMem (by simp)]
    push_cast
    rw [← e0]; push_cast; ring
  · rw [if_neg e, if_neg e, ← e0]; push_cast; ring

theorem holders_erase (s t : State) (v : Var) (r : Res) (hv : v ∈ s.live)
    (hl : t.live = s.live.erase v) (hh : t.handle = s.handle) :
    ((holders t r).card : Int) = (holders s r).card - (if s.handle v = some r then 1 else 0) := by
  have e : holders t r = (holders s r).erase v := by
    ext x; simp [holders, hl, hh]; tauto
  rw [e]
  by_cases e : s.handle v = some r
  · have : v ∈ holders s r := by simp [holders, hv, e]
    have := Finset.card_erase_add_one this
    rw [if_pos e, ← this]; push_cast; ring
  · have : v ∉ holders s r := by simp [holders, e]
    simp [e, Finset.erase_eq_of_notMem this]

theorem holders_setHandle (s : State) (v : Var) (h : Option Res) (r : Res) (hv : v ∈ s.live) :
    ((holders (setHandle s v h) r).card : Int) =
      (holders s r).card - (if s.handle v = some r then 1 else 0)
      + (if h = some r then 1 else 0) :=
  holders_set s (setHandle s v h) v h r hv rfl rfl

theorem holders_construct (s : State) (v : Var) (h : Option Res) (r : Res) (hv : v ∉ s.live) :
    ((holders (construct s v h) r).card : Int) =
      (holders s r).card + (if h = some r then 1 else 0) :=
  holders_insert s (construct s v h) v h r hv rfl rfl

@[simp] theorem holders_acquireRes (s : State) (x r : Res) :
    holders (acquireRes s x) r = holders s r := rfl

@[simp] theorem holders_release (s : State) (h : Option Res) (r : Res) :
    holders (release s h) r = holders s r := by cases h <;> rfl

@[simp] theorem count_acquireRes (s : State) (x r : Res) :
    (acquireRes s x).count r = s.count r + (if x = r then 1 else 0) := by
  simp only [acquireRes, eq_comm]
  split <;> simp

@[simp] theorem count_setHandle (s : State) (v : Var) (h : Option Res) :
    (setHandle s v h).count = s.count := rfl
@[simp] theorem count_construct (s : State) (v : Var) (h : Option Res) :
    (construct s v h).count = s.count := rfl

/-- One step changes `count - holders` of `r` by one exactly on a same-resource move. -/
theorem step_excess (s t : State) (op : Op) (r : Res) (h : step s op = .ok t) :
    t.count r - (holders t r).card =
      s.count r - (holders s r).card + (if movesOnto s r op then 1 else 0) := by
  cases op with
  | default v =>
    simp only [step] at h
    split at h <;> simp at h
    rename_i hv
    subst h
    simp [holders_construct s v none r hv, movesOnto]
  | ofHandle v x =>
    simp only [step] at h
    split at h <;> simp [acquire] at h
    rename_i hv
    subst h
    simp [holders_construct s v (some x) r hv, movesOnto]
  | copy v w =>
    simp only [step] at h
    split at h
    · simp at h
    rename_i hv
    push Not at hv
    cases hw : s.handle w with
    | none => simp [hw, acquire] at h
    | some x =>
      simp [hw, acquire] at h
      subst h
      simp [holders_construct s v (some x) r hv.1, movesOnto]
  | move v w =>
    simp only [step] at h
    split at h <;> simp at h
    rename_i hv
    push Not at hv
    subst h
    have hvw : w ≠ v := fun e => hv.1 (e ▸ hv.2)
    rw [holders_setHandle (construct s v (s.handle w)) w none r
        (by simp [construct, setHandle, hv.2]), holders_construct s v (s.handle w) r hv.1]
    simp [construct, setHandle, movesOnto, hvw]
  | copyAssign v w =>
    simp only [step] at h
    split at h
    · simp at h
    rename_i hv
    push Not at hv
    split at h
    · rename_i hne
      cases hw : s.handle w with
      | none => simp [hw, acquire] at h
      | some x =>
        simp [hw, acquire] at h
        subst h
        simp only [holders_acquireRes, count_acquireRes]
        rw [holders_setHandle _ v (some x) r (by simp [hv.1])]
        simp [movesOnto]
    · simp at h; subst h; simp [movesOnto]
  | moveAssign v w =>
    simp only [step] at h
    split at h <;> simp at h
    rename_i hv
    push Not at hv
    subst h
    by_cases hne : s.handle w = s.handle v
    · simp only [hne, if_true]
      rw [holders_setHandle s w none r hv.2]
      simp only [setHandle, movesOnto, hne]
      by_cases e : s.handle v = some r
      · simp [e]; ring
      · simp [e]
    · have hvw : w ≠ v := fun e => hne (e ▸ rfl)
      simp only [hne, if_false]
      rw [holders_setHandle _ w none r (by simp [setHandle, hv.2]),
        holders_setHandle _ v (s.handle w) r (by simp [hv.1])]
      simp only [setHandle, movesOnto, count_release, hvw, if_false, holders_release]
      by_cases e : s.handle v = some r
      · have : s.handle w ≠ some r := fun e' => hne (e' ▸ e.symm)
        simp [e, this]
      · by_cases e' : s.handle w = some r <;> simp [e, e']
  | reset v =>
    simp only [step] at h
    split at h <;> simp at h
    rename_i hv
    subst h
    rw [holders_setHandle _ v none r (by simpa using hv)]
    simp [movesOnto]
  | destroy v =>
    simp only [step] at h
    split at h <;> simp at h
    rename_i hv
    subst h
    rw [holders_erase s _ v r (by simpa using hv) rfl (by simp)]
    simp [movesOnto]

theorem run_excess (s t : State) (ops : List Op) (r : Res) (h : run s ops = .ok t) :
    t.count r - (holders t r).card = s.count r - (holders s r).card + selfMoves s r ops := by
  induction ops generalizing s with
  | nil => simp [run] at h; subst h; simp [selfMoves]
  | cons op ops ih =>
    simp only [run] at h
    cases hs : step s op with
    | ub => simp [hs] at h
    | ok s' =>
      simp only [hs] at h
      rw [ih s' h, step_excess s s' op r hs]
      simp only [selfMoves, hs]
      push_cast; ring

end Mito.SharedPointer
