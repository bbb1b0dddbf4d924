import Verif.Spec.Repository
import Verif.Utilities.SharedPointerLemmas
import Verif.Utilities.SegmentedVectorLemmas

/-! # Helper lemmas for repositories -/

set_option linter.unusedSimpArgs false
set_option linter.unusedVariables false

namespace Mito.SharedPointer

/-- client operations never create a pointer to a resource nobody points to -/
theorem step_handles (s t : State) (op : Op) (h : step s op = .ok t)
    (hop : ∀ v r, op ≠ .ofHandle v r) (x : Var) (hx : x ∈ t.live) (r : Res)
    (hr : t.handle x = some r) : ∃ y ∈ s.live, s.handle y = some r := by
  cases op with
  | ofHandle v r => exact absurd rfl (hop v r)
  | default v =>
    simp only [step] at h
    split at h <;> simp at h
    subst h
    by_cases e : x = v
    · simp [construct, setHandle, e] at hr
    · simp [construct, setHandle, e] at hr hx; exact ⟨x, hx, hr⟩
  | copy v w =>
    simp only [step] at h
    split at h
    · simp at h
    rename_i hv
    push Not at hv
    cases hw : s.handle w with
    | none => simp [hw, acquire] at h
    | some y =>
      simp [hw, acquire] at h
      subst h
      by_cases e : x = v
      · simp [acquireRes, construct, setHandle, e] at hr
        exact ⟨w, hv.2, by rw [hw, hr]⟩
      · simp [acquireRes, construct, setHandle, e] at hr hx; exact ⟨x, hx, hr⟩
  | move v w =>
    simp only [step] at h
    split at h <;> simp at h
    rename_i hv
    push Not at hv
    subst h
    by_cases e : x = w
    · simp [construct, setHandle, e] at hr
    · by_cases e' : x = v
      · simp [construct, setHandle, e, e'] at hr
        exact ⟨w, hv.2, hr.2⟩
      · simp [construct, setHandle, e, e'] at hr hx; exact ⟨x, hx, hr⟩
  | copyAssign v w =>
    simp only [step] at h
    split at h
    · simp at h
    rename_i hv
    push Not at hv
    split at h
    · cases hw : s.handle w with
      | none => simp [hw, acquire] at h
      | some y =>
        simp [hw, acquire] at h
        subst h
        by_cases e : x = v
        · simp [acquireRes, setHandle, e] at hr
          exact ⟨w, hv.2, by rw [hw, hr]⟩
        · simp [acquireRes, setHandle, e] at hr hx; exact ⟨x, hx, hr⟩
    · simp at h; subst h; exact ⟨x, hx, hr⟩
  | moveAssign v w =>
    simp only [step] at h
    split at h <;> simp at h
    rename_i hv
    push Not at hv
    subst h
    by_cases e : x = w
    · simp [setHandle, e] at hr
    · split at hr
      · simp [setHandle, e] at hr
        rename_i hne
        simp [setHandle, hne] at hx
        exact ⟨x, hx, hr⟩
      · rename_i hne
        by_cases e' : x = v
        · simp [setHandle, e, e'] at hr
          exact ⟨w, hv.2, hr.2⟩
        · simp [setHandle, e, e'] at hr
          simp [setHandle, hne] at hx
          exact ⟨x, hx, hr⟩
  | reset v =>
    simp only [step] at h
    split at h <;> simp at h
    subst h
    by_cases e : x = v
    · simp [setHandle, e] at hr
    · simp [setHandle, e] at hr hx; exact ⟨x, hx, hr⟩
  | destroy v =>
    simp only [step] at h
    split at h <;> simp at h
    subst h
    simp at hr hx
    exact ⟨x, hx.2, hr⟩

end Mito.SharedPointer

namespace Mito.Repo

open Mito.Alloc
open Mito.SharedPointer (Var Op holders)

/-- invariant of careful clients -/
structure Inv (n : Nat) (s : Repo) (w : World) : Prop where
  reach : Alloc.Reachable n w
  alloc : w.alloc = s.alloc
  live : w.live = s.alive
  noDangling : NoDangling s
  count : ∀ a ∈ s.alive, ((holders s.ptrs a).card : Int) ≤ s.ptrs.count a
  dead : ∀ a, a ∉ s.alive → s.ptrs.count a = 0

theorem holders_dead {s : Repo} (h : NoDangling s) {a : Addr} (ha : a ∉ s.alive) :
    holders s.ptrs a = ∅ := by
  ext v
  simp only [holders, Finset.mem_filter, Finset.notMem_empty, iff_false, not_and]
  intro hv e
  exact ha (h v hv a e)

theorem Inv.init (n : Nat) : Inv n (.init n) ⟨.init n, ∅, [], []⟩ where
  reach := .init
  alloc := rfl
  live := rfl
  noDangling v hv := by simp [Repo.init, SharedPointer.State.init] at hv
  count a ha := by simp [Repo.init] at ha
  dead a _ := rfl

theorem Inv.pointerOp {n : Nat} {s s' : Repo} {w : World} (h : Inv n s w) (op : Op)
    (hc : ClientOp op) (ho : pointerOp s op = some s') : Inv n s' w := by
  unfold Repo.pointerOp at ho
  cases hs : SharedPointer.step s.ptrs op with
  | ub => simp [hs] at ho
  | ok p =>
    simp [hs] at ho
    subst ho
    have hh := SharedPointer.step_handles s.ptrs p op hs
      (by intro v r e; subst e; exact hc)
    have nd : NoDangling { s with ptrs := p } := by
      intro v hv a ha
      obtain ⟨y, hy, hy'⟩ := hh v hv a ha
      exact h.noDangling y hy a hy'
    refine ⟨h.reach, h.alloc, h.live, nd, ?_, ?_⟩
    · intro a ha
      have := SharedPointer.step_excess s.ptrs p op a hs
      have h1 := h.count a ha
      simp only
      have : (0:Int) ≤ if SharedPointer.movesOnto s.ptrs a op then 1 else 0 := by split <;> simp
      omega
    · intro a ha
      have h0 := SharedPointer.step_excess s.ptrs p op a hs
      have h1 := h.dead a ha
      have h2 := holders_dead h.noDangling ha
      have h3 := holders_dead nd ha
      simp only at h3
      have hm : SharedPointer.movesOnto s.ptrs a op = false := by
        cases op with
        | moveAssign v x =>
          simp only [SharedPointer.movesOnto, decide_eq_false_iff_not]
          rintro ⟨e, _⟩
          have hv : v ∈ s.ptrs.live := by
            by_contra hv
            simp [SharedPointer.step, hv] at hs
          exact ha (h.noDangling v hv a e)
        | _ => rfl
      rw [h2, h3, h1, hm] at h0
      simpa using h0

theorem Inv.emplace {n : Nat} (hn : 0 < n) {s : Repo} {w : World} (h : Inv n s w) (v : Var)
    (hv : v ∉ s.ptrs.live) (b : Addr) (hb : FreshBlock s.alloc b) :
    ∃ s', Repo.emplace s v b = some (s', w.loc b) ∧ Inv n s' (w.insert b) ∧
      s'.alive = Insert.insert (w.loc b) s.alive ∧ s'.ptrs.handle v = some (w.loc b) ∧
      s'.ptrs.live = Insert.insert v s.ptrs.live ∧
      (∀ x, x ≠ v → s'.ptrs.handle x = s.ptrs.handle x) ∧ s'.ptrs.count (w.loc b) = 1 ∧
      (∀ a, a ≠ w.loc b → s'.ptrs.count a = s.ptrs.count a) := by
  have hb' : FreshBlock w.alloc b := by rw [h.alloc]; exact hb
  obtain ⟨hnl, -⟩ := h.reach.insert_cases hn b hb'
  have hloc : (locationForPlacement s.alloc b).2.1 = w.loc b := by rw [← h.alloc]; rfl
  have hna : w.loc b ∉ s.alive := by rw [← h.live]; exact hnl
  have hd := holders_dead h.noDangling hna
  refine ⟨_, by
    simp only [Repo.emplace, hloc, hna, if_false, SharedPointer.step, hv,
      SharedPointer.acquire]
    rfl, ?_, rfl, by simp [SharedPointer.acquireRes, SharedPointer.construct,
      SharedPointer.setHandle], rfl, fun x hx => by
      simp [SharedPointer.acquireRes, SharedPointer.construct, SharedPointer.setHandle, hx],
      by simp [SharedPointer.acquireRes, SharedPointer.construct, SharedPointer.setHandle],
      fun a ha => by
      simp [SharedPointer.acquireRes, SharedPointer.construct, SharedPointer.setHandle, ha]⟩
  refine ⟨.insert w b h.reach hb', by simp [World.insert, h.alloc], by
    simp [World.insert, h.live], ?_, ?_, ?_⟩
  · intro x hx a ha
    by_cases e : x = v
    · simp [SharedPointer.acquireRes, SharedPointer.construct, SharedPointer.setHandle, e] at ha
      simp [ha]
    · simp [SharedPointer.acquireRes, SharedPointer.construct, SharedPointer.setHandle, e] at ha hx
      simp [h.noDangling x hx a ha]
  · intro a ha
    simp only [SharedPointer.holders_acquireRes, SharedPointer.count_acquireRes]
    rw [SharedPointer.holders_construct
      { s.ptrs with count := fun x => if x = w.loc b then 0 else s.ptrs.count x } v _ a hv]
    simp only [SharedPointer.count_construct, Option.some.injEq]
    have hh : holders { s.ptrs with count := fun x => if x = w.loc b then 0 else s.ptrs.count x } a
        = holders s.ptrs a := rfl
    rw [hh]
    by_cases e : a = w.loc b
    · subst e; simp [hd]
    · have ha' : a ∈ s.alive := by simpa [e] using ha
      simp [e, Ne.symm e]
      exact h.count a ha'
  · intro a ha
    simp at ha
    simp [SharedPointer.acquireRes, SharedPointer.construct, SharedPointer.setHandle, ha.1,
      h.dead a ha.2]

theorem Inv.erase {n : Nat} {s : Repo} {w : World} (h : Inv n s w) (v : Var)
    (h1 : references s v = some 1) :
    ∃ s' a, Repo.erase s v = some (s', true) ∧ s.ptrs.handle v = some a ∧ a ∈ s.alive ∧
      holders s.ptrs a = {v} ∧ s'.alive = s.alive.erase a ∧ Inv n s' (w.erase a) := by
  unfold references SharedPointer.references at h1
  split at h1
  · rename_i hv
    cases ha : s.ptrs.handle v with
    | none => simp [ha] at h1
    | some a =>
      simp [ha] at h1
      have hal := h.noDangling v hv a ha
      have hc := h.count a hal
      have hmem : v ∈ holders s.ptrs a := by simp [holders, hv, ha]
      have hcard : (holders s.ptrs a).card = 1 := by
        have : 0 < (holders s.ptrs a).card := Finset.card_pos.mpr ⟨v, hmem⟩
        omega
      have hset : holders s.ptrs a = {v} := by
        rw [Finset.card_eq_one] at hcard
        obtain ⟨x, hx⟩ := hcard
        rw [hx] at hmem
        simp at hmem
        rw [hx, hmem]
      have hst : SharedPointer.step s.ptrs (.reset v) = .ok
          (SharedPointer.setHandle (SharedPointer.release s.ptrs (s.ptrs.handle v)) v none) := by
        simp [SharedPointer.step, hv]
      have hex := fun r => SharedPointer.step_excess s.ptrs _ (.reset v) r hst
      have hne : ∀ x ∈ s.ptrs.live, ∀ y, s.ptrs.handle x = some y → x ≠ v → y ≠ a := by
        intro x hx y hy hxv e
        have : x ∈ holders s.ptrs a := by simp [holders, hx, hy, e]
        rw [hset] at this
        exact hxv (by simpa using this)
      have nd : NoDangling ⟨Alloc.erase s.alloc a, SharedPointer.setHandle
          (SharedPointer.release s.ptrs (s.ptrs.handle v)) v none, s.alive.erase a⟩ := by
        intro x hx y hy
        by_cases e : x = v
        · simp [SharedPointer.setHandle, e] at hy
        · simp [SharedPointer.setHandle, e] at hx hy
          simp [hne x hx y hy e, h.noDangling x hx y hy]
      refine ⟨_, a, by simp only [Repo.erase, hv, ha, hal, not_true_eq_false, if_false, hst]; rfl,
        rfl, hal, hset, rfl, ?_⟩
      refine ⟨.erase w a h.reach (by rw [h.live]; exact hal), by simp [World.erase, h.alloc],
        by simp [World.erase, h.live], by rw [← ha]; exact nd, ?_, ?_⟩
      · intro y hy
        have := hex y
        rw [ha] at this
        simp [SharedPointer.movesOnto] at this hy
        have := h.count y hy.2
        simp
        omega
      · intro y hy
        simp [SharedPointer.setHandle, ha]
        by_cases e : a = y
        · subst e; simp [h1]
        · simp at hy
          simp [e]
          exact h.dead y (hy (Ne.symm e))
  · simp at h1

theorem Careful.inv {n : Nat} (hn : 0 < n) {s : Repo} (h : Careful n s) : ∃ w, Inv n s w := by
  induction h with
  | init => exact ⟨_, Inv.init n⟩
  | emplace v b _ hb he ih =>
    obtain ⟨w, hw⟩ := ih
    rename_i s s' a hs
    by_cases hv : v ∈ s.ptrs.live
    · exfalso
      unfold Repo.emplace at he
      simp [SharedPointer.step, hv] at he
    · obtain ⟨s2, h1, h2, _⟩ := hw.emplace hn v hv b hb
      rw [h1] at he
      obtain ⟨rfl, rfl⟩ := by simpa using he
      exact ⟨_, h2⟩
  | pointerOp op _ hc he ih =>
    obtain ⟨w, hw⟩ := ih
    exact ⟨w, hw.pointerOp op hc he⟩
  | erase v _ h1 he ih =>
    obtain ⟨w, hw⟩ := ih
    obtain ⟨s2, a, g1, _, _, _, _, g2⟩ := hw.erase v h1
    rw [g1] at he
    obtain ⟨rfl, rfl⟩ := by simpa using he
    exact ⟨_, g2⟩

end Mito.Repo
