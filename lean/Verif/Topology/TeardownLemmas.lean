import Verif.Spec.Teardown
import Verif.Topology.HistoryLemmas

/-!
# Lemmas for the end of the topology
-/

namespace Mito.Topology

/-! ### The data in the slots -/

/-- `t'` has more simplices than `t`, and differs in the data of simplices alive in `t'` only -/
structure Grow (t t' : Topo) : Prop where
  fps : ∀ N, (t.lvl N).fps ⊆ (t'.lvl N).fps
  ors : ∀ N, (t.lvl N).ors ⊆ (t'.lvl N).ors
  comp : ∀ N f, t'.compF N f = t.compF N f ∨ f ∈ (t'.lvl N).fps
  ofp : ∀ N o, t'.fp N o = t.fp N o ∨ o ∈ (t'.lvl N).ors

theorem Grow.refl (t : Topo) : Grow t t :=
  ⟨fun _ => subset_rfl, fun _ => subset_rfl, fun _ _ => .inl rfl, fun _ _ => .inl rfl⟩

theorem Grow.trans {t t' t'' : Topo} (h : Grow t t') (h' : Grow t' t'') : Grow t t'' where
  fps N := (h.fps N).trans (h'.fps N)
  ors N := (h.ors N).trans (h'.ors N)
  comp N f := by
    rcases h'.comp N f with e | e
    · rcases h.comp N f with e' | e'
      · exact .inl (e.trans e')
      · exact .inr (h'.fps N e')
    · exact .inr e
  ofp N f := by
    rcases h'.ofp N f with e | e
    · rcases h.ofp N f with e' | e'
      · exact .inl (e.trans e')
      · exact .inr (h'.ors N e')
    · exact .inr e

theorem Grow.of_lvl {t t' : Topo} (h : t'.lvl = t.lvl) : Grow t t' := by
  constructor
  · intro N; rw [h]
  · intro N; rw [h]
  · intro N f; left; unfold Topo.compF; rw [h]
  · intro N f; left; unfold Topo.fp; rw [h]

theorem Grow.orientedF {t t' : Topo} {N : Nat} {f : Id} {s : Int} {o : Id}
    (h : t.orientedF N f s = some (t', o)) : Grow t t' := by
  rcases orientedF_cases h with ⟨_, rfl⟩ | ⟨_, hi, rest, _, rfl⟩
  · exact Grow.refl _
  · have hle := addO_le (f := f) (s := s) (rest := rest) hi
    refine ⟨hle.fps, hle.ors, fun M g => ?_, fun M g => ?_⟩
    · left
      unfold Topo.compF Topo.addO
      by_cases e : M = N
      · subst e; simp
      · simp [e]
    · unfold Topo.fp Topo.addO
      by_cases e : M = N
      · subst e
        by_cases e' : g = o
        · right; simp [e']
        · left; simp [e']
      · left; simp [e]

theorem Grow.simplexF {t t' : Topo} {N : Nat} {c : List Id} {f : Id}
    (h : t.simplexF N c = some (t', f)) : Grow t t' := by
  rcases simplexF_cases h with ⟨_, rfl⟩ | ⟨_, hi, rest, _, rfl⟩
  · exact Grow.refl _
  · have hle := addF_le (c := c) (k := t.representative N c) (rest := rest) hi
    refine ⟨hle.fps, hle.ors, fun M g => ?_, fun M g => ?_⟩
    · unfold Topo.compF Topo.addF
      by_cases e : M = N + 1
      · subst e
        by_cases e' : g = f
        · right; simp [e']
        · left; simp [e']
      · left; simp [e]
    · left
      unfold Topo.fp Topo.addF
      by_cases e : M = N + 1
      · subst e; simp
      · simp [e]

theorem Grow.simplex {t t' : Topo} {N : Nat} {c : List Id} {o : Id}
    (h : t.simplex N c = some (t', o)) : Grow t t' := by
  unfold Topo.simplex at h
  split at h
  · split at h
    · simp at h
    · rename_i t1 f h1
      split at h
      · simp at h
      · exact (Grow.simplexF h1).trans (Grow.orientedF h)
  · simp at h

theorem Grow.segment {t t' : Topo} {a b o : Id} (h : t.segment a b = some (t', o)) : Grow t t' := by
  unfold Topo.segment at h
  split at h
  · simp at h
  · rename_i h1
    split at h
    · simp at h
    · rename_i h2
      exact ((Grow.orientedF h1).trans (Grow.orientedF h2)).trans (Grow.simplex h)

theorem Grow.triangle {t t' : Topo} {a b c o : Id} (h : t.triangle a b c = some (t', o)) :
    Grow t t' := by
  unfold Topo.triangle at h
  split at h
  · simp at h
  · rename_i h1
    split at h
    · simp at h
    · rename_i h2
      split at h
      · simp at h
      · rename_i h3
        exact (((Grow.segment h1).trans (Grow.segment h2)).trans (Grow.segment h3)).trans
          (Grow.simplex h)

theorem Grow.tetrahedron {t t' : Topo} {a b c d o : Id}
    (h : t.tetrahedron a b c d = some (t', o)) : Grow t t' := by
  unfold Topo.tetrahedron at h
  split at h
  · simp at h
  · rename_i h1
    split at h
    · simp at h
    · rename_i h2
      split at h
      · simp at h
      · rename_i h3
        split at h
        · simp at h
        · rename_i h4
          exact ((((Grow.triangle h1).trans (Grow.triangle h2)).trans (Grow.triangle h3)).trans
            (Grow.triangle h4)).trans (Grow.simplex h)

theorem Grow.vertex {t t' : Topo} {v : Id} (h : t.vertex = some (t', v)) : Grow t t' := by
  unfold Topo.vertex Topo.emplaceF at h
  split at h
  · simp at h
  · rename_i i rest hs
    split at h
    · simp at h
    · simp only [Option.some.injEq, Prod.mk.injEq] at h
      obtain ⟨rfl, rfl⟩ := h
      refine ⟨fun M => ?_, fun M => ?_, fun M g => ?_, fun M g => ?_⟩
      · by_cases e : M = 0
        · subst e; simp [Topo.setLvl]
        · simp [Topo.setLvl, e]
      · by_cases e : M = 0
        · subst e; simp [Topo.setLvl]
        · simp [Topo.setLvl, e]
      · unfold Topo.compF Topo.setLvl
        by_cases e : M = 0
        · subst e
          by_cases e' : g = i
          · right; simp [e']
          · left; simp [e']
        · left; simp [e]
      · left
        unfold Topo.fp Topo.setLvl
        by_cases e : M = 0
        · subst e; simp
        · simp [e]

/-- one operation adds simplices or only removes some -/
theorem step_grow {t t' : Topo} (h : Ok t) {op : Op} (hs : step t op = some t') :
    Grow t t' ∨ (t'.compF = t.compF ∧ t'.fp = t.fp) := by
  have keep_grow : ∀ {N : Nat} {r : Option (Topo × Id)} {t' : Topo}, keep N r = some t' →
      (∀ t1 o, r = some (t1, o) → Grow t t1) → Grow t t' := by
    intro N r t' hk hr
    unfold keep at hk
    split at hk
    · simp at hk
    · rename_i t1 o
      simp at hk
      rw [← hk]; exact (hr t1 o rfl).trans (Grow.of_lvl rfl)
  unfold step at hs
  split at hs
  · left
    split at hs
    · simp at hs
    · rename_i t1 v hv
      simp at hs
      rw [← hs]
      exact (Grow.vertex hv).trans (Grow.of_lvl rfl)
  · left
    split at hs
    · exact keep_grow hs fun t1 o hr => Grow.orientedF hr
    · simp at hs
  · left
    split at hs
    · exact keep_grow hs fun t1 o hr => Grow.simplex hr
    · simp at hs
  · left
    split at hs
    · exact keep_grow hs fun t1 o hr => Grow.segment hr
    · simp at hs
  · left
    split at hs
    · exact keep_grow hs fun t1 o hr => Grow.triangle hr
    · simp at hs
  · left
    split at hs
    · exact keep_grow hs fun t1 o hr => Grow.tetrahedron hr
    · simp at hs
  · left
    split at hs
    · exact keep_grow hs fun t1 o hr => Grow.orientedF hr
    · simp at hs
  · left
    split at hs
    · simp at hs; rw [← hs]; exact Grow.of_lvl rfl
    · simp at hs
  · left
    split at hs
    · simp at hs; rw [← hs]; exact Grow.of_lvl rfl
    · simp at hs
  · left
    split at hs
    · simp at hs; rw [← hs]; exact Grow.of_lvl rfl
    · simp at hs
  · left
    split at hs
    · simp at hs; rw [← hs]; exact Grow.of_lvl rfl
    · simp at hs
  · right
    split at hs
    · rename_i hc
      simp at hs
      have := (erase_spec _ t _ h.inv hc).shr
      rw [← hs]; exact ⟨this.compF, this.fp⟩
    · simp at hs

/-- sets of slots, such that the pointers in them point to such slots -/
structure Closed (t : Topo) (uO uF : Nat → Id → Prop) : Prop where
  liveO : ∀ N, ∀ o ∈ (t.lvl N).ors, uO N o
  liveF : ∀ N, ∀ f ∈ (t.lvl N).fps, uF N f
  ofp : ∀ N o, uO N o → uF N (t.fp N o)
  comp : ∀ N f, uF (N + 1) f → ∀ x ∈ t.compF (N + 1) f, uO N x

theorem Closed.step {t t' : Topo} {uO uF : Nat → Id → Prop} (hc : Closed t uO uF) (h : Ok t)
    {op : Op} (hs : step t op = some t') :
    Closed t' (fun N o => uO N o ∨ o ∈ (t'.lvl N).ors) (fun N f => uF N f ∨ f ∈ (t'.lvl N).fps) := by
  have h' := (step_ok h hs).inv
  refine ⟨fun N o ho => .inr ho, fun N f hf => .inr hf, fun N o ho => ?_, fun N f hf x hx => ?_⟩
  · by_cases hl : o ∈ (t'.lvl N).ors
    · exact .inr (h'.fp_live N o hl)
    · have ho' : uO N o := ho.resolve_right hl
      left
      rcases step_grow h hs with g | g
      · rw [(g.ofp N o).resolve_right hl]; exact hc.ofp N o ho'
      · rw [g.2]; exact hc.ofp N o ho'
  · by_cases hl : f ∈ (t'.lvl (N + 1)).fps
    · exact .inr (h'.comp_live N f hl x hx)
    · have hf' := hf.resolve_right hl
      left
      rcases step_grow h hs with g | g
      · rw [(g.comp (N + 1) f).resolve_right hl] at hx; exact hc.comp N f hf' x hx
      · rw [g.1] at hx; exact hc.comp N f hf' x hx

theorem Closed.run {t t' : Topo} {uO uF : Nat → Id → Prop} (hc : Closed t uO uF) (h : Ok t)
    {ops : List Op} (hs : run t ops = some t') :
    Closed t' (fun N o => uO N o ∨ ∃ s ∈ states t ops, o ∈ (s.lvl N).ors)
      (fun N f => uF N f ∨ ∃ s ∈ states t ops, f ∈ (s.lvl N).fps) := by
  induction ops generalizing t uO uF with
  | nil =>
    simp only [Topology.run, Option.some.injEq] at hs
    subst hs
    refine ⟨fun N o ho => .inl (hc.liveO N o ho), fun N f hf => .inl (hc.liveF N f hf), ?_, ?_⟩
    · rintro N o (ho | ⟨s, hs, ho⟩)
      · exact .inl (hc.ofp N o ho)
      · simp only [states, List.mem_singleton] at hs
        subst hs
        exact .inl (hc.ofp N o (hc.liveO N o ho))
    · rintro N o (ho | ⟨s, hs, ho⟩) x hx
      · exact .inl (hc.comp N o ho x hx)
      · simp only [states, List.mem_singleton] at hs
        subst hs
        exact .inl (hc.comp N o (hc.liveF _ o ho) x hx)
  | cons op ops ih =>
    simp only [Topology.run] at hs
    split at hs
    · simp at hs
    · rename_i t1 h1
      have c := ih (hc.step h h1) (step_ok h h1) hs
      have e : states t (op :: ops) = t :: states t1 ops := by simp only [states, h1]
      have hh : ∀ s ∈ states t1 ops, s ∈ states t (op :: ops) := by
        intro s hs; rw [e]; exact List.mem_cons_of_mem _ hs
      have h1m : t1 ∈ states t1 ops := by cases ops <;> simp [states]
      have eO : ∀ N o, ((uO N o ∨ o ∈ (t1.lvl N).ors) ∨ ∃ s ∈ states t1 ops, o ∈ (s.lvl N).ors) ↔
          (uO N o ∨ ∃ s ∈ states t (op :: ops), o ∈ (s.lvl N).ors) := by
        intro N o
        constructor
        · rintro ((a | a) | ⟨s, hs, a⟩)
          · exact .inl a
          · exact .inr ⟨t1, hh _ h1m, a⟩
          · exact .inr ⟨s, hh _ hs, a⟩
        · rintro (a | ⟨s, hs, a⟩)
          · exact .inl (.inl a)
          · rw [e, List.mem_cons] at hs
            rcases hs with rfl | hs
            · exact .inl (.inl (hc.liveO N o a))
            · exact .inr ⟨s, hs, a⟩
      have eF : ∀ N o, ((uF N o ∨ o ∈ (t1.lvl N).fps) ∨ ∃ s ∈ states t1 ops, o ∈ (s.lvl N).fps) ↔
          (uF N o ∨ ∃ s ∈ states t (op :: ops), o ∈ (s.lvl N).fps) := by
        intro N o
        constructor
        · rintro ((a | a) | ⟨s, hs, a⟩)
          · exact .inl a
          · exact .inr ⟨t1, hh _ h1m, a⟩
          · exact .inr ⟨s, hh _ hs, a⟩
        · rintro (a | ⟨s, hs, a⟩)
          · exact .inl (.inl a)
          · rw [e, List.mem_cons] at hs
            rcases hs with rfl | hs
            · exact .inl (.inl (hc.liveF N o a))
            · exact .inr ⟨s, hs, a⟩
      exact ⟨fun N o ho => (eO N o).1 (c.liveO N o ho), fun N o ho => (eF N o).1 (c.liveF N o ho),
        fun N o ho => (eF N _).1 (c.ofp N o ((eO N o).2 ho)),
        fun N f hf x hx => (eO N _).1 (c.comp N f ((eF _ f).2 hf) x hx)⟩

/-- the slots handed out during a history are closed -/
theorem Slots.closed {s : List Id} {ops : List Op} {sO sF : Nat → List Id} {t : Topo}
    (h : Slots s ops sO sF) (hr : Topology.run (.init s) ops = some t) :
    Closed t (fun N o => o ∈ sO N) (fun N f => f ∈ sF N) := by
  have c0 : Closed (.init s) (fun _ _ => False) (fun _ _ => False) := by
    constructor <;> simp [Topo.init, Level.empty]
  have c := c0.run (Ok.init s) hr
  exact ⟨fun N o ho => (h.memO N o).2 ((c.liveO N o ho).resolve_left id),
    fun N o ho => (h.memF N o).2 ((c.liveF N o ho).resolve_left id),
    fun N o ho => (h.memF N _).2 ((c.ofp N o (.inr ((h.memO N o).1 ho))).resolve_left id),
    fun N f hf x hx => (h.memO N _).2
      ((c.comp N f (.inr ((h.memF _ f).1 hf)) x hx).resolve_left id)⟩

/-! ### Releases -/

/-- the slot is memory of the topology -/
def Mem.Mapped (m : Mem) : Handle → Prop
  | .oriented N o => o ∈ m.mapO N
  | .footprint N f => f ∈ m.mapF N

/-- what releasing a list of pointers does -/
structure Released (m : Mem) (hs : List Handle) (m' : Mem) : Prop where
  mapO : m'.mapO = m.mapO
  mapF : m'.mapF = m.mapF
  cntO : ∀ N o, m'.cntO N o = m.cntO N o - hs.count (.oriented N o)
  cntF : ∀ N f, m'.cntF N f = m.cntF N f - hs.count (.footprint N f)

theorem release_some {m m' : Mem} {h : Handle} (e : m.release h = some m') :
    m.Mapped h ∧ Released m [h] m' := by
  cases h with
  | oriented N o =>
    simp only [Mem.release] at e
    split at e
    · rename_i hm
      simp only [Option.some.injEq] at e
      subst e
      refine ⟨hm, rfl, rfl, fun M p => ?_, fun M p => ?_⟩
      · by_cases e : M = N
        · subst e
          by_cases e' : p = o
          · subst e'; simp
          · have : ¬ (o = p) := fun h => e' h.symm
            simp [e', List.count_cons, this]
        · have : ¬ (N = M) := fun h => e h.symm
          simp [e, List.count_cons, this]
      · simp [List.count_cons]
    · simp at e
  | footprint N o =>
    simp only [Mem.release] at e
    split at e
    · rename_i hm
      simp only [Option.some.injEq] at e
      subst e
      refine ⟨hm, rfl, rfl, fun M p => ?_, fun M p => ?_⟩
      · simp [List.count_cons]
      · by_cases e : M = N
        · subst e
          by_cases e' : p = o
          · subst e'; simp
          · have : ¬ (o = p) := fun h => e' h.symm
            simp [e', List.count_cons, this]
        · have : ¬ (N = M) := fun h => e h.symm
          simp [e, List.count_cons, this]
    · simp at e

theorem release_none {m : Mem} {h : Handle} (e : m.release h = none) : ¬ m.Mapped h := by
  cases h with
  | oriented N o =>
    simp only [Mem.release] at e
    split at e
    · simp at e
    · assumption
  | footprint N o =>
    simp only [Mem.release] at e
    split at e
    · simp at e
    · assumption

theorem releaseAll_some {m m' : Mem} {hs : List Handle} (e : m.releaseAll hs = some m') :
    (∀ h ∈ hs, m.Mapped h) ∧ Released m hs m' := by
  induction hs generalizing m with
  | nil =>
    simp only [Mem.releaseAll, Option.some.injEq] at e
    subst e
    exact ⟨by simp, rfl, rfl, by simp, by simp⟩
  | cons h hs ih =>
    simp only [Mem.releaseAll] at e
    split at e
    · simp at e
    · rename_i m1 h1
      obtain ⟨a, b⟩ := release_some h1
      obtain ⟨c, d⟩ := ih e
      have hm : ∀ h, m1.Mapped h ↔ m.Mapped h := by
        intro h; cases h <;> simp [Mem.Mapped, b.mapO, b.mapF]
      refine ⟨?_, d.mapO.trans b.mapO, d.mapF.trans b.mapF, fun N o => ?_, fun N o => ?_⟩
      · intro x hx
        rcases List.mem_cons.1 hx with rfl | hx
        · exact a
        · exact (hm x).1 (c x hx)
      · simp only [d.cntO, b.cntO, List.count_cons, List.count_nil]; push_cast; ring
      · simp only [d.cntF, b.cntF, List.count_cons, List.count_nil]; push_cast; ring

theorem releaseAll_succeeds {m : Mem} {hs : List Handle} (h : ∀ h ∈ hs, m.Mapped h) :
    ∃ m', m.releaseAll hs = some m' ∧ Released m hs m' := by
  have : ∃ m', m.releaseAll hs = some m' := by
    induction hs generalizing m with
    | nil => exact ⟨m, rfl⟩
    | cons x hs ih =>
      simp only [Mem.releaseAll]
      split
      · rename_i e; exact absurd (h x (by simp)) (release_none e)
      · rename_i m1 h1
        have b := (release_some h1).2
        refine ih fun y hy => ?_
        have := h y (List.mem_cons_of_mem _ hy)
        cases y <;> simpa [Mem.Mapped, b.mapO, b.mapF] using this
  obtain ⟨m', e⟩ := this
  exact ⟨m', e, (releaseAll_some e).2⟩

theorem count_heldByOriented (t : Topo) (N : Nat) (slots : List Id) (M : Nat) (f : Id) :
    (t.heldByOriented N slots).count (.footprint M f) =
      if M = N then (slots.filter fun o => t.fp N o = f).length else 0 := by
  unfold Topo.heldByOriented
  induction slots with
  | nil => simp
  | cons x l ih =>
    rw [List.map_cons, List.count_cons, ih]
    by_cases e : M = N
    · subst e
      by_cases e' : t.fp M x = f
      · simp [e']
      · simp [e']
    · have : ¬ (N = M) := fun h => e h.symm
      simp [e, this]

theorem count_heldByOriented' (t : Topo) (N : Nat) (slots : List Id) (M : Nat) (o : Id) :
    (t.heldByOriented N slots).count (.oriented M o) = 0 := by
  rw [List.count_eq_zero]
  simp [Topo.heldByOriented]

theorem count_map_oriented (N : Nat) (c : List Id) (M : Nat) (o : Id) :
    (c.map (Handle.oriented N)).count (.oriented M o) = if M = N then c.count o else 0 := by
  induction c with
  | nil => simp
  | cons x l ih =>
    rw [List.map_cons, List.count_cons, ih, List.count_cons]
    by_cases e : M = N
    · subst e; by_cases e' : x = o <;> simp [e']
    · have : ¬ (N = M) := fun h => e h.symm
      simp [e, this]

theorem count_heldByFootprints (t : Topo) (N : Nat) (slots : List Id) (M : Nat) (o : Id) :
    (t.heldByFootprints N slots).count (.oriented M o) =
      if M + 1 = N then (slots.map fun f => (t.compF N f).count o).sum else 0 := by
  cases N with
  | zero => simp [Topo.heldByFootprints]
  | succ N =>
    simp only [Topo.heldByFootprints, Nat.add_right_cancel_iff]
    induction slots with
    | nil => simp
    | cons x l ih =>
      rw [List.flatMap_cons, List.count_append, ih, count_map_oriented, List.map_cons, List.sum_cons]
      split <;> simp

theorem count_heldByFootprints' (t : Topo) (N : Nat) (slots : List Id) (M : Nat) (f : Id) :
    (t.heldByFootprints N slots).count (.footprint M f) = 0 := by
  rw [List.count_eq_zero]
  cases N <;> simp [Topo.heldByFootprints]

/-! ### The destructor -/

/-- what the destruction of the factories of the orders below `n` does -/
structure Destroyed (t : Topo) (sO sF : Nat → List Id) (n : Nat) (m m' : Mem) : Prop where
  mapO : ∀ M, m'.mapO M = if M < n then ∅ else m.mapO M
  mapF : ∀ M, m'.mapF M = if M < n then ∅ else m.mapF M
  cntO : ∀ M o, m'.cntO M o = m.cntO M o -
    if M + 1 < n then (((sF (M + 1)).map fun f => (t.compF (M + 1) f).count o).sum : Nat) else 0
  cntF : ∀ M f, m'.cntF M f = m.cntF M f -
    if M < n then (((sO M).filter fun o => t.fp M o = f).length : Nat) else 0

theorem destroy_spec {t : Topo} {sO sF : Nat → List Id}
    (hc : Closed t (fun N o => o ∈ sO N) (fun N f => f ∈ sF N)) (n : Nat) (m : Mem)
    (hO : ∀ M, M < n → m.mapO M = (sO M).toFinset) (hF : ∀ M, M < n → m.mapF M = (sF M).toFinset) :
    ∃ m', t.destroy sO sF n m = some m' ∧ Destroyed t sO sF n m m' := by
  induction n generalizing m with
  | zero => exact ⟨m, rfl, by simp, by simp, by simp, by simp⟩
  | succ N ih =>
    obtain ⟨m1, e1, r1⟩ := releaseAll_succeeds (m := m) (hs := t.heldByOriented N (sO N)) (by
      intro h hh
      simp only [Topo.heldByOriented, List.mem_map] at hh
      obtain ⟨o, ho, rfl⟩ := hh
      show _ ∈ m.mapF N
      rw [hF N (by omega)]
      simpa using hc.ofp N o ho)
    obtain ⟨m2, e2, r2⟩ := releaseAll_succeeds (m := m1.freeO N)
      (hs := t.heldByFootprints N (sF N)) (by
      intro h hh
      cases N with
      | zero => simp [Topo.heldByFootprints] at hh
      | succ K =>
        simp only [Topo.heldByFootprints, List.mem_flatMap, List.mem_map] at hh
        obtain ⟨f, hf, x, hx, rfl⟩ := hh
        show x ∈ Function.update m1.mapO (K + 1) ∅ K
        rw [Function.update_of_ne (by omega), r1.mapO, hO K (by omega)]
        simpa using hc.comp K f hf x hx)
    have ef : t.destroyFactory sO sF N m = some (m2.freeF N) := by
      simp only [Topo.destroyFactory, e1, e2]
    have mO : ∀ M, (m2.freeF N).mapO M = if M = N then ∅ else m.mapO M := by
      intro M
      show m2.mapO M = _
      rw [r2.mapO]
      show Function.update m1.mapO N ∅ M = _
      rw [r1.mapO]
      by_cases e : M = N
      · subst e; simp
      · simp [e]
    have mF : ∀ M, (m2.freeF N).mapF M = if M = N then ∅ else m.mapF M := by
      intro M
      show Function.update m2.mapF N ∅ M = _
      rw [r2.mapF]
      show Function.update m1.mapF N ∅ M = _
      rw [r1.mapF]
      by_cases e : M = N
      · subst e; simp
      · simp [e]
    obtain ⟨m', e', d⟩ := ih (m2.freeF N)
      (fun M hM => by rw [mO, if_neg (by omega), hO M (by omega)])
      (fun M hM => by rw [mF, if_neg (by omega), hF M (by omega)])
    refine ⟨m', by simp only [Topo.destroy, ef, e'], fun M => ?_, fun M => ?_, fun M o => ?_,
      fun M f => ?_⟩
    · rw [d.mapO, mO]
      by_cases h1 : M < N
      · rw [if_pos h1, if_pos (by omega)]
      · rw [if_neg h1]
        by_cases h2 : M = N
        · rw [if_pos h2, if_pos (by omega)]
        · rw [if_neg h2, if_neg (by omega)]
    · rw [d.mapF, mF]
      by_cases h1 : M < N
      · rw [if_pos h1, if_pos (by omega)]
      · rw [if_neg h1]
        by_cases h2 : M = N
        · rw [if_pos h2, if_pos (by omega)]
        · rw [if_neg h2, if_neg (by omega)]
    · rw [d.cntO]
      show m2.cntO M o - _ = _
      rw [r2.cntO]
      show m1.cntO M o - _ - _ = _
      rw [r1.cntO, count_heldByOriented', count_heldByFootprints]
      by_cases h1 : M + 1 < N
      · rw [if_pos h1, if_neg (show ¬ M + 1 = N by omega), if_pos (show M + 1 < N + 1 by omega)]; simp
      · rw [if_neg h1]
        by_cases h2 : M + 1 = N
        · subst h2; rw [if_pos rfl, if_pos (by omega)]; simp
        · rw [if_neg h2, if_neg (by omega)]; simp
    · rw [d.cntF]
      show m2.cntF M f - _ = _
      rw [r2.cntF]
      show m1.cntF M f - _ - _ = _
      rw [r1.cntF, count_heldByFootprints', count_heldByOriented]
      by_cases h1 : M < N
      · rw [if_pos h1, if_neg (show ¬ M = N by omega), if_pos (show M < N + 1 by omega)]; simp
      · rw [if_neg h1]
        by_cases h2 : M = N
        · subst h2; rw [if_pos rfl, if_pos (by omega)]; simp
        · rw [if_neg h2, if_neg (by omega)]; simp

/-- counts over the slots handed out split into simplices alive and erased ones -/
theorem sum_slots {l : List Id} (hl : l.Nodup) {s : Finset Id} (hs : ∀ x ∈ s, x ∈ l) (g : Id → Nat) :
    (l.map g).sum = ∑ x ∈ s, g x + ((l.filter (· ∉ s)).map g).sum := by
  have h1 : s = (l.filter (· ∈ s)).toFinset := by
    ext x
    simp only [List.mem_toFinset, List.mem_filter, decide_eq_true_eq]
    exact ⟨fun h => ⟨hs x h, h⟩, fun h => h.2⟩
  have h2 : ∑ x ∈ s, g x = ((l.filter (· ∈ s)).map g).sum := by
    conv_lhs => rw [h1]
    rw [List.sum_toFinset _ (hl.filter _)]
  rw [h2]
  clear h1 h2 hs hl
  induction l with
  | nil => simp
  | cons x l ih =>
    rw [List.map_cons, List.sum_cons, ih, List.filter_cons, List.filter_cons]
    by_cases h : x ∈ s <;> simp [h] <;> omega

/-! ### Static objects -/

theorem statics_split {es : List Event} (h : .topology ∈ es) :
    ∃ A B post, statics es = A ++ .topology :: B ∧ es = A ++ .topology :: post ∧
      .topology ∉ A ∧ .topology ∉ B ∧ ∀ e ∈ B, e ∈ es := by
  have sub : ∀ es : List Event, ∀ e ∈ statics es, e ∈ es := by
    intro es
    induction es with
    | nil => simp [statics]
    | cons x es ih =>
      intro e he
      simp only [statics, List.mem_cons] at he
      rcases he with rfl | he
      · simp
      · split at he
        · exact List.mem_cons_of_mem _ (ih e (List.mem_filter.1 he).1)
        · exact List.mem_cons_of_mem _ (ih e he)
  induction es with
  | nil => simp at h
  | cons x es ih =>
    by_cases e : x = .topology
    · subst e
      refine ⟨[], (statics es).filter (· ≠ .topology), es, ?_, rfl, by simp, by simp, ?_⟩
      · simp [statics]
      · intro e he
        exact List.mem_cons_of_mem _ (sub es e (List.mem_filter.1 he).1)
    · obtain ⟨A, B, post, h1, h2, h3, h4, h5⟩ := ih (by
        rcases List.mem_cons.1 h with h | h
        · exact absurd h.symm e
        · exact h)
      refine ⟨x :: A, B, post, ?_, ?_, ?_, h4, fun y hy => List.mem_cons_of_mem _ (h5 y hy)⟩
      · simp [statics, e, h1]
      · rw [List.cons_append, ← h2]
      · simp only [List.mem_cons, not_or]
        exact ⟨fun h => e h.symm, h3⟩

theorem atExit_append (t : Topo) (sO sF : Nat → List Id) (held : Nat → List Handle) (n : Nat)
    (es es' : List Event) (m : Mem) :
    t.atExit sO sF held n (es ++ es') m =
      (t.atExit sO sF held n es m).bind (t.atExit sO sF held n es') := by
  induction es generalizing m with
  | nil => rfl
  | cons e es ih =>
    cases e with
    | topology =>
      simp only [List.cons_append, Topo.atExit]
      cases t.destroy sO sF n m with
      | none => rfl
      | some m' => exact ih m'
    | static k =>
      simp only [List.cons_append, Topo.atExit]
      cases m.releaseAll (held k) with
      | none => rfl
      | some m' => exact ih m'

/-- static objects that are destroyed while all the memory they point to is there -/
theorem atExit_before (t : Topo) (sO sF : Nat → List Id) (held : Nat → List Handle) (n : Nat)
    (es : List Event) (m : Mem) (ht : .topology ∉ es)
    (hm : ∀ k, .static k ∈ es → ∀ h ∈ held k, m.Mapped h) :
    ∃ m', t.atExit sO sF held n es m = some m' ∧ m'.mapO = m.mapO ∧ m'.mapF = m.mapF := by
  induction es generalizing m with
  | nil => exact ⟨m, rfl, rfl, rfl⟩
  | cons e es ih =>
    cases e with
    | topology => simp at ht
    | static k =>
      obtain ⟨m1, e1, r1⟩ := releaseAll_succeeds (hm k (by simp))
      obtain ⟨m', e', a, b⟩ := ih m1 (by simpa using ht) (by
        intro k' hk' h hh
        have := hm k' (List.mem_cons_of_mem _ hk') h hh
        cases h <;> simpa [Mem.Mapped, r1.mapO, r1.mapF] using this)
      exact ⟨m', by simp only [Topo.atExit, e1, e'], a.trans r1.mapO, b.trans r1.mapF⟩

/-- static objects that are destroyed when no memory is left -/
theorem atExit_after (t : Topo) (sO sF : Nat → List Id) (held : Nat → List Handle) (n : Nat)
    (es : List Event) (m : Mem) (ht : .topology ∉ es) (hm : ∀ h, ¬ m.Mapped h) :
    (t.atExit sO sF held n es m).isSome ↔ ∀ k, .static k ∈ es → held k = [] := by
  induction es generalizing m with
  | nil => simp [Topo.atExit]
  | cons e es ih =>
    cases e with
    | topology => simp at ht
    | static k =>
      simp only [Topo.atExit]
      cases hk : held k with
      | nil =>
        simp only [Mem.releaseAll]
        rw [ih m (by simpa using ht) hm]
        constructor
        · intro h j hj
          simp only [List.mem_cons, Event.static.injEq] at hj
          rcases hj with rfl | hj
          · exact hk
          · exact h j hj
        · intro h j hj
          exact h j (List.mem_cons_of_mem _ hj)
      | cons x l =>
        have : m.releaseAll (x :: l) = none := by
          cases e : m.releaseAll (x :: l) with
          | none => rfl
          | some m' => exact absurd ((releaseAll_some e).1 x (by simp)) (hm x)
        rw [this]
        simp only [Option.isSome_none, Bool.false_eq_true, false_iff]
        intro h
        have := h k (by simp)
        rw [hk] at this
        simp at this

end Mito.Topology
