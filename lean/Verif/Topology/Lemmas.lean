import Verif.Topology.Model
import Mathlib.Data.List.Perm.Basic
import Mathlib.Tactic.Ring

/-! # Helper lemmas for the topology: the invariant, creation -/

set_option linter.unusedSimpArgs false
set_option linter.unusedVariables false

namespace Mito.Topology

open Mito.Combinatorics

/-- the state invariant -/
structure Inv (t : Topo) : Prop where
  fp_live : ∀ N, ∀ o ∈ (t.lvl N).ors, t.fp N o ∈ (t.lvl N).fps
  sg : ∀ N, ∀ o ∈ (t.lvl N).ors, t.sg N o = 1 ∨ t.sg N o = -1
  comp_live : ∀ N, ∀ f ∈ (t.lvl (N + 1)).fps, ∀ x ∈ t.compF (N + 1) f, x ∈ (t.lvl N).ors
  comp_len : ∀ N, ∀ f ∈ (t.lvl (N + 1)).fps, (t.compF (N + 1) f).length = N + 2
  comp_nodup : ∀ N, ∀ f ∈ (t.lvl (N + 1)).fps, (t.compF (N + 1) f).Nodup
  comps : ∀ N k f, (t.lvl (N + 1)).comps k = some f ↔
    f ∈ (t.lvl (N + 1)).fps ∧ t.representative N (t.compF (N + 1) f) = k
  orients : ∀ N f s o, (t.lvl N).orients (f, s) = some o ↔
    o ∈ (t.lvl N).ors ∧ t.fp N o = f ∧ t.sg N o = s
  ext_live : ∀ N o, 0 < t.ext N o → o ∈ (t.lvl N).ors
  extF_live : ∀ N f, 0 < t.extF N f → f ∈ (t.lvl N).fps

/-- `t'` extends `t`: everything alive stays alive with the same data -/
structure Le (t t' : Topo) : Prop where
  fps : ∀ N, (t.lvl N).fps ⊆ (t'.lvl N).fps
  ors : ∀ N, (t.lvl N).ors ⊆ (t'.lvl N).ors
  comp : ∀ N, ∀ f ∈ (t.lvl N).fps, t'.compF N f = t.compF N f
  ofp : ∀ N, ∀ o ∈ (t.lvl N).ors, t'.fp N o = t.fp N o
  osg : ∀ N, ∀ o ∈ (t.lvl N).ors, t'.sg N o = t.sg N o
  ext : t'.ext = t.ext
  extF : t'.extF = t.extF

theorem Le.refl (t : Topo) : Le t t :=
  ⟨fun _ => subset_rfl, fun _ => subset_rfl, fun _ _ _ => rfl, fun _ _ _ => rfl, fun _ _ _ => rfl,
    rfl, rfl⟩

theorem Le.trans {t t' t'' : Topo} (h : Le t t') (h' : Le t' t'') : Le t t'' where
  fps N := (h.fps N).trans (h'.fps N)
  ors N := (h.ors N).trans (h'.ors N)
  comp N f hf := (h'.comp N f (h.fps N hf)).trans (h.comp N f hf)
  ofp N f hf := (h'.ofp N f (h.ors N hf)).trans (h.ofp N f hf)
  osg N f hf := (h'.osg N f (h.ors N hf)).trans (h.osg N f hf)
  ext := h'.ext.trans h.ext
  extF := h'.extF.trans h.extF

theorem Inv.init (s : List Id) : Inv (.init s) := by
  constructor <;> simp [Topo.init, Level.empty]

theorem map_fp_congr {t t' : Topo} {N : Nat} {c : List Id}
    (h : ∀ x ∈ c, t'.fp N x = t.fp N x) : c.map (t'.fp N) = c.map (t.fp N) :=
  List.map_congr_left h

theorem representative_congr {t t' : Topo} {N : Nat} {c : List Id}
    (h : ∀ x ∈ c, t'.fp N x = t.fp N x) : t'.representative N c = t.representative N c := by
  unfold Topo.representative
  rw [map_fp_congr h]

/-- equal representatives mean equal multisets of footprints -/
theorem representative_eq_iff (t t' : Topo) (N : Nat) (c c' : List Id) :
    t.representative N c = t'.representative N c' ↔
      (c.map (t.fp N)).Perm (c'.map (t'.fp N)) := by
  unfold Topo.representative
  constructor
  · intro h
    have h1 := (List.perm_insertionSort (· ≤ ·) (c.map (t.fp N))).symm
    rw [h] at h1
    exact h1.trans (List.perm_insertionSort _ _)
  · intro h
    exact ((List.perm_insertionSort _ _).trans
      (h.trans (List.perm_insertionSort _ _).symm)).eq_of_pairwise'
      (List.pairwise_insertionSort (· ≤ ·) _) (List.pairwise_insertionSort (· ≤ ·) _)

/-! ### `orientedF` -/

/-- the state after creating an oriented simplex -/
def Topo.addO (t : Topo) (N : Nat) (f : Id) (s : Int) (i : Id) (rest : List Id) : Topo :=
  { t with
    lvl := Function.update t.lvl N
      { t.lvl N with ors := insert i (t.lvl N).ors, ofp := Function.update (t.lvl N).ofp i f,
                     osg := Function.update (t.lvl N).osg i s,
                     orients := Function.update (t.lvl N).orients (f, s) (some i) }
    supply := rest }

theorem orientedF_cases {t t' : Topo} {N : Nat} {f : Id} {s : Int} {o : Id}
    (h : t.orientedF N f s = some (t', o)) :
    ((t.lvl N).orients (f, s) = some o ∧ t' = t) ∨
    ((t.lvl N).orients (f, s) = none ∧ o ∉ (t.lvl N).ors ∧ ∃ rest, t.supply = o :: rest ∧
      t' = t.addO N f s o rest) := by
  unfold Topo.orientedF at h
  split at h
  · rename_i o' ho
    simp at h
    exact Or.inl ⟨by rw [ho, h.2], h.1.symm⟩
  · rename_i ho
    refine Or.inr ⟨ho, ?_⟩
    unfold Topo.emplaceO at h
    split at h
    · simp at h
    · rename_i t1 o1 h1
      split at h1
      · simp at h1
      · rename_i i rest hs
        split at h1
        · simp at h1
        · rename_i hi
          simp at h1 h
          obtain ⟨rfl, rfl⟩ := h1
          obtain ⟨rfl, rfl⟩ := h
          refine ⟨hi, rest, hs, ?_⟩
          simp [Topo.addO, Topo.setLvl]

theorem addO_le {t : Topo} {N : Nat} {f : Id} {s : Int} {i : Id} {rest : List Id}
    (hi : i ∉ (t.lvl N).ors) : Le t (t.addO N f s i rest) := by
  constructor
  · intro M
    by_cases e : M = N
    · subst e; simp [Topo.addO]
    · simp [Topo.addO, e]
  · intro M
    by_cases e : M = N
    · subst e; simp [Topo.addO]
    · simp [Topo.addO, e]
  · intro M g hg
    by_cases e : M = N
    · subst e; simp [Topo.addO, Topo.compF]
    · simp [Topo.addO, Topo.compF, e]
  · intro M o ho
    by_cases e : M = N
    · subst e
      have : o ≠ i := fun e => hi (e ▸ ho)
      simp [Topo.addO, Topo.fp, this]
    · simp [Topo.addO, Topo.fp, e]
  · intro M o ho
    by_cases e : M = N
    · subst e
      have : o ≠ i := fun e => hi (e ▸ ho)
      simp [Topo.addO, Topo.sg, this]
    · simp [Topo.addO, Topo.sg, e]
  · rfl
  · rfl

theorem addO_inv {t : Topo} (h : Inv t) {N : Nat} {f : Id} {s : Int} {i : Id} {rest : List Id}
    (hi : i ∉ (t.lvl N).ors) (hf : f ∈ (t.lvl N).fps) (hs : s = 1 ∨ s = -1)
    (hn : (t.lvl N).orients (f, s) = none) : Inv (t.addO N f s i rest) := by
  have hle : Le t (t.addO N f s i rest) := addO_le hi
  have hfps : ∀ M, ((t.addO N f s i rest).lvl M).fps = (t.lvl M).fps := by
    intro M
    by_cases e : M = N
    · subst e; simp [Topo.addO]
    · simp [Topo.addO, e]
  have hcomps : ∀ M, ((t.addO N f s i rest).lvl M).comps = (t.lvl M).comps := by
    intro M
    by_cases e : M = N
    · subst e; simp [Topo.addO]
    · simp [Topo.addO, e]
  have hors : ∀ M o, o ∈ ((t.addO N f s i rest).lvl M).ors ↔
      o ∈ (t.lvl M).ors ∨ (M = N ∧ o = i) := by
    intro M o
    by_cases e : M = N
    · subst e; simp [Topo.addO]; tauto
    · simp [Topo.addO, e]
  have hnewfp : (t.addO N f s i rest).fp N i = f := by simp [Topo.addO, Topo.fp]
  have hnewsg : (t.addO N f s i rest).sg N i = s := by simp [Topo.addO, Topo.sg]
  constructor
  · intro M o ho
    rw [hfps]
    rcases (hors M o).1 ho with ho | ⟨rfl, rfl⟩
    · rw [hle.ofp M o ho]; exact h.fp_live M o ho
    · rw [hnewfp]; exact hf
  · intro M o ho
    rcases (hors M o).1 ho with ho | ⟨rfl, rfl⟩
    · rw [hle.osg M o ho]; exact h.sg M o ho
    · rw [hnewsg]; exact hs
  · intro M g hg x hx
    rw [hfps] at hg
    rw [hle.comp _ g hg] at hx
    exact hle.ors M (h.comp_live M g hg x hx)
  · intro M g hg
    rw [hfps] at hg
    rw [hle.comp _ g hg]; exact h.comp_len M g hg
  · intro M g hg
    rw [hfps] at hg
    rw [hle.comp _ g hg]; exact h.comp_nodup M g hg
  · intro M k g
    rw [hcomps, h.comps, hfps]
    constructor
    · rintro ⟨hg, hk⟩
      refine ⟨hg, ?_⟩
      rw [hle.comp _ g hg, ← hk]
      exact representative_congr fun x hx => hle.ofp M x (h.comp_live M g hg x hx)
    · rintro ⟨hg, hk⟩
      refine ⟨hg, ?_⟩
      rw [hle.comp _ g hg] at hk
      rw [← hk]
      exact (representative_congr fun x hx => hle.ofp M x (h.comp_live M g hg x hx)).symm
  · intro M g p o
    by_cases e : M = N
    · subst e
      have horr : ((t.addO M f s i rest).lvl M).orients =
          Function.update (t.lvl M).orients (f, s) (some i) := by simp [Topo.addO]
      rw [horr, Function.update_apply]
      by_cases hk : (g, p) = (f, s)
      · rw [if_pos hk]
        simp only [Prod.mk.injEq] at hk
        obtain ⟨rfl, rfl⟩ := hk
        constructor
        · intro ho
          simp at ho
          subst ho
          exact ⟨(hors _ _).2 (Or.inr ⟨rfl, rfl⟩), hnewfp, hnewsg⟩
        · rintro ⟨h1, h2, h3⟩
          rcases (hors _ o).1 h1 with ho | ⟨_, rfl⟩
          · rw [hle.ofp _ o ho] at h2
            rw [hle.osg _ o ho] at h3
            have := (h.orients M g p o).2 ⟨ho, h2, h3⟩
            rw [hn] at this; simp at this
          · rfl
      · rw [if_neg hk, h.orients]
        constructor
        · rintro ⟨h1, h2, h3⟩
          exact ⟨hle.ors _ h1, by rw [hle.ofp _ o h1, h2], by rw [hle.osg _ o h1, h3]⟩
        · rintro ⟨h1, h2, h3⟩
          rcases (hors _ o).1 h1 with ho | ⟨_, rfl⟩
          · exact ⟨ho, by rw [← hle.ofp _ o ho, h2], by rw [← hle.osg _ o ho, h3]⟩
          · rw [hnewfp] at h2; rw [hnewsg] at h3
            exact absurd (by rw [h2, h3]) hk
    · have horr : ((t.addO N f s i rest).lvl M).orients = (t.lvl M).orients := by
        simp [Topo.addO, e]
      rw [horr, h.orients]
      have hor : ∀ o, o ∈ ((t.addO N f s i rest).lvl M).ors ↔ o ∈ (t.lvl M).ors := by
        intro o; rw [hors]; simp [e]
      rw [hor]
      constructor
      · rintro ⟨h1, h2, h3⟩
        exact ⟨h1, by rw [hle.ofp _ o h1, h2], by rw [hle.osg _ o h1, h3]⟩
      · rintro ⟨h1, h2, h3⟩
        exact ⟨h1, by rw [← hle.ofp _ o h1, h2], by rw [← hle.osg _ o h1, h3]⟩
  · intro M o ho
    exact hle.ors M (h.ext_live M o ho)
  · intro M g hg
    exact hle.fps M (h.extF_live M g hg)

/-- `orientedF` returns the oriented simplex with this footprint and orientation -/
theorem orientedF_spec {t t' : Topo} (h : Inv t) {N : Nat} {f : Id} {s : Int} {o : Id}
    (hf : f ∈ (t.lvl N).fps) (hs : s = 1 ∨ s = -1) (ho : t.orientedF N f s = some (t', o)) :
    Inv t' ∧ Le t t' ∧ o ∈ (t'.lvl N).ors ∧ t'.fp N o = f ∧ t'.sg N o = s := by
  rcases orientedF_cases ho with ⟨h1, rfl⟩ | ⟨h1, h2, rest, h3, rfl⟩
  · have := (h.orients N f s o).1 h1
    exact ⟨h, Le.refl _, this.1, this.2.1, this.2.2⟩
  · exact ⟨addO_inv h h2 hf hs h1, addO_le h2, by simp [Topo.addO], by simp [Topo.addO, Topo.fp],
      by simp [Topo.addO, Topo.sg]⟩

/-- `orientedF` on an existing oriented simplex finds it -/
theorem orientedF_existing {t : Topo} (h : Inv t) {N : Nat} {o : Id} (ho : o ∈ (t.lvl N).ors) :
    t.orientedF N (t.fp N o) (t.sg N o) = some (t, o) := by
  have := (h.orients N _ _ o).2 ⟨ho, rfl, rfl⟩
  simp [Topo.orientedF, this]

theorem Inv.oriented_unique {t : Topo} (h : Inv t) {N : Nat} {o o' : Id}
    (ho : o ∈ (t.lvl N).ors) (ho' : o' ∈ (t.lvl N).ors) (hf : t.fp N o = t.fp N o')
    (hs : t.sg N o = t.sg N o') : o = o' := by
  have h1 := (h.orients N _ _ o).2 ⟨ho, rfl, rfl⟩
  have h2 := (h.orients N _ _ o').2 ⟨ho', rfl, rfl⟩
  rw [hf, hs, h2] at h1
  simpa using h1.symm

theorem Inv.footprint_unique {t : Topo} (h : Inv t) {N : Nat} {f f' : Id}
    (hf : f ∈ (t.lvl (N + 1)).fps) (hf' : f' ∈ (t.lvl (N + 1)).fps)
    (hp : ((t.compF (N + 1) f).map (t.fp N)).Perm ((t.compF (N + 1) f').map (t.fp N))) :
    f = f' := by
  have h1 := (h.comps N _ f).2 ⟨hf, rfl⟩
  have h2 := (h.comps N _ f').2 ⟨hf', rfl⟩
  rw [(representative_eq_iff t t N _ _).2 hp, h2] at h1
  simpa using h1.symm

/-! ### `simplexF` -/

/-- the state after creating a footprint -/
def Topo.addF (t : Topo) (N : Nat) (c : List Id) (k : List Id) (i : Id) (rest : List Id) : Topo :=
  { t with
    lvl := Function.update t.lvl (N + 1)
      { t.lvl (N + 1) with
        fps := insert i (t.lvl (N + 1)).fps, comp := Function.update (t.lvl (N + 1)).comp i c,
        comps := Function.update (t.lvl (N + 1)).comps k (some i) }
    supply := rest }

theorem simplexF_cases {t t' : Topo} {N : Nat} {c : List Id} {f : Id}
    (h : t.simplexF N c = some (t', f)) :
    ((t.lvl (N + 1)).comps (t.representative N c) = some f ∧ t' = t) ∨
    ((t.lvl (N + 1)).comps (t.representative N c) = none ∧ f ∉ (t.lvl (N + 1)).fps ∧
      ∃ rest, t.supply = f :: rest ∧ t' = t.addF N c (t.representative N c) f rest) := by
  unfold Topo.simplexF at h
  dsimp only at h
  split at h
  · rename_i o' ho
    simp at h
    exact Or.inl ⟨by rw [ho, h.2], h.1.symm⟩
  · rename_i ho
    refine Or.inr ⟨ho, ?_⟩
    unfold Topo.emplaceF at h
    split at h
    · simp at h
    · rename_i t1 o1 h1
      split at h1
      · simp at h1
      · rename_i i rest hs
        split at h1
        · simp at h1
        · rename_i hi
          simp at h1 h
          obtain ⟨rfl, rfl⟩ := h1
          obtain ⟨rfl, rfl⟩ := h
          refine ⟨hi, rest, hs, ?_⟩
          simp [Topo.addF, Topo.setLvl]

theorem addF_le {t : Topo} {N : Nat} {c k : List Id} {i : Id} {rest : List Id}
    (hi : i ∉ (t.lvl (N + 1)).fps) : Le t (t.addF N c k i rest) := by
  constructor
  · intro M
    by_cases e : M = N + 1
    · subst e; simp [Topo.addF]
    · simp [Topo.addF, e]
  · intro M
    by_cases e : M = N + 1
    · subst e; simp [Topo.addF]
    · simp [Topo.addF, e]
  · intro M g hg
    by_cases e : M = N + 1
    · subst e
      have : g ≠ i := fun e => hi (e ▸ hg)
      simp [Topo.addF, Topo.compF, this]
    · simp [Topo.addF, Topo.compF, e]
  · intro M o ho
    by_cases e : M = N + 1
    · subst e; simp [Topo.addF, Topo.fp]
    · simp [Topo.addF, Topo.fp, e]
  · intro M o ho
    by_cases e : M = N + 1
    · subst e; simp [Topo.addF, Topo.sg]
    · simp [Topo.addF, Topo.sg, e]
  · rfl
  · rfl

theorem addF_fp (t : Topo) (N : Nat) (c k : List Id) (i : Id) (rest : List Id) :
    (t.addF N c k i rest).fp = t.fp := by
  funext M o
  by_cases e : M = N + 1
  · subst e; simp [Topo.addF, Topo.fp]
  · simp [Topo.addF, Topo.fp, e]

theorem addF_inv {t : Topo} (h : Inv t) {N : Nat} {c : List Id} {i : Id} {rest : List Id}
    (hi : i ∉ (t.lvl (N + 1)).fps) (hc : ∀ x ∈ c, x ∈ (t.lvl N).ors) (hl : c.length = N + 2)
    (hnd : c.Nodup) (hn : (t.lvl (N + 1)).comps (t.representative N c) = none) :
    Inv (t.addF N c (t.representative N c) i rest) := by
  generalize hk : t.representative N c = k at hn ⊢
  have hle : Le t (t.addF N c k i rest) := addF_le hi
  have hors : ∀ M, ((t.addF N c k i rest).lvl M).ors = (t.lvl M).ors := by
    intro M
    by_cases e : M = N + 1
    · subst e; simp [Topo.addF]
    · simp [Topo.addF, e]
  have horr : ∀ M, ((t.addF N c k i rest).lvl M).orients = (t.lvl M).orients := by
    intro M
    by_cases e : M = N + 1
    · subst e; simp [Topo.addF]
    · simp [Topo.addF, e]
  have hfps : ∀ M g, g ∈ ((t.addF N c k i rest).lvl M).fps ↔
      g ∈ (t.lvl M).fps ∨ (M = N + 1 ∧ g = i) := by
    intro M g
    by_cases e : M = N + 1
    · subst e; simp [Topo.addF]; tauto
    · simp [Topo.addF, e]
  have hnew : (t.addF N c k i rest).compF (N + 1) i = c := by simp [Topo.addF, Topo.compF]
  have hrep : ∀ M d, (t.addF N c k i rest).representative M d = t.representative M d := by
    intro M d
    exact representative_congr fun x _ => by rw [addF_fp]
  constructor
  · intro M o ho
    rw [hors] at ho
    rw [addF_fp]
    exact hle.fps M (h.fp_live M o ho)
  · intro M o ho
    rw [hors] at ho
    rw [hle.osg M o ho]; exact h.sg M o ho
  · intro M g hg x hx
    rw [hors]
    rcases (hfps _ g).1 hg with hg | ⟨e, rfl⟩
    · rw [hle.comp _ g hg] at hx; exact h.comp_live M g hg x hx
    · have e' : M = N := by omega
      subst e'
      rw [hnew] at hx; exact hc x hx
  · intro M g hg
    rcases (hfps _ g).1 hg with hg | ⟨e, rfl⟩
    · rw [hle.comp _ g hg]; exact h.comp_len M g hg
    · have e' : M = N := by omega
      subst e'
      rw [hnew]; exact hl
  · intro M g hg
    rcases (hfps _ g).1 hg with hg | ⟨e, rfl⟩
    · rw [hle.comp _ g hg]; exact h.comp_nodup M g hg
    · have e' : M = N := by omega
      subst e'
      rw [hnew]; exact hnd
  · intro M d g
    by_cases e : M = N
    · subst e
      have hcc : ((t.addF M c k i rest).lvl (M + 1)).comps =
          Function.update (t.lvl (M + 1)).comps k (some i) := by simp [Topo.addF]
      rw [hcc, Function.update_apply, hrep]
      by_cases hd : d = k
      · subst hd
        rw [if_pos rfl]
        constructor
        · intro hg
          simp at hg
          subst hg
          exact ⟨(hfps _ _).2 (Or.inr ⟨rfl, rfl⟩), by rw [hnew, hk]⟩
        · rintro ⟨h1, h2⟩
          rcases (hfps _ g).1 h1 with hg | ⟨_, rfl⟩
          · rw [hle.comp _ g hg] at h2
            have := (h.comps M d g).2 ⟨hg, h2⟩
            rw [hn] at this; simp at this
          · rfl
      · rw [if_neg hd, h.comps]
        constructor
        · rintro ⟨h1, h2⟩
          exact ⟨(hfps _ _).2 (Or.inl h1), by rw [hle.comp _ g h1]; exact h2⟩
        · rintro ⟨h1, h2⟩
          rcases (hfps _ g).1 h1 with hg | ⟨_, rfl⟩
          · rw [hle.comp _ g hg] at h2; exact ⟨hg, h2⟩
          · rw [hnew, hk] at h2
            exact absurd h2.symm hd
    · have hcc : ((t.addF N c k i rest).lvl (M + 1)).comps = (t.lvl (M + 1)).comps := by
        simp [Topo.addF, e]
      have hff : ∀ g, g ∈ ((t.addF N c k i rest).lvl (M + 1)).fps ↔
          g ∈ (t.lvl (M + 1)).fps := by
        intro g; rw [hfps]; simp [e]
      rw [hcc, h.comps, hff, hrep]
      constructor
      · rintro ⟨h1, h2⟩
        exact ⟨h1, by rw [hle.comp _ g h1]; exact h2⟩
      · rintro ⟨h1, h2⟩
        exact ⟨h1, by rw [← hle.comp _ g h1]; exact h2⟩
  · intro M f s o
    rw [horr, h.orients, hors]
    constructor
    · rintro ⟨h1, h2, h3⟩
      exact ⟨h1, by rw [hle.ofp _ o h1, h2], by rw [hle.osg _ o h1, h3]⟩
    · rintro ⟨h1, h2, h3⟩
      exact ⟨h1, by rw [← hle.ofp _ o h1, h2], by rw [← hle.osg _ o h1, h3]⟩
  · intro M o ho
    exact hle.ors M (h.ext_live M o ho)
  · intro M g hg
    exact hle.fps M (h.extF_live M g hg)

theorem simplexF_spec {t t' : Topo} (h : Inv t) {N : Nat} {c : List Id} {f : Id}
    (hc : ∀ x ∈ c, x ∈ (t.lvl N).ors) (hl : c.length = N + 2) (hnd : c.Nodup)
    (hf : t.simplexF N c = some (t', f)) :
    Inv t' ∧ Le t t' ∧ f ∈ (t'.lvl (N + 1)).fps ∧ t'.fp = t.fp ∧
      (c.map (t.fp N)).Perm ((t'.compF (N + 1) f).map (t.fp N)) ∧
      (f ∉ (t.lvl (N + 1)).fps → t'.compF (N + 1) f = c) := by
  rcases simplexF_cases hf with ⟨h1, rfl⟩ | ⟨h1, h2, rest, h3, rfl⟩
  · obtain ⟨hfl, hr⟩ := (h.comps N _ f).1 h1
    refine ⟨h, Le.refl _, hfl, rfl, ?_, fun hn => absurd hfl hn⟩
    exact (representative_eq_iff _ _ N _ _).1 hr.symm
  · have hnew : (t.addF N c (t.representative N c) f rest).compF (N + 1) f = c := by
      simp [Topo.addF, Topo.compF]
    exact ⟨addF_inv h h2 hc hl hnd h1, addF_le h2, by simp [Topo.addF], addF_fp _ _ _ _ _ _,
      by rw [hnew], fun _ => hnew⟩

/-- what `simplex(composition)` does -/
theorem simplex_spec {t t' : Topo} (h : Inv t) {N : Nat} {c : List Id} {o : Id}
    (hc : ∀ x ∈ c, x ∈ (t.lvl N).ors) (hl : c.length = N + 2) (hnd : c.Nodup)
    (ho : t.simplex N c = some (t', o)) :
    Inv t' ∧ Le t t' ∧ o ∈ (t'.lvl (N + 1)).ors ∧ t.isValid (N + 1) c = some true ∧
      (c.map (t.fp N)).Perm ((t'.compF (N + 1) (t'.fp (N + 1) o)).map (t'.fp N)) ∧
      permutationSign (c.map (t.fp N)) ((t'.compF (N + 1) (t'.fp (N + 1) o)).map (t'.fp N)) =
        some (t'.sg (N + 1) o) ∧
      (t'.fp (N + 1) o ∉ (t.lvl (N + 1)).fps → t'.compF (N + 1) (t'.fp (N + 1) o) = c) ∧
      (∀ x ∈ c, t'.fp N x = t.fp N x) := by
  unfold Topo.simplex at ho
  split at ho
  · rename_i hv
    split at ho
    · simp at ho
    · rename_i t1 f hf
      obtain ⟨i1, l1, f1, e1, p1, n1⟩ := simplexF_spec h hc hl hnd hf
      split at ho
      · simp at ho
      · rename_i s hs
        unfold Topo.orientation at hs
        have hsv : s = 1 ∨ s = -1 := by
          unfold permutationSign at hs
          split at hs
          · simp at hs
          · cases hk : swapSort (c.map (t1.fp N)) ((t1.compF (N + 1) f).map (t1.fp N)) with
            | none => simp [hk] at hs
            | some k => simp [hk] at hs; split at hs <;> simp [← hs]
        obtain ⟨i2, l2, o2, f2, s2⟩ := orientedF_spec i1 f1 hsv ho
        have hcomp : (t'.compF (N + 1) (t'.fp (N + 1) o)).map (t'.fp N) =
            (t1.compF (N + 1) f).map (t1.fp N) := by
          rw [f2, l2.comp _ f f1]
          exact map_fp_congr fun x hx => l2.ofp N x (i1.comp_live N f f1 x hx)
        refine ⟨i2, l1.trans l2, o2, hv, ?_, ?_, ?_, ?_⟩
        · rw [hcomp, e1]; exact p1
        · rw [hcomp, s2, ← hs, e1]
        · rw [f2, l2.comp _ f f1]; exact n1
        · intro x hx
          rw [l2.ofp N x (l1.ors N (hc x hx)), e1]
  · simp at ho

end Mito.Topology
