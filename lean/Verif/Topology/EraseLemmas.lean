import Verif.Topology.Lemmas
import Mathlib.Algebra.Order.BigOperators.Group.Finset

/-! # Helper lemmas for the topology: erasure -/

set_option linter.unusedSimpArgs false
set_option linter.unusedVariables false

namespace Mito.Topology

theorem Topo.eq_of {t t' : Topo} (h1 : t.lvl = t'.lvl) (h2 : t.ext = t'.ext)
    (h3 : t.extF = t'.extF) (h4 : t.supply = t'.supply) : t = t' := by
  obtain ⟨a, b, c, d⟩ := t
  obtain ⟨a', b', c', d'⟩ := t'
  simp only at h1 h2 h3 h4
  subst h1 h2 h3 h4
  rfl

/-! ### holding and dropping a list of handles -/

theorem hold_foldl (N : Nat) (c : List Id) : ∀ t : Topo,
    (c.foldl (fun t x => t.hold N x) t).lvl = t.lvl ∧
    (c.foldl (fun t x => t.hold N x) t).extF = t.extF ∧
    (c.foldl (fun t x => t.hold N x) t).supply = t.supply ∧
    ∀ M x, (c.foldl (fun t x => t.hold N x) t).ext M x =
      t.ext M x + if M = N then c.count x else 0 := by
  induction c with
  | nil => intro t; simp
  | cons y ys ih =>
    intro t
    obtain ⟨h1, h2, h3, h4⟩ := ih (t.hold N y)
    simp only [List.foldl_cons]
    refine ⟨by rw [h1]; rfl, by rw [h2]; rfl, by rw [h3]; rfl, ?_⟩
    intro M x
    rw [h4]
    simp only [Topo.hold, Topo.setExt, Function.update_apply]
    by_cases e : M = N
    · subst e
      by_cases e' : x = y
      · subst e'; simp; omega
      · simp [e', Ne.symm e']
    · simp [e]

theorem drop_foldl (N : Nat) (c : List Id) : ∀ t : Topo,
    (c.foldl (fun t x => t.drop N x) t).lvl = t.lvl ∧
    (c.foldl (fun t x => t.drop N x) t).extF = t.extF ∧
    (c.foldl (fun t x => t.drop N x) t).supply = t.supply ∧
    ∀ M x, (c.foldl (fun t x => t.drop N x) t).ext M x =
      t.ext M x - if M = N then c.count x else 0 := by
  induction c with
  | nil => intro t; simp
  | cons y ys ih =>
    intro t
    obtain ⟨h1, h2, h3, h4⟩ := ih (t.drop N y)
    simp only [List.foldl_cons]
    refine ⟨by rw [h1]; rfl, by rw [h2]; rfl, by rw [h3]; rfl, ?_⟩
    intro M x
    rw [h4]
    simp only [Topo.drop, Topo.setExt, Function.update_apply]
    by_cases e : M = N
    · subst e
      by_cases e' : x = y
      · subst e'; simp; omega
      · simp [e', Ne.symm e']
    · simp [e]

/-- changing handles keeps the invariant as long as only simplices alive are held -/
theorem Inv.of_ext {t t' : Topo} (h : Inv t) (hl : t'.lvl = t.lvl) (hF : t'.extF = t.extF)
    (he : ∀ N o, 0 < t'.ext N o → o ∈ (t.lvl N).ors) : Inv t' := by
  obtain ⟨l, e, f, s⟩ := t
  obtain ⟨l', e', f', s'⟩ := t'
  simp only at hl hF
  subst hl hF
  exact ⟨h.fp_live, h.sg, h.comp_live, h.comp_len, h.comp_nodup, h.comps, h.orients, he,
    h.extF_live⟩

theorem refs_of_lvl {t t' : Topo} {N : Nat} (h : t'.lvl (N + 1) = t.lvl (N + 1)) (x : Id) :
    t'.refs N x + t.ext N x = t.refs N x + t'.ext N x := by
  unfold Topo.refs Topo.compF
  rw [h]; omega

theorem refsF_of_lvl {t t' : Topo} {N : Nat} (h : t'.lvl N = t.lvl N) (hF : t'.extF = t.extF)
    (x : Id) : t'.refsF N x = t.refsF N x := by
  unfold Topo.refsF
  rw [h, hF]

theorem mem_swap01 {α : Type*} (l : List α) (x : α) : x ∈ swap01 l ↔ x ∈ l := by
  match l with
  | [] => simp [swap01]
  | [a] => simp [swap01]
  | a :: b :: l => simp [swap01]; tauto

theorem swap01_perm {α : Type*} (l : List α) : (swap01 l).Perm l := by
  match l with
  | [] => simp [swap01]
  | [a] => simp [swap01]
  | a :: b :: l => exact List.Perm.swap a b l

theorem composition_perm (t : Topo) (N : Nat) (o : Id) :
    (t.composition N o).Perm (t.compF N (t.fp N o)) := by
  unfold Topo.composition
  split
  · exact swap01_perm _
  · exact List.Perm.refl _

/-- a subsimplex of a footprint alive is referenced -/
theorem refs_pos_of_mem {t : Topo} {N : Nat} {f x : Id} (hf : f ∈ (t.lvl (N + 1)).fps)
    (hx : x ∈ t.compF (N + 1) f) : t.ext N x + 1 ≤ t.refs N x := by
  unfold Topo.refs
  have h1 : (t.compF (N + 1) f).count x ≤
      ∑ f ∈ (t.lvl (N + 1)).fps, (t.compF (N + 1) f).count x :=
    Finset.single_le_sum (f := fun f => (t.compF (N + 1) f).count x) (fun _ _ => Nat.zero_le _) hf
  have h2 : 0 < (t.compF (N + 1) f).count x := List.count_pos_iff.mpr hx
  omega

/-! ### erasing a footprint -/

theorem eraseF_spec {t : Topo} (h : Inv t) {N : Nat} {f : Id} (hf : f ∈ (t.lvl N).fps) :
    Inv (t.eraseF N f) ∧ (∀ M, M ≠ N → (t.eraseF N f).lvl M = t.lvl M) ∧
    (t.eraseF N f).ext = t.ext ∧ (t.eraseF N f).extF = t.extF ∧
    (t.eraseF N f).supply = t.supply ∧ (t.eraseF N f).compF = t.compF ∧
    (t.eraseF N f).fp = t.fp ∧ (t.eraseF N f).sg = t.sg ∧
    ((t.eraseF N f).lvl N).ors = (t.lvl N).ors ∧
    ((t.eraseF N f).lvl N).fps = (if 0 < t.refsF N f then (t.lvl N).fps else (t.lvl N).fps.erase f)
    := by
  by_cases hr : 0 < t.refsF N f
  · have e : t.eraseF N f = t := by simp [Topo.eraseF, hr]
    rw [e]
    exact ⟨h, fun _ _ => rfl, rfl, rfl, rfl, rfl, rfl, rfl, rfl, by simp [hr]⟩
  · obtain ⟨l', e, hfps, hors, hcomp, hofp, hosg, horr, hcomps⟩ : ∃ l' : Level,
        t.eraseF N f = t.setLvl N l' ∧ l'.fps = (t.lvl N).fps.erase f ∧ l'.ors = (t.lvl N).ors ∧
        l'.comp = (t.lvl N).comp ∧ l'.ofp = (t.lvl N).ofp ∧ l'.osg = (t.lvl N).osg ∧
        l'.orients = (t.lvl N).orients ∧
        ∀ M, N = M + 1 → l'.comps =
          Function.update (t.lvl N).comps (t.representative M (t.compF N f)) none := by
      cases N with
      | zero =>
        exact ⟨{ t.lvl 0 with fps := (t.lvl 0).fps.erase f },
          by simp only [Topo.eraseF, hr, if_false], rfl, rfl, rfl, rfl, rfl, rfl,
          fun M hM => by simp at hM⟩
      | succ M =>
        refine ⟨{ t.lvl (M + 1) with
                    fps := (t.lvl (M + 1)).fps.erase f,
                    comps := Function.update (t.lvl (M + 1)).comps
                      (t.representative M ((t.lvl (M + 1)).comp f)) none },
          by simp only [Topo.eraseF, hr, if_false], rfl, rfl, rfl, rfl, rfl, rfl,
          fun M' hM' => ?_⟩
        have : M' = M := by omega
        subst this; rfl
    rw [e]
    have hself : (t.setLvl N l').lvl N = l' := by simp [Topo.setLvl]
    have hne : ∀ M, M ≠ N → (t.setLvl N l').lvl M = t.lvl M := fun M hM => by
      simp [Topo.setLvl, hM]
    have ecomp : (t.setLvl N l').compF = t.compF := by
      funext M x
      by_cases eM : M = N
      · subst eM; simp [Topo.compF, hself, hcomp]
      · simp [Topo.compF, hne M eM]
    have efp : (t.setLvl N l').fp = t.fp := by
      funext M x
      by_cases eM : M = N
      · subst eM; simp [Topo.fp, hself, hofp]
      · simp [Topo.fp, hne M eM]
    have esg : (t.setLvl N l').sg = t.sg := by
      funext M x
      by_cases eM : M = N
      · subst eM; simp [Topo.sg, hself, hosg]
      · simp [Topo.sg, hne M eM]
    have eors : ∀ M, ((t.setLvl N l').lvl M).ors = (t.lvl M).ors := by
      intro M
      by_cases eM : M = N
      · subst eM; rw [hself, hors]
      · rw [hne M eM]
    have eorr : ∀ M, ((t.setLvl N l').lvl M).orients = (t.lvl M).orients := by
      intro M
      by_cases eM : M = N
      · subst eM; rw [hself, horr]
      · rw [hne M eM]
    have efps : ∀ M g, g ∈ ((t.setLvl N l').lvl M).fps ↔
        g ∈ (t.lvl M).fps ∧ ¬ (M = N ∧ g = f) := by
      intro M g
      by_cases eM : M = N
      · subst eM; rw [hself, hfps]; simp; tauto
      · rw [hne M eM]; simp [eM]
    have erep : ∀ M c, (t.setLvl N l').representative M c = t.representative M c := by
      intro M c; exact representative_congr fun x _ => by rw [efp]
    unfold Topo.refsF at hr
    have hx0 : t.extF N f = 0 := by omega
    have hno : ∀ o ∈ (t.lvl N).ors, t.fp N o ≠ f := by
      intro o ho hof
      have : 0 < ((t.lvl N).ors.filter fun o => (t.lvl N).ofp o = f).card :=
        Finset.card_pos.mpr ⟨o, by simp [ho]; exact hof⟩
      omega
    refine ⟨?_, hne, rfl, rfl, rfl, ecomp, efp, esg, eors N, ?_⟩
    · constructor
      · intro M o ho
        rw [eors] at ho
        rw [efp, efps]
        exact ⟨h.fp_live M o ho, fun ⟨e1, e2⟩ => by subst e1; exact hno o ho e2⟩
      · intro M o ho
        rw [eors] at ho
        rw [esg]; exact h.sg M o ho
      · intro M g hg x hx
        rw [efps] at hg
        rw [ecomp] at hx
        rw [eors]; exact h.comp_live M g hg.1 x hx
      · intro M g hg
        rw [efps] at hg
        rw [ecomp]; exact h.comp_len M g hg.1
      · intro M g hg
        rw [efps] at hg
        rw [ecomp]; exact h.comp_nodup M g hg.1
      · intro M k g
        rw [efps, ecomp, erep]
        by_cases eM : M + 1 = N
        · subst eM
          rw [hself, hcomps M rfl, Function.update_apply]
          have hkey := (h.comps M _ f).2 ⟨hf, rfl⟩
          by_cases ek : k = t.representative M (t.compF (M + 1) f)
          · rw [if_pos ek]
            constructor
            · intro hh; simp at hh
            · rintro ⟨⟨h1, h2⟩, h3⟩
              have := (h.comps M _ g).2 ⟨h1, h3⟩
              rw [ek, hkey] at this
              simp at this
              exact absurd ⟨rfl, this.symm⟩ h2
          · rw [if_neg ek, h.comps]
            constructor
            · rintro ⟨h1, h2⟩
              refine ⟨⟨h1, fun ⟨_, e2⟩ => ek ?_⟩, h2⟩
              rw [← h2, e2]
            · rintro ⟨⟨h1, _⟩, h2⟩
              exact ⟨h1, h2⟩
        · rw [hne _ eM, h.comps]
          simp [eM]
      · intro M g s o
        rw [eorr, h.orients, eors, efp, esg]
      · intro M o ho
        rw [eors]; exact h.ext_live M o ho
      · intro M g hg
        rw [efps]
        refine ⟨h.extF_live M g hg, fun ⟨e1, e2⟩ => ?_⟩
        subst e1 e2
        have : 0 < t.extF M g := hg
        omega
    · rw [hself, hfps, if_neg (by unfold Topo.refsF; exact hr)]

/-! ### erasing an oriented simplex -/

theorem eraseO_inUse {t : Topo} {N : Nat} {o : Id} (h : 1 < t.refs N o) :
    t.eraseO N o = (t, false) := by simp [Topo.eraseO, h]

/-- everything about a real erasure of an oriented simplex -/
structure EraseO (N : Nat) (o : Id) (t t' : Topo) : Prop where
  inv : Inv t'
  lvl_ne : ∀ M, M ≠ N → t'.lvl M = t.lvl M
  compF : t'.compF = t.compF
  fp : t'.fp = t.fp
  sg : t'.sg = t.sg
  extF : t'.extF = t.extF
  supply : t'.supply = t.supply
  ext : ∀ M x, t'.ext M x = if M = N ∧ x = o then t.ext M x - 1 else t.ext M x
  ors : (t'.lvl N).ors = (t.lvl N).ors.erase o
  fps_sub : (t'.lvl N).fps ⊆ (t.lvl N).fps
  fps_ne : ∀ f ∈ (t.lvl N).fps, f ≠ t.fp N o → f ∈ (t'.lvl N).fps
  garbage : ∀ f ∈ (t'.lvl N).fps, t'.refsF N f = 0 → t.refsF N f = 0

theorem eraseO_spec {t : Topo} (h : Inv t) {N : Nat} {o : Id} (ho : 0 < t.ext N o)
    (hr : ¬ 1 < t.refs N o) :
    (t.eraseO N o).2 = true ∧ EraseO N o t (t.eraseO N o).1 := by
  have hol := h.ext_live N o ho
  have hfl := h.fp_live N o hol
  -- the state before the footprint is erased
  let l := t.lvl N
  let l1 : Level := { l with orients := Function.update l.orients (l.ofp o, l.osg o) none,
                             ors := l.ors.erase o }
  let t1 := t.setLvl N l1
  let t2 := t1.setExt N o (t1.ext N o - 1)
  have e : t.eraseO N o = (t2.eraseF N (t.fp N o), true) := by
    simp [Topo.eraseO, hr, t2, t1, l1, l, Topo.fp]
  have hself : t2.lvl N = l1 := by simp [t2, t1, Topo.setExt, Topo.setLvl]
  have hne : ∀ M, M ≠ N → t2.lvl M = t.lvl M := fun M hM => by
    simp [t2, t1, Topo.setExt, Topo.setLvl, hM]
  have ecomp : t2.compF = t.compF := by
    funext M x
    by_cases eM : M = N
    · subst eM; simp [Topo.compF, hself, l1, l]
    · simp [Topo.compF, hne M eM]
  have efp : t2.fp = t.fp := by
    funext M x
    by_cases eM : M = N
    · subst eM; simp [Topo.fp, hself, l1, l]
    · simp [Topo.fp, hne M eM]
  have esg : t2.sg = t.sg := by
    funext M x
    by_cases eM : M = N
    · subst eM; simp [Topo.sg, hself, l1, l]
    · simp [Topo.sg, hne M eM]
  have efps : ∀ M, (t2.lvl M).fps = (t.lvl M).fps := by
    intro M
    by_cases eM : M = N
    · subst eM; simp [hself, l1, l]
    · rw [hne M eM]
  have ecps : ∀ M, (t2.lvl M).comps = (t.lvl M).comps := by
    intro M
    by_cases eM : M = N
    · subst eM; simp [hself, l1, l]
    · rw [hne M eM]
  have eors : ∀ M x, x ∈ (t2.lvl M).ors ↔ x ∈ (t.lvl M).ors ∧ ¬ (M = N ∧ x = o) := by
    intro M x
    by_cases eM : M = N
    · subst eM; simp [hself, l1, l]; tauto
    · rw [hne M eM]; simp [eM]
  have eext : ∀ M x, t2.ext M x = if M = N ∧ x = o then t.ext M x - 1 else t.ext M x := by
    intro M x
    simp only [t2, t1, Topo.setExt, Topo.setLvl, Function.update_apply]
    by_cases eM : M = N
    · subst eM
      by_cases ex : x = o
      · subst ex; simp
      · simp [ex]
    · simp [eM]
  have erep : ∀ M c, t2.representative M c = t.representative M c := by
    intro M c; exact representative_congr fun x _ => by rw [efp]
  -- nobody else uses `o`
  unfold Topo.refs at hr
  have hsum : ∑ f ∈ (t.lvl (N + 1)).fps, (t.compF (N + 1) f).count o = 0 := by omega
  have hext1 : t.ext N o = 1 := by omega
  have hnot : ∀ g ∈ (t.lvl (N + 1)).fps, o ∉ t.compF (N + 1) g := by
    intro g hg hm
    have h1 := (Finset.sum_eq_zero_iff.mp hsum) g hg
    have h2 : 0 < (t.compF (N + 1) g).count o := List.count_pos_iff.mpr hm
    omega
  have hinv2 : Inv t2 := by
    constructor
    · intro M x hx
      rw [eors] at hx
      rw [efp, efps]; exact h.fp_live M x hx.1
    · intro M x hx
      rw [eors] at hx
      rw [esg]; exact h.sg M x hx.1
    · intro M g hg x hx
      rw [efps] at hg
      rw [ecomp] at hx
      rw [eors]
      refine ⟨h.comp_live M g hg x hx, fun ⟨e1, e2⟩ => ?_⟩
      subst e1 e2
      exact hnot g hg hx
    · intro M g hg
      rw [efps] at hg
      rw [ecomp]; exact h.comp_len M g hg
    · intro M g hg
      rw [efps] at hg
      rw [ecomp]; exact h.comp_nodup M g hg
    · intro M k g
      rw [ecps, h.comps, efps, ecomp, erep]
    · intro M g s x
      rw [eors, efp, esg]
      by_cases eM : M = N
      · subst eM
        rw [hself]
        show Function.update (t.lvl M).orients (t.fp M o, t.sg M o) none (g, s) = some x ↔ _
        rw [Function.update_apply]
        by_cases ek : (g, s) = (t.fp M o, t.sg M o)
        · rw [if_pos ek]
          simp only [Prod.mk.injEq] at ek
          constructor
          · intro hh; simp at hh
          · rintro ⟨⟨h1, h2⟩, h3, h4⟩
            have := h.oriented_unique h1 hol (by rw [h3, ek.1]) (by rw [h4, ek.2])
            exact absurd ⟨rfl, this⟩ h2
        · rw [if_neg ek, h.orients]
          constructor
          · rintro ⟨h1, h2, h3⟩
            refine ⟨⟨h1, fun ⟨_, e2⟩ => ek ?_⟩, h2, h3⟩
            rw [← h2, ← h3, e2]
          · rintro ⟨⟨h1, _⟩, h2, h3⟩
            exact ⟨h1, h2, h3⟩
      · rw [hne M eM, h.orients]
        simp [eM]
    · intro M x hx
      rw [eext] at hx
      rw [eors]
      split at hx
      · rename_i hc
        obtain ⟨rfl, rfl⟩ := hc
        omega
      · rename_i hc
        exact ⟨h.ext_live M x hx, hc⟩
    · intro M g hg
      rw [efps]; exact h.extF_live M g hg
  obtain ⟨a1, a2, a3, a4, a5, a6, a7, a8, a9, a10⟩ :=
    eraseF_spec hinv2 (N := N) (f := t.fp N o) (by rw [efps]; exact hfl)
  rw [e]
  refine ⟨rfl, ?_⟩
  constructor
  · exact a1
  · intro M hM; rw [a2 M hM, hne M hM]
  · rw [a6, ecomp]
  · rw [a7, efp]
  · rw [a8, esg]
  · rw [a4]; rfl
  · rw [a5]; rfl
  · intro M x; rw [a3]; exact eext M x
  · rw [a9]; simp [hself, l1, l]
  · rw [a10, efps]
    split
    · exact subset_rfl
    · exact Finset.erase_subset _ _
  · intro f hf hne'
    rw [a10, efps]
    split
    · exact hf
    · simp [hf, hne']
  · intro f hf hz
    rw [a10, efps] at hf
    have hrF : (t2.eraseF N (t.fp N o)).refsF N f = t2.refsF N f := by
      have c1 : ((t2.eraseF N (t.fp N o)).lvl N).ofp = (t2.lvl N).ofp := by
        have := congrFun a7 N
        unfold Topo.fp at this
        exact this
      unfold Topo.refsF
      rw [a4, a9, c1]
    rw [hrF] at hz
    split at hf
    · rename_i hpos
      -- the footprint is kept because it is referenced
      by_cases ef : f = t.fp N o
      · subst ef; omega
      · unfold Topo.refsF at hz ⊢
        rw [hself] at hz
        simp only [l1, l] at hz
        have : (t2.extF N f) = t.extF N f := rfl
        have hfil : ((t.lvl N).ors.erase o).filter (fun x => (t.lvl N).ofp x = f) =
            (t.lvl N).ors.filter (fun x => (t.lvl N).ofp x = f) := by
          ext x
          simp only [Finset.mem_filter, Finset.mem_erase]
          constructor
          · rintro ⟨⟨_, h1⟩, h2⟩; exact ⟨h1, h2⟩
          · rintro ⟨h1, h2⟩
            refine ⟨⟨fun ex => ef ?_, h1⟩, h2⟩
            rw [← h2, ex]; rfl
        rw [hfil, this] at hz
        exact hz
    · have ef : f ≠ t.fp N o := by simp at hf; exact hf.1
      unfold Topo.refsF at hz ⊢
      rw [hself] at hz
      simp only [l1, l] at hz
      have : (t2.extF N f) = t.extF N f := rfl
      have hfil : ((t.lvl N).ors.erase o).filter (fun x => (t.lvl N).ofp x = f) =
          (t.lvl N).ors.filter (fun x => (t.lvl N).ofp x = f) := by
        ext x
        simp only [Finset.mem_filter, Finset.mem_erase]
        constructor
        · rintro ⟨⟨_, h1⟩, h2⟩; exact ⟨h1, h2⟩
        · rintro ⟨h1, h2⟩
          refine ⟨⟨fun ex => ef ?_, h1⟩, h2⟩
          rw [← h2, ex]; rfl
      rw [hfil, this] at hz
      exact hz

/-! ### recursive erasure -/

/-- `t'` is obtained from `t` by removing things of order at most `N` -/
structure Shr (N : Nat) (t t' : Topo) : Prop where
  inv : Inv t'
  lvl_gt : ∀ M, N < M → t'.lvl M = t.lvl M
  fps : ∀ M, (t'.lvl M).fps ⊆ (t.lvl M).fps
  ors : ∀ M, (t'.lvl M).ors ⊆ (t.lvl M).ors
  compF : t'.compF = t.compF
  fp : t'.fp = t.fp
  sg : t'.sg = t.sg
  extF : t'.extF = t.extF
  supply : t'.supply = t.supply
  ext_ne : ∀ M, M ≠ N → t'.ext M = t.ext M
  ng : ∀ M, M < N → ∀ y ∈ (t'.lvl M).ors, t'.refs M y = 0 → t.refs M y = 0
  ngF : ∀ M, M ≤ N → ∀ f ∈ (t'.lvl M).fps, t'.refsF M f = 0 → t.refsF M f = 0

theorem Shr.refl {t : Topo} (h : Inv t) (N : Nat) : Shr N t t :=
  ⟨h, fun _ _ => rfl, fun _ => subset_rfl, fun _ => subset_rfl, rfl, rfl, rfl, rfl, rfl,
    fun _ _ => rfl, fun _ _ _ _ h => h, fun _ _ _ _ h => h⟩

theorem Shr.trans {N : Nat} {t t' t'' : Topo} (h : Shr N t t') (h' : Shr N t' t'') :
    Shr N t t'' where
  inv := h'.inv
  lvl_gt M hM := (h'.lvl_gt M hM).trans (h.lvl_gt M hM)
  fps M := (h'.fps M).trans (h.fps M)
  ors M := (h'.ors M).trans (h.ors M)
  compF := h'.compF.trans h.compF
  fp := h'.fp.trans h.fp
  sg := h'.sg.trans h.sg
  extF := h'.extF.trans h.extF
  supply := h'.supply.trans h.supply
  ext_ne M hM := (h'.ext_ne M hM).trans (h.ext_ne M hM)
  ng M hM y hy hz := h.ng M hM y (h'.ors M hy) (h'.ng M hM y hy hz)
  ngF M hM f hf hz := h.ngF M hM f (h'.fps M hf) (h'.ngF M hM f hf hz)

/-- what one call of `_erase` does -/
structure EraseSpec (N : Nat) (t : Topo) (o : Id) (r : Topo × Bool) : Prop where
  shr : Shr N t r.1
  noop : r.2 = false → r.1 = t ∧ 1 < t.refs N o
  erased : r.2 = true → t.refs N o = 1 ∧ o ∉ (r.1.lvl N).ors
  ext : ∀ x, r.1.ext N x = if r.2 = true ∧ x = o then t.ext N x - 1 else t.ext N x
  ors_ne : ∀ x ∈ (t.lvl N).ors, x ≠ o → x ∈ (r.1.lvl N).ors

theorem erase_zero {t : Topo} (h : Inv t) {o : Id} (ho : 0 < t.ext 0 o) :
    EraseSpec 0 t o (Topo.erase 0 t o) := by
  show EraseSpec 0 t o (t.eraseO 0 o)
  by_cases hr : 1 < t.refs 0 o
  · rw [eraseO_inUse hr]
    exact ⟨Shr.refl h 0, fun _ => ⟨rfl, hr⟩, fun h => by simp at h, fun x => by simp,
      fun x hx _ => hx⟩
  · obtain ⟨hb, hs⟩ := eraseO_spec h ho hr
    generalize t.eraseO 0 o = r at hb hs
    obtain ⟨t', b⟩ := r
    simp only at hb hs
    subst hb
    refine ⟨?_, fun h => by simp at h, fun _ => ⟨?_, ?_⟩, ?_, ?_⟩
    · constructor
      · exact hs.inv
      · intro M hM; exact hs.lvl_ne M (by omega)
      · intro M
        by_cases e : M = 0
        · subst e; exact hs.fps_sub
        · rw [hs.lvl_ne M e]
      · intro M
        by_cases e : M = 0
        · subst e; rw [hs.ors]; exact Finset.erase_subset _ _
        · rw [hs.lvl_ne M e]
      · exact hs.compF
      · exact hs.fp
      · exact hs.sg
      · exact hs.extF
      · exact hs.supply
      · intro M hM; funext x; rw [hs.ext]; simp [hM]
      · intro M hM; omega
      · intro M hM f hf hz
        have : M = 0 := by omega
        subst this
        exact hs.garbage f hf hz
    · have : t.ext 0 o ≤ t.refs 0 o := by unfold Topo.refs; omega
      omega
    · rw [hs.ors]; simp
    · intro x; rw [hs.ext]; simp
    · intro x hx hne; rw [hs.ors]; simp [hx, hne]

/-- what the loop over the subsimplices does -/
structure LoopSpec (N : Nat) (t : Topo) (c : List Id) (q : Topo × List Id) : Prop where
  shr : Shr N t q.1
  sub : ∀ x ∈ q.2, x ∈ c
  nodup : q.2.Nodup
  ext : ∀ x, q.1.ext N x = if x ∈ c ∧ x ∉ q.2 then t.ext N x - 1 else t.ext N x
  gone : ∀ x ∈ c, x ∉ q.2 → x ∉ (q.1.lvl N).ors ∧ t.refs N x = 1
  used : ∀ x ∈ q.2, 1 < t.refs N x
  ors_ne : ∀ x ∈ (t.lvl N).ors, x ∉ c → x ∈ (q.1.lvl N).ors
  noop : (∀ x ∈ c, 1 < t.refs N x) → q = (t, c)

theorem loop_spec (N : Nat)
    (ih : ∀ t o, Inv t → 0 < t.ext N o → EraseSpec N t o (Topo.erase N t o)) (c : List Id) :
    ∀ t, Inv t → c.Nodup → (∀ x ∈ c, 0 < t.ext N x) →
      LoopSpec N t c (eraseLoop (Topo.erase N) t c) := by
  induction c with
  | nil =>
    intro t h _ _
    exact ⟨Shr.refl h N, by simp [eraseLoop], by simp [eraseLoop], by simp [eraseLoop],
      by simp, by simp [eraseLoop], by simp [eraseLoop], by simp [eraseLoop]⟩
  | cons x xs ihc =>
    intro t h hnd hpos
    rw [List.nodup_cons] at hnd
    have h1 := ih t x h (hpos x (by simp))
    obtain ⟨s1, n1, e1, x1, o1⟩ := h1
    have hpos' : ∀ y ∈ xs, 0 < (Topo.erase N t x).1.ext N y := by
      intro y hy
      have hne : y ≠ x := fun e => hnd.1 (e ▸ hy)
      rw [x1]; simp [hne]; exact hpos y (by simp [hy])
    have h2 := ihc _ s1.inv hnd.2 hpos'
    generalize hr : Topo.erase N t x = r at s1 n1 e1 x1 o1 h2
    obtain ⟨s2, u2, d2, x2, g2, us2, o2, np2⟩ := h2
    generalize hq : eraseLoop (Topo.erase N) r.1 xs = q at s2 u2 d2 x2 g2 us2 o2 np2
    have hev : eraseLoop (Topo.erase N) t (x :: xs) = (q.1, if r.2 then q.2 else x :: q.2) := by
      simp [eraseLoop, hr, hq]
    rw [hev]
    have hxq : x ∉ q.2 := fun hm => hnd.1 (u2 x hm)
    have hrefs : ∀ y, y ≠ x → r.1.refs N y = t.refs N y := by
      intro y hy
      have := refs_of_lvl (s1.lvl_gt (N + 1) (by omega)) y
      rw [x1] at this
      simp [hy] at this
      exact this
    cases hb : r.2 with
    | true =>
      simp only [if_true]
      refine ⟨s1.trans s2, fun y hy => List.mem_cons_of_mem _ (u2 y hy), d2, ?_, ?_, ?_, ?_, ?_⟩
      · intro y
        rw [x2, x1]
        by_cases ey : y = x
        · subst ey; simp [hnd.1, hxq, hb]
        · simp [ey]
      · intro y hy hyq
        rw [List.mem_cons] at hy
        rcases hy with rfl | hy
        · exact ⟨fun hm => (e1 hb).2 (s2.ors N hm), (e1 hb).1⟩
        · have hne : y ≠ x := fun e => hnd.1 (e ▸ hy)
          obtain ⟨a, b⟩ := g2 y hy hyq
          exact ⟨a, by rw [← hrefs y hne]; exact b⟩
      · intro y hy
        have hne : y ≠ x := fun e => hxq (e ▸ hy)
        rw [← hrefs y hne]; exact us2 y hy
      · intro y hy hyc
        simp only [List.mem_cons, not_or] at hyc
        exact o2 y (o1 y hy hyc.1) hyc.2
      · intro hall
        have := (e1 hb).1
        have := hall x (by simp)
        omega
    | false =>
      have hrt := (n1 hb).1
      rw [hrt] at s2 x2 g2 us2 o2 np2
      simp only [Bool.false_eq_true, if_false]
      refine ⟨s2, ?_, List.nodup_cons.mpr ⟨hxq, d2⟩, ?_, ?_, ?_, ?_, ?_⟩
      · intro y hy
        rw [List.mem_cons] at hy ⊢
        exact hy.imp id (u2 y)
      · intro y
        rw [x2]
        by_cases ey : y = x
        · subst ey; simp [hnd.1]
        · simp [ey]
      · intro y hy hyq
        simp only [List.mem_cons, not_or] at hy hyq
        exact g2 y (hy.resolve_left hyq.1) hyq.2
      · intro y hy
        rw [List.mem_cons] at hy
        rcases hy with rfl | hy
        · exact (n1 hb).2
        · exact us2 y hy
      · intro y hy hyc
        simp only [List.mem_cons, not_or] at hyc
        exact o2 y hy hyc.2
      · intro hall
        have := np2 (fun y hy => hall y (by simp [hy]))
        rw [this]

theorem erase_spec (N : Nat) : ∀ t o, Inv t → 0 < t.ext N o →
    EraseSpec N t o (Topo.erase N t o) := by
  induction N with
  | zero => intro t o h ho; exact erase_zero h ho
  | succ N ih =>
    intro t o h ho
    have hol := h.ext_live _ o ho
    have hfl := h.fp_live _ o hol
    -- the local copy of the composition
    let c := t.composition (N + 1) o
    have hcperm : c.Perm (t.compF (N + 1) (t.fp (N + 1) o)) := composition_perm t (N + 1) o
    have hcnd : c.Nodup := hcperm.nodup_iff.mpr (h.comp_nodup N _ hfl)
    have hcmem : ∀ x, x ∈ c ↔ x ∈ t.compF (N + 1) (t.fp (N + 1) o) := fun x => hcperm.mem_iff
    have hclive : ∀ x ∈ c, x ∈ (t.lvl N).ors := fun x hx =>
      h.comp_live N _ hfl x ((hcmem x).1 hx)
    let t1 := c.foldl (fun t x => t.hold N x) t
    obtain ⟨hl1, hF1, hs1, he1⟩ := hold_foldl N c t
    have hcount : ∀ x, c.count x = if x ∈ c then 1 else 0 := by
      intro x
      by_cases hx : x ∈ c
      · rw [if_pos hx]; exact List.count_eq_one_of_mem hcnd hx
      · rw [if_neg hx]; exact List.count_eq_zero_of_not_mem hx
    have hext1 : ∀ M x, t1.ext M x = t.ext M x + if M = N ∧ x ∈ c then 1 else 0 := by
      intro M x
      have := he1 M x
      rw [hcount] at this
      rw [show t1.ext M x = _ from this]
      by_cases e : M = N <;> simp [e]
    have h1 : Inv t1 := by
      apply h.of_ext hl1 hF1
      intro M x hx
      have hx' : 0 < t1.ext M x := hx
      rw [hext1] at hx'
      by_cases e : M = N ∧ x ∈ c
      · obtain ⟨rfl, hxc⟩ := e
        exact hclive x hxc
      · rw [if_neg e] at hx'
        exact h.ext_live M x (by omega)
    have hl1' : t1.lvl = t.lvl := hl1
    have ho1 : 0 < t1.ext (N + 1) o := by rw [hext1]; omega
    have href1 : ∀ M x, t1.refs M x = t.refs M x + if M = N ∧ x ∈ c then 1 else 0 := by
      intro M x
      unfold Topo.refs Topo.compF
      rw [hl1', hext1]; omega
    have hrefo : t1.refs (N + 1) o = t.refs (N + 1) o := by rw [href1]; simp
    -- the handle itself is one reference
    have href_pos : t.ext (N + 1) o ≤ t.refs (N + 1) o := by unfold Topo.refs; omega
    have hdef : Topo.erase (N + 1) t o =
        ((eraseLoop (Topo.erase N) (t1.eraseO (N + 1) o).1 c).2.foldl (fun t x => t.drop N x)
          (eraseLoop (Topo.erase N) (t1.eraseO (N + 1) o).1 c).1, (t1.eraseO (N + 1) o).2) := rfl
    rw [hdef]
    by_cases hr : 1 < t.refs (N + 1) o
    · -- in use: nothing happens
      have hnoop : t1.eraseO (N + 1) o = (t1, false) := eraseO_inUse (by rw [hrefo]; exact hr)
      rw [hnoop]
      simp only
      have hpos : ∀ x ∈ c, 0 < t1.ext N x := by
        intro x hx; rw [hext1]; simp [hx]
      have hloop := loop_spec N ih c t1 h1 hcnd hpos
      have hall : ∀ x ∈ c, 1 < t1.refs N x := by
        intro x hx
        have := refs_pos_of_mem hfl ((hcmem x).1 hx)
        rw [href1]; simp [hx]; omega
      rw [hloop.noop hall]
      simp only
      obtain ⟨hl4, hF4, hs4, he4⟩ := drop_foldl N c t1
      have heq : c.foldl (fun t x => t.drop N x) t1 = t := by
        apply Topo.eq_of
        · rw [hl4]; exact hl1
        · funext M x
          rw [he4, hext1, hcount]
          by_cases e : M = N
          · subst e
            by_cases e' : x ∈ c <;> simp [e']
          · simp [e]
        · rw [hF4]; exact hF1
        · rw [hs4]; exact hs1
      rw [heq]
      exact ⟨Shr.refl h _, fun _ => ⟨rfl, hr⟩, fun hh => by simp at hh, fun x => by simp,
        fun x hx _ => hx⟩
    · -- really erased
      obtain ⟨hb, hE⟩ := eraseO_spec h1 ho1 (by rw [hrefo]; exact hr)
      generalize t1.eraseO (N + 1) o = r at hb hE
      obtain ⟨t2, b⟩ := r
      simp only at hb hE
      subst hb
      simp only
      have hext2 : ∀ x, t2.ext N x = t1.ext N x := by
        intro x; rw [hE.ext]; simp
      have hpos : ∀ x ∈ c, 0 < t2.ext N x := by
        intro x hx; rw [hext2, hext1]; simp [hx]
      have hloop := loop_spec N ih c t2 hE.inv hcnd hpos
      generalize eraseLoop (Topo.erase N) t2 c = q at hloop
      obtain ⟨t3, rem⟩ := q
      obtain ⟨s3, sub3, nd3, x3, g3, us3, o3, _⟩ := hloop
      simp only at s3 sub3 nd3 x3 g3 us3 o3 ⊢
      obtain ⟨hl4, hF4, hs4, he4⟩ := drop_foldl N rem t3
      generalize rem.foldl (fun t x => t.drop N x) t3 = t4 at hl4 hF4 hs4 he4
      have hcountr : ∀ x, rem.count x = if x ∈ rem then 1 else 0 := by
        intro x
        by_cases hx : x ∈ rem
        · rw [if_pos hx]; exact List.count_eq_one_of_mem nd3 hx
        · rw [if_neg hx]; exact List.count_eq_zero_of_not_mem hx
      -- the outside handles on the subsimplices are as before
      have hext4 : ∀ x, t4.ext N x = t.ext N x := by
        intro x
        rw [he4, x3, hext2, hext1, hcountr]
        by_cases hxc : x ∈ c
        · by_cases hxr : x ∈ rem <;> simp [hxc, hxr]
        · have hxr : x ∉ rem := fun hm => hxc (sub3 x hm)
          simp [hxc, hxr]
      have hext4' : ∀ M, M ≠ N → t4.ext M = t3.ext M := by
        intro M hM; funext x; rw [he4]; simp [hM]
      have lvl1 : ∀ M, M ≠ N + 1 → t2.lvl M = t.lvl M := fun M hM => by
        rw [hE.lvl_ne M hM, hl1']
      have lvlgt : ∀ M, N < M → t4.lvl M = t2.lvl M := fun M hM => by
        rw [hl4]; exact s3.lvl_gt M hM
      have hcompF4 : t4.compF = t.compF := by
        have : t4.compF = t3.compF := by unfold Topo.compF; rw [hl4]
        rw [this, s3.compF, hE.compF]
        unfold Topo.compF; rw [hl1']
      have hfp4 : t4.fp = t.fp := by
        have : t4.fp = t3.fp := by unfold Topo.fp; rw [hl4]
        rw [this, s3.fp, hE.fp]
        unfold Topo.fp; rw [hl1']
      have hsg4 : t4.sg = t.sg := by
        have : t4.sg = t3.sg := by unfold Topo.sg; rw [hl4]
        rw [this, s3.sg, hE.sg]
        unfold Topo.sg; rw [hl1']
      have hextF4 : t4.extF = t.extF := by
        rw [hF4, s3.extF, hE.extF]; exact hF1
      have hinv4 : Inv t4 := by
        apply s3.inv.of_ext hl4 hF4
        intro M x hx
        apply s3.inv.ext_live
        rw [he4] at hx
        omega
      have href4 : ∀ M, M < N → ∀ x, t4.refs M x = t3.refs M x := by
        intro M hM x
        have := refs_of_lvl (t := t3) (t' := t4) (N := M) (by rw [hl4]) x
        rw [hext4' M (by omega)] at this
        omega
      have href2 : ∀ M, M < N → ∀ x, t2.refs M x = t.refs M x := by
        intro M hM x
        have := refs_of_lvl (t := t) (t' := t2) (N := M) (lvl1 (M + 1) (by omega)) x
        have e : t2.ext M x = t.ext M x := by
          rw [hE.ext, hext1]
          have h1 : ¬ (M = N + 1 ∧ x = o) := by omega
          have h2 : ¬ (M = N ∧ x ∈ c) := fun hh => by omega
          rw [if_neg h1, if_neg h2]; rfl
        omega
      have fps2sub : ∀ M, (t2.lvl M).fps ⊆ (t.lvl M).fps := by
        intro M
        by_cases e : M = N + 1
        · subst e
          have := hE.fps_sub
          rw [hl1'] at this
          exact this
        · rw [lvl1 M e]
      have ors2sub : ∀ M, (t2.lvl M).ors ⊆ (t.lvl M).ors := by
        intro M
        by_cases e : M = N + 1
        · subst e
          rw [hE.ors, hl1']
          exact Finset.erase_subset _ _
        · rw [lvl1 M e]
      refine ⟨?_, fun hh => by simp at hh, fun _ => ⟨by omega, ?_⟩, ?_, ?_⟩
      · constructor
        · exact hinv4
        · intro M hM
          rw [lvlgt M (by omega), lvl1 M (by omega)]
        · intro M
          rw [hl4]
          exact (s3.fps M).trans (fps2sub M)
        · intro M
          rw [hl4]
          exact (s3.ors M).trans (ors2sub M)
        · exact hcompF4
        · exact hfp4
        · exact hsg4
        · exact hextF4
        · rw [hs4, s3.supply, hE.supply]; exact hs1
        · intro M hM
          by_cases e : M = N
          · subst e; funext x; exact hext4 x
          · rw [hext4' M e, s3.ext_ne M e]
            funext x
            rw [hE.ext, hext1]
            simp [hM, e]
        · -- no new garbage among oriented simplices
          intro M hM y hy hz
          rcases Nat.lt_or_ge M N with hlt | hge
          · rw [href4 M hlt] at hz
            rw [hl4] at hy
            rw [← href2 M hlt]
            exact s3.ng M hlt y hy hz
          · have e : M = N := by omega
            subst e
            change t4.refs M y = 0 at hz
            rw [hl4] at hy
            by_cases hyc : y ∈ c
            · exfalso
              have hyr : y ∈ rem := by
                by_contra hyr
                exact (g3 y hyc hyr).1 hy
              have h2 := us3 y hyr
              have e3 : t3.refs M y = t2.refs M y := by
                have := refs_of_lvl (t := t2) (t' := t3) (N := M) (s3.lvl_gt (M + 1) (by omega)) y
                rw [x3] at this
                simp [hyr] at this
                exact this
              have e4 := refs_of_lvl (t := t3) (t' := t4) (N := M) (by rw [hl4]) y
              have e5 : t4.ext M y = t3.ext M y - 1 := by
                rw [he4, hcountr]; simp [hyr]
              omega
            · have hyr : y ∉ rem := fun hm => hyc (sub3 y hm)
              have e3 : t3.refs M y = t2.refs M y := by
                have := refs_of_lvl (t := t2) (t' := t3) (N := M) (s3.lvl_gt (M + 1) (by omega)) y
                rw [x3] at this
                simp [hyc] at this
                exact this
              have e4 : t4.refs M y = t3.refs M y := by
                have := refs_of_lvl (t := t3) (t' := t4) (N := M) (by rw [hl4]) y
                have e5 : t4.ext M y = t3.ext M y := by
                  rw [he4, hcountr]; simp [hyr]
                omega
              have e2 : t2.refs M y = t.refs M y := by
                unfold Topo.refs
                rw [hext2, hext1]
                simp only [hyc, and_false, if_false, Nat.add_zero]
                congr 1
                rw [hE.compF]
                have hcf : t1.compF = t.compF := by unfold Topo.compF; rw [hl1']
                rw [hcf]
                apply Finset.sum_subset (fps2sub (M + 1))
                intro g hg hng
                have : g = t.fp (M + 1) o := by
                  by_contra hne
                  apply hng
                  apply hE.fps_ne g (by rw [hl1']; exact hg)
                  have : t1.fp (M + 1) o = t.fp (M + 1) o := by unfold Topo.fp; rw [hl1']
                  rw [this]; exact hne
                rw [this]
                apply List.count_eq_zero_of_not_mem
                intro hm
                exact hyc ((hcmem y).2 hm)
              omega
        · -- no new garbage among footprints
          intro M hM f hf hz
          rcases Nat.lt_or_ge M (N + 1) with hlt | hge
          · rw [refsF_of_lvl (t := t3) (by rw [hl4]) hF4] at hz
            rw [hl4] at hf
            have := s3.ngF M (by omega) f hf hz
            rw [refsF_of_lvl (t := t) (lvl1 M (by omega)) (hE.extF.trans hF1)] at this
            exact this
          · have e : M = N + 1 := by omega
            subst e
            rw [refsF_of_lvl (t := t2) (lvlgt _ (by omega)) (by rw [hF4, s3.extF])] at hz
            rw [lvlgt _ (by omega)] at hf
            have := hE.garbage f hf hz
            rw [refsF_of_lvl (t := t) (by rw [hl1']) hF1] at this
            exact this
      · rw [lvlgt _ (by omega), hE.ors]; simp
      · intro x
        rw [hext4' _ (by omega), s3.ext_ne _ (by omega), hE.ext, hext1]
        simp
      · intro x hx hne
        rw [lvlgt _ (by omega), hE.ors, hl1']
        simp [hx, hne]

end Mito.Topology
