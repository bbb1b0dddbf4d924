import Verif.Topology.AddressLemmas

/-! # Helper lemmas: the calls do not depend on the addresses -/

set_option linter.unusedSimpArgs false
set_option linter.unusedVariables false

namespace Mito.Topology

open Mito.Combinatorics

variable {φ ω φ' ω' : Nat → Id → Id} {t t' : Topo} {N : Nat}

/-- one more name -/
def upd (ω : Nat → Id → Id) (N : Nat) (o o' : Id) : Nat → Id → Id :=
  Function.update ω N (Function.update (ω N) o o')

theorem upd_self (ω : Nat → Id → Id) (N : Nat) (o o' : Id) : upd ω N o o' N o = o' := by simp [upd]

theorem upd_of (ω : Nat → Id → Id) {N M : Nat} {o o' x : Id} (h : M = N → x ≠ o) :
    upd ω N o o' M x = ω M x := by
  unfold upd
  by_cases e : M = N
  · subst e; simp [h rfl]
  · simp [e]

/-- the new names are the old ones on what was alive -/
structure Ext (t : Topo) (φ ω φ' ω' : Nat → Id → Id) : Prop where
  f : ∀ N, ∀ x ∈ (t.lvl N).fps, φ' N x = φ N x
  o : ∀ N, ∀ x ∈ (t.lvl N).ors, ω' N x = ω N x

theorem Ext.refl (t : Topo) (φ ω : Nat → Id → Id) : Ext t φ ω φ ω := ⟨fun _ _ _ => rfl, fun _ _ _ => rfl⟩

theorem Ext.trans {t1 : Topo} {φ'' ω'' : Nat → Id → Id} (h : Ext t φ ω φ' ω') (hle : Le t t1)
    (h' : Ext t1 φ' ω' φ'' ω'') : Ext t φ ω φ'' ω'' :=
  ⟨fun N x hx => (h'.f N x (hle.fps N hx)).trans (h.f N x hx),
   fun N x hx => (h'.o N x (hle.ors N hx)).trans (h.o N x hx)⟩

theorem image_upd (s : Finset Id) (g : Id → Id) {o o' : Id} (h : o ∉ s) :
    (insert o s).image (Function.update g o o') = insert o' (s.image g) := by
  rw [Finset.image_insert, Function.update_self]
  congr 1
  apply Finset.image_congr
  intro x hx
  have : x ≠ o := fun e => h (e ▸ hx)
  simp [this]

theorem injOn_upd (s : Finset Id) (g : Id → Id) {o o' : Id} (h : o ∉ s) (h' : o' ∉ s.image g)
    (hg : Set.InjOn g s) : Set.InjOn (Function.update g o o') (insert o s : Finset Id) := by
  intro a ha b hb e
  simp only [Finset.coe_insert, Set.mem_insert_iff, Finset.mem_coe] at ha hb
  have hne : ∀ x ∈ s, x ≠ o := fun x hx e => h (e ▸ hx)
  rcases ha with rfl | ha <;> rcases hb with rfl | hb
  · rfl
  · exfalso
    rw [Function.update_self, Function.update_of_ne (hne b hb)] at e
    exact h' (e ▸ Finset.mem_image_of_mem g hb)
  · exfalso
    rw [Function.update_self, Function.update_of_ne (hne a ha)] at e
    exact h' (e.symm ▸ Finset.mem_image_of_mem g ha)
  · rw [Function.update_of_ne (hne a ha), Function.update_of_ne (hne b hb)] at e
    exact hg ha hb e

theorem ext_dead (hi : Inv t) {o : Id} (h : o ∉ (t.lvl N).ors) : t.ext N o = 0 := by
  by_contra e
  exact h (hi.ext_live N o (Nat.pos_of_ne_zero e))

theorem extF_dead (hi : Inv t) {f : Id} (h : f ∉ (t.lvl N).fps) : t.extF N f = 0 := by
  by_contra e
  exact h (hi.extF_live N f (Nat.pos_of_ne_zero e))

theorem addO_iso (h : Iso φ ω t t') (hi : Inv t) (hi' : Inv t') {f : Id} {s : Int} {o o' : Id}
    {r r' : List Id} (ho : o ∉ (t.lvl N).ors) (ho' : o' ∉ (t'.lvl N).ors) :
    Iso φ (upd ω N o o') (t.addO N f s o r) (t'.addO N (φ N f) s o' r') := by
  have hfps : ∀ (u : Topo) (g : Id) (i : Id) (q : List Id) (M : Nat),
      ((u.addO N g s i q).lvl M).fps = (u.lvl M).fps := by
    intro u g i q M
    by_cases e : M = N
    · subst e; simp [Topo.addO]
    · simp [Topo.addO, e]
  have hcomp : ∀ (u : Topo) (g : Id) (i : Id) (q : List Id), (u.addO N g s i q).compF = u.compF := by
    intro u g i q
    funext M x
    by_cases e : M = N
    · subst e; simp [Topo.addO, Topo.compF]
    · simp [Topo.addO, Topo.compF, e]
  have hors : ∀ (u : Topo) (g : Id) (i : Id) (q : List Id) (M : Nat),
      ((u.addO N g s i q).lvl M).ors = if M = N then insert i (u.lvl M).ors else (u.lvl M).ors := by
    intro u g i q M
    by_cases e : M = N
    · subst e; simp [Topo.addO]
    · simp [Topo.addO, e]
  have hfp : ∀ (u : Topo) (g : Id) (i : Id) (q : List Id) (M : Nat) (x : Id),
      (u.addO N g s i q).fp M x = if M = N ∧ x = i then g else u.fp M x := by
    intro u g i q M x
    by_cases e : M = N
    · subst e
      by_cases e' : x = i
      · subst e'; simp [Topo.addO, Topo.fp]
      · simp [Topo.addO, Topo.fp, e']
    · simp [Topo.addO, Topo.fp, e]
  have hsg : ∀ (u : Topo) (g : Id) (i : Id) (q : List Id) (M : Nat) (x : Id),
      (u.addO N g s i q).sg M x = if M = N ∧ x = i then s else u.sg M x := by
    intro u g i q M x
    by_cases e : M = N
    · subst e
      by_cases e' : x = i
      · subst e'; simp [Topo.addO, Topo.sg]
      · simp [Topo.addO, Topo.sg, e']
    · simp [Topo.addO, Topo.sg, e]
  have himg : o' ∉ (t.lvl N).ors.image (ω N) := by rw [← h.ors]; exact ho'
  have hnew : ∀ M x, x ∈ ((t.addO N f s o r).lvl M).ors → (M = N ∧ x = o) ∨
      (x ∈ (t.lvl M).ors ∧ ¬ (M = N ∧ x = o) ∧ upd ω N o o' M x = ω M x ∧
        ¬ (M = N ∧ ω M x = o')) := by
    intro M x hx
    rw [hors] at hx
    by_cases e : M = N
    · subst e
      rw [if_pos rfl, Finset.mem_insert] at hx
      rcases hx with rfl | hx
      · exact Or.inl ⟨rfl, rfl⟩
      · have : x ≠ o := fun e => ho (e ▸ hx)
        refine Or.inr ⟨hx, fun hh => this hh.2, upd_of _ fun _ => this, fun hh => himg ?_⟩
        rw [← hh.2]; exact Finset.mem_image_of_mem _ hx
    · rw [if_neg e] at hx
      exact Or.inr ⟨hx, fun hh => e hh.1, upd_of _ fun hh => absurd hh e, fun hh => e hh.1⟩
  constructor
  · intro M; rw [hfps, hfps, h.fps]
  · intro M
    rw [hors, hors, h.ors]
    by_cases e : M = N
    · subst e
      rw [if_pos rfl, if_pos rfl]
      simp only [upd, Function.update_self]
      exact (image_upd _ _ ho).symm
    · simp [e, upd]
  · intro M; rw [hfps]; exact h.injF M
  · intro M
    rw [hors]
    by_cases e : M = N
    · subst e
      rw [if_pos rfl]
      simp only [upd, Function.update_self]
      exact injOn_upd _ _ ho himg (h.injO M)
    · simp only [e, if_false, upd, ne_eq, not_false_eq_true, Function.update_of_ne]
      exact h.injO M
  · intro M g hg
    rw [hfps] at hg
    rw [hcomp, hcomp, h.comp M g hg]
    apply List.map_congr_left
    intro x hx
    have hx := hi.comp_live M g hg x hx
    rw [upd_of]
    rintro rfl rfl
    exact ho hx
  · intro M x hx
    rcases hnew M x hx with ⟨rfl, rfl⟩ | ⟨hx, e1, e2, e3⟩
    · rw [upd_self, hfp, hfp]; simp
    · rw [e2, hfp, hfp, if_neg e1, if_neg e3, h.fp M x hx]
  · intro M x hx
    rcases hnew M x hx with ⟨rfl, rfl⟩ | ⟨hx, e1, e2, e3⟩
    · rw [upd_self, hsg, hsg]; simp
    · rw [e2, hsg, hsg, if_neg e1, if_neg e3, h.sg M x hx]
  · intro M x hx
    show t'.ext M (upd ω N o o' M x) = t.ext M x
    rcases hnew M x hx with ⟨rfl, rfl⟩ | ⟨hx, e1, e2, e3⟩
    · rw [upd_self, ext_dead hi ho, ext_dead hi' ho']
    · rw [e2, h.ext M x hx]
  · intro M g hg
    rw [hfps] at hg
    exact h.extF M g hg

theorem orientedF_iso (h : Iso φ ω t t') (hi : Inv t) (hi' : Inv t') {f : Id} (hf : f ∈ (t.lvl N).fps)
    {s : Int} {t1 t1' : Topo} {o o' : Id} (h1 : t.orientedF N f s = some (t1, o))
    (h2 : t'.orientedF N (φ N f) s = some (t1', o')) :
    ∃ ω', Ext t φ ω φ ω' ∧ Iso φ ω' t1 t1' ∧ ω' N o = o' := by
  have key := h.orients hi hi' hf s
  rcases orientedF_cases h1 with ⟨a1, rfl⟩ | ⟨a1, a2, r, _, rfl⟩ <;>
    rcases orientedF_cases h2 with ⟨b1, rfl⟩ | ⟨b1, b2, r', _, rfl⟩
  · rw [a1, b1] at key
    simp at key
    exact ⟨ω, Ext.refl _ _ _, h, key.symm⟩
  · rw [a1, b1] at key; simp at key
  · rw [a1, b1] at key; simp at key
  · refine ⟨upd ω N o o', ⟨fun _ _ _ => rfl, fun M x hx => upd_of _ ?_⟩, addO_iso h hi hi' a2 b2,
      upd_self _ _ _ _⟩
    rintro rfl rfl
    exact a2 hx

/-- the state after adding a footprint, of any order, with any map of compositions -/
theorem addFp_iso (h : Iso φ ω t t') (hi : Inv t) (hi' : Inv t') {c : List Id} {f f' : Id} {u u' : Topo}
    (hf : f ∉ (t.lvl N).fps) (hf' : f' ∉ (t'.lvl N).fps)
    (hu1 : ∀ M, (u.lvl M).fps = if M = N then insert f (t.lvl M).fps else (t.lvl M).fps)
    (hu2 : ∀ M x, u.compF M x = if M = N ∧ x = f then c else t.compF M x)
    (hu3 : ∀ M, (u.lvl M).ors = (t.lvl M).ors) (hu4 : u.fp = t.fp) (hu5 : u.sg = t.sg) (hu6 : u.ext = t.ext)
    (hu7 : u.extF = t.extF)
    (hv1 : ∀ M, (u'.lvl M).fps = if M = N then insert f' (t'.lvl M).fps else (t'.lvl M).fps)
    (hv2 : ∀ M x, u'.compF M x = if M = N ∧ x = f' then c.map (ω (N - 1)) else t'.compF M x)
    (hv3 : ∀ M, (u'.lvl M).ors = (t'.lvl M).ors) (hv4 : u'.fp = t'.fp) (hv5 : u'.sg = t'.sg)
    (hv6 : u'.ext = t'.ext) (hv7 : u'.extF = t'.extF) :
    Iso (upd φ N f f') ω u u' := by
  have himg : f' ∉ (t.lvl N).fps.image (φ N) := by rw [← h.fps]; exact hf'
  have hnew : ∀ M x, x ∈ (u.lvl M).fps → (M = N ∧ x = f) ∨
      (x ∈ (t.lvl M).fps ∧ ¬ (M = N ∧ x = f) ∧ upd φ N f f' M x = φ M x ∧
        ¬ (M = N ∧ φ M x = f')) := by
    intro M x hx
    rw [hu1] at hx
    by_cases e : M = N
    · subst e
      rw [if_pos rfl, Finset.mem_insert] at hx
      rcases hx with rfl | hx
      · exact Or.inl ⟨rfl, rfl⟩
      · have : x ≠ f := fun e => hf (e ▸ hx)
        refine Or.inr ⟨hx, fun hh => this hh.2, upd_of _ fun _ => this, fun hh => himg ?_⟩
        rw [← hh.2]; exact Finset.mem_image_of_mem _ hx
    · rw [if_neg e] at hx
      exact Or.inr ⟨hx, fun hh => e hh.1, upd_of _ fun hh => absurd hh e, fun hh => e hh.1⟩
  have hold : ∀ M x, x ∈ (t.lvl M).fps → upd φ N f f' M x = φ M x := by
    intro M x hx
    apply upd_of
    rintro rfl rfl
    exact hf hx
  constructor
  · intro M
    rw [hu1, hv1, h.fps]
    by_cases e : M = N
    · subst e
      rw [if_pos rfl, if_pos rfl]
      simp only [upd, Function.update_self]
      exact (image_upd _ _ hf).symm
    · simp [e, upd]
  · intro M; rw [hu3, hv3, h.ors]
  · intro M
    rw [hu1]
    by_cases e : M = N
    · subst e
      rw [if_pos rfl]
      simp only [upd, Function.update_self]
      exact injOn_upd _ _ hf himg (h.injF M)
    · simp only [e, if_false, upd, ne_eq, not_false_eq_true, Function.update_of_ne]
      exact h.injF M
  · intro M; rw [hu3]; exact h.injO M
  · intro M x hx
    rcases hnew (M + 1) x hx with ⟨rfl, rfl⟩ | ⟨hx, e1, e2, e3⟩
    · rw [upd_self, hu2, hv2]; simp
    · rw [e2, hu2, hv2, if_neg e1, if_neg e3, h.comp M x hx]
  · intro M x hx
    rw [hu3] at hx
    rw [hu4, hv4, h.fp M x hx, hold _ _ (hi.fp_live M x hx)]
  · intro M x hx
    rw [hu3] at hx
    rw [hu5, hv5, h.sg M x hx]
  · intro M x hx
    rw [hu3] at hx
    rw [hu6, hv6, h.ext M x hx]
  · intro M x hx
    rw [hu7, hv7]
    rcases hnew M x hx with ⟨rfl, rfl⟩ | ⟨hx, e1, e2, e3⟩
    · rw [upd_self, extF_dead hi hf, extF_dead hi' hf']
    · rw [e2, h.extF M x hx]

theorem Ext.updF {f f' : Id} (hf : f ∉ (t.lvl N).fps) : Ext t φ ω (upd φ N f f') ω := by
  refine ⟨fun M x hx => upd_of _ ?_, fun _ _ _ => rfl⟩
  rintro rfl rfl
  exact hf hx

theorem simplexF_iso (h : Iso φ ω t t') (hi : Inv t) (hi' : Inv t') {c : List Id}
    (hc : ∀ x ∈ c, x ∈ (t.lvl N).ors) {t1 t1' : Topo} {f f' : Id} (h1 : t.simplexF N c = some (t1, f))
    (h2 : t'.simplexF N (c.map (ω N)) = some (t1', f')) :
    ∃ φ', Ext t φ ω φ' ω ∧ Iso φ' ω t1 t1' ∧ φ' (N + 1) f = f' := by
  have key := h.comps hi hi' hc
  have view : ∀ (u : Topo) (c k : List Id) (i : Id) (r : List Id),
      (∀ M, ((u.addF N c k i r).lvl M).fps = if M = N + 1 then insert i (u.lvl M).fps else (u.lvl M).fps) ∧
      (∀ M x, (u.addF N c k i r).compF M x = if M = N + 1 ∧ x = i then c else u.compF M x) ∧
      (∀ M, ((u.addF N c k i r).lvl M).ors = (u.lvl M).ors) ∧ (u.addF N c k i r).sg = u.sg := by
    intro u c k i r
    refine ⟨fun M => ?_, fun M x => ?_, fun M => ?_, ?_⟩
    · by_cases e : M = N + 1
      · subst e; simp [Topo.addF]
      · simp [Topo.addF, e]
    · by_cases e : M = N + 1
      · subst e
        by_cases e' : x = i
        · subst e'; simp [Topo.addF, Topo.compF]
        · simp [Topo.addF, Topo.compF, e']
      · simp [Topo.addF, Topo.compF, e]
    · by_cases e : M = N + 1
      · subst e; simp [Topo.addF]
      · simp [Topo.addF, e]
    · funext M x
      by_cases e : M = N + 1
      · subst e; simp [Topo.addF, Topo.sg]
      · simp [Topo.addF, Topo.sg, e]
  rcases simplexF_cases h1 with ⟨a1, rfl⟩ | ⟨a1, a2, r, _, rfl⟩ <;>
    rcases simplexF_cases h2 with ⟨b1, rfl⟩ | ⟨b1, b2, r', _, rfl⟩
  · rw [a1, b1] at key
    simp at key
    exact ⟨φ, Ext.refl _ _ _, h, key.symm⟩
  · rw [a1, b1] at key; simp at key
  · rw [a1, b1] at key; simp at key
  · obtain ⟨u1, u2, u3, u5⟩ := view t c (t.representative N c) f r
    obtain ⟨v1, v2, v3, v5⟩ := view t' (c.map (ω N)) (t'.representative N (c.map (ω N))) f' r'
    exact ⟨upd φ (N + 1) f f', Ext.updF a2,
      addFp_iso h hi hi' a2 b2 u1 u2 u3 (addF_fp _ _ _ _ _ _) u5 rfl rfl v1 v2 v3 (addF_fp _ _ _ _ _ _)
        v5 rfl rfl, upd_self _ _ _ _⟩

theorem vertex_iso (h : Iso φ ω t t') (hi : Inv t) (hi' : Inv t') {t1 t1' : Topo} {v v' : Id}
    (h1 : t.vertex = some (t1, v)) (h2 : t'.vertex = some (t1', v')) :
    ∃ φ', Ext t φ ω φ' ω ∧ Iso φ' ω t1 t1' ∧ φ' 0 v = v' := by
  obtain ⟨a1, r, _, rfl⟩ := vertex_cases h1
  obtain ⟨b1, r', _, rfl⟩ := vertex_cases h2
  refine ⟨upd φ 0 v v', Ext.updF a1, addFp_iso (c := []) h hi hi' a1 b1 ?_ ?_ ?_ ?_ ?_ rfl rfl ?_ ?_ ?_ ?_ ?_
    rfl rfl, upd_self _ _ _ _⟩
  all_goals first
    | (intro M x
       by_cases e : M = 0
       · subst e
         first
          | (by_cases e' : x = v
             · subst e'; simp [Topo.setLvl, Topo.compF]
             · simp [Topo.setLvl, Topo.compF, e'])
          | (by_cases e' : x = v'
             · subst e'; simp [Topo.setLvl, Topo.compF]
             · simp [Topo.setLvl, Topo.compF, e'])
       · simp [Topo.setLvl, Topo.compF, e])
    | (intro M
       by_cases e : M = 0
       · subst e; simp [Topo.setLvl]
       · simp [Topo.setLvl, e])
    | (funext M x
       by_cases e : M = 0
       · subst e; simp [Topo.setLvl, Topo.fp, Topo.sg]
       · simp [Topo.setLvl, Topo.fp, Topo.sg, e])

/-! ### the results of calls -/

/-- the second run of a call does what the first did, if it succeeds, and it succeeds with `n` fresh
addresses -/
structure Matches (n N : Nat) (φ ω : Nat → Id → Id) (t t1 : Topo) (o : Id) (t' : Topo)
    (r' : Option (Topo × Id)) : Prop where
  iso : ∀ t1' o', r' = some (t1', o') → Ok t1' ∧ ∃ φ' ω', Ext t φ ω φ' ω' ∧ Iso φ' ω' t1 t1' ∧ ω' N o = o'
  succeeds : ∀ k, Fresh t' (k + n) → ∃ t1' o', r' = some (t1', o') ∧ Fresh t1' k

theorem Matches.bind {n m N M : Nat} {t1 t2 : Topo} {o o2 : Id} {r' : Option (Topo × Id)}
    {g : Topo × Id → Option (Topo × Id)} (h : Matches n N φ ω t t1 o t' r') (hle : Le t t1)
    (hg : ∀ t1' φ' ω', Ok t1' → Ext t φ ω φ' ω' → Iso φ' ω' t1 t1' →
      Matches m M φ' ω' t1 t2 o2 t1' (g (t1', ω' N o))) :
    Matches (n + m) M φ ω t t2 o2 t' (r'.bind g) := by
  constructor
  · intro t2' o2' h2
    cases r' with
    | none => simp at h2
    | some p =>
      obtain ⟨t1', o'⟩ := p
      obtain ⟨ok, φ', ω', e1, i1, rfl⟩ := h.iso t1' o' rfl
      obtain ⟨ok2, φ'', ω'', e2, i2, e3⟩ := (hg t1' φ' ω' ok e1 i1).iso t2' o2' h2
      exact ⟨ok2, φ'', ω'', e1.trans hle e2, i2, e3⟩
  · intro k hk
    obtain ⟨t1', o', rfl, fr⟩ := h.succeeds (k + m) (by rw [show k + m + n = k + (n + m) by omega]; exact hk)
    obtain ⟨ok, φ', ω', e1, i1, rfl⟩ := h.iso t1' o' rfl
    exact (hg t1' φ' ω' ok e1 i1).succeeds k fr

theorem orientedF_matches (h : Iso φ ω t t') (hi : Ok t) (hi' : Ok t') {f : Id} (hf : f ∈ (t.lvl N).fps)
    {s : Int} (hs : s = 1 ∨ s = -1) {t1 : Topo} {o : Id} (h1 : t.orientedF N f s = some (t1, o)) :
    Matches 1 N φ ω t t1 o t' (t'.orientedF N (φ N f) s) := by
  constructor
  · intro t1' o' h2
    obtain ⟨ω', e, i, e'⟩ := orientedF_iso h hi.inv hi'.inv hf h1 h2
    exact ⟨(orientedF_ok hi' (h.memF hf) hs h2).1, φ, ω', e, i, e'⟩
  · intro k hk
    exact orientedF_succeeds hk _ _ _

theorem simplex_cases {c : List Id} {t1 : Topo} {o : Id} (h : t.simplex N c = some (t1, o)) :
    t.isValid (N + 1) c = some true ∧ ∃ u f s, t.simplexF N c = some (u, f) ∧ u.orientation N c f = some s ∧
      u.orientedF (N + 1) f s = some (t1, o) := by
  unfold Topo.simplex at h
  split at h
  · rename_i hv
    split at h
    · simp at h
    · rename_i u f hf
      split at h
      · simp at h
      · rename_i s hs
        exact ⟨hv, u, f, s, hf, hs, h⟩
  · simp at h

theorem simplex_matches (h : Iso φ ω t t') (hi : Ok t) (hi' : Ok t') {c : List Id}
    (hc : ∀ x ∈ c, x ∈ (t.lvl N).ors) (hl : c.length = N + 2) (hnd : c.Nodup) {t1 : Topo} {o : Id}
    (h1 : t.simplex N c = some (t1, o)) :
    Matches 2 (N + 1) φ ω t t1 o t' (t'.simplex N (c.map (ω N))) := by
  obtain ⟨hv, u, f, s, hf, hs, ho⟩ := simplex_cases h1
  have hc' : ∀ x ∈ c.map (ω N), x ∈ (t'.lvl N).ors := by
    intro x hx
    obtain ⟨y, hy, rfl⟩ := List.mem_map.mp hx
    exact h.memO (hc y hy)
  have hl' : (c.map (ω N)).length = N + 2 := by simpa using hl
  have hnd' : (c.map (ω N)).Nodup := hnd.map_on fun x hx y hy e => h.injO N (hc x hx) (hc y hy) e
  have hv' : t'.isValid (N + 1) (c.map (ω N)) = some true := by rw [h.isValid hi.inv hc]; exact hv
  obtain ⟨iu, lu, fu, eu, _, _⟩ := simplexF_spec hi.inv hc hl hnd hf
  have hcu : ∀ x ∈ c, x ∈ (u.lvl N).ors := fun x hx => lu.ors N (hc x hx)
  have key : ∀ u' f', t'.simplexF N (c.map (ω N)) = some (u', f') → Inv u' ∧
      ∃ φ', Ext t φ ω φ' ω ∧ Iso φ' ω u u' ∧ φ' (N + 1) f = f' ∧
        u'.orientation N (c.map (ω N)) f' = some s := by
    intro u' f' hf'
    obtain ⟨φ', e, i, rfl⟩ := simplexF_iso h hi.inv hi'.inv hc hf hf'
    exact ⟨(simplexF_spec hi'.inv hc' hl' hnd' hf').1, φ', e, i, rfl, by rw [i.orientation iu hcu fu]; exact hs⟩
  constructor
  · intro t1' o' h2
    refine ⟨simplex_ok hi' hc' hl' hnd' h2, ?_⟩
    obtain ⟨_, u', f', s', hf', hs', ho'⟩ := simplex_cases h2
    obtain ⟨iu', φ', e, i, rfl, hor⟩ := key u' f' hf'
    rw [hor] at hs'
    simp at hs'
    subst hs'
    obtain ⟨ω', e2, i2, e3⟩ := orientedF_iso i iu iu' fu ho ho'
    exact ⟨φ', ω', e.trans lu e2, i2, e3⟩
  · intro k hk
    obtain ⟨u', f', hf', fr⟩ := simplexF_succeeds (k := k + 1) hk N (c.map (ω N))
    obtain ⟨_, _, _, _, _, hor⟩ := key u' f' hf'
    obtain ⟨t2, o2, ho2, fr2⟩ := orientedF_succeeds fr (N + 1) f' s
    exact ⟨t2, o2, by simp [Topo.simplex, hv', hf', hor, ho2], fr2⟩

theorem segment_cases {a b : Id} {t3 : Topo} {o : Id} (h : t.segment a b = some (t3, o)) :
    ∃ t1 x t2 y, t.orientedF 0 a (-1) = some (t1, x) ∧ t1.orientedF 0 b 1 = some (t2, y) ∧
      t2.simplex 0 [x, y] = some (t3, o) := by
  unfold Topo.segment at h
  split at h
  · simp at h
  · rename_i t1 x hx
    split at h
    · simp at h
    · rename_i t2 y hy
      exact ⟨t1, x, t2, y, hx, hy, h⟩

theorem segment_bind (t : Topo) (a b : Id) : t.segment a b =
    (t.orientedF 0 a (-1)).bind fun p => (p.1.orientedF 0 b 1).bind fun q => q.1.simplex 0 [p.2, q.2] := by
  unfold Topo.segment
  cases t.orientedF 0 a (-1) with
  | none => rfl
  | some p =>
    simp only [Option.bind_some]
    cases p.1.orientedF 0 b 1 <;> rfl

theorem triangle_bind (t : Topo) (a b c : Id) : t.triangle a b c =
    (t.segment a b).bind fun p => (p.1.segment b c).bind fun q => (q.1.segment c a).bind fun r =>
      r.1.simplex 1 [p.2, q.2, r.2] := by
  unfold Topo.triangle
  cases t.segment a b with
  | none => rfl
  | some p =>
    simp only [Option.bind_some]
    cases p.1.segment b c with
    | none => rfl
    | some q =>
      simp only [Option.bind_some]
      cases q.1.segment c a <;> rfl

theorem tetrahedron_bind (t : Topo) (a b c d : Id) : t.tetrahedron a b c d =
    (t.triangle a b c).bind fun p => (p.1.triangle b d c).bind fun q => (q.1.triangle d b a).bind fun r =>
      (r.1.triangle d a c).bind fun u => u.1.simplex 2 [p.2, q.2, r.2, u.2] := by
  unfold Topo.tetrahedron
  cases t.triangle a b c with
  | none => rfl
  | some p =>
    simp only [Option.bind_some]
    cases p.1.triangle b d c with
    | none => rfl
    | some q =>
      simp only [Option.bind_some]
      cases q.1.triangle d b a with
      | none => rfl
      | some r =>
        simp only [Option.bind_some]
        cases r.1.triangle d a c <;> rfl

theorem triangle_cases {a b c : Id} {t4 : Topo} {o : Id} (h : t.triangle a b c = some (t4, o)) :
    ∃ t1 x t2 y t3 z, t.segment a b = some (t1, x) ∧ t1.segment b c = some (t2, y) ∧
      t2.segment c a = some (t3, z) ∧ t3.simplex 1 [x, y, z] = some (t4, o) := by
  rw [triangle_bind] at h
  obtain ⟨⟨t1, x⟩, h1, h⟩ := Option.bind_eq_some_iff.mp h
  obtain ⟨⟨t2, y⟩, h2, h⟩ := Option.bind_eq_some_iff.mp h
  obtain ⟨⟨t3, z⟩, h3, h⟩ := Option.bind_eq_some_iff.mp h
  exact ⟨t1, x, t2, y, t3, z, h1, h2, h3, h⟩

theorem tetrahedron_cases {a b c d : Id} {t5 : Topo} {o : Id} (h : t.tetrahedron a b c d = some (t5, o)) :
    ∃ t1 x t2 y t3 z t4 w, t.triangle a b c = some (t1, x) ∧ t1.triangle b d c = some (t2, y) ∧
      t2.triangle d b a = some (t3, z) ∧ t3.triangle d a c = some (t4, w) ∧
      t4.simplex 2 [x, y, z, w] = some (t5, o) := by
  rw [tetrahedron_bind] at h
  obtain ⟨⟨t1, x⟩, h1, h⟩ := Option.bind_eq_some_iff.mp h
  obtain ⟨⟨t2, y⟩, h2, h⟩ := Option.bind_eq_some_iff.mp h
  obtain ⟨⟨t3, z⟩, h3, h⟩ := Option.bind_eq_some_iff.mp h
  obtain ⟨⟨t4, w⟩, h4, h⟩ := Option.bind_eq_some_iff.mp h
  exact ⟨t1, x, t2, y, t3, z, t4, w, h1, h2, h3, h4, h⟩

theorem segment_matches (h : Iso φ ω t t') (hi : Ok t) (hi' : Ok t') {a b : Id} (ha : a ∈ (t.lvl 0).fps)
    (hb : b ∈ (t.lvl 0).fps) {t3 : Topo} {o : Id} (h3 : t.segment a b = some (t3, o)) :
    Matches 4 1 φ ω t t3 o t' (t'.segment (φ 0 a) (φ 0 b)) := by
  have hab := (segment_ok hi ha hb h3).2.2.2.2
  obtain ⟨t1, x, t2, y, hx, hy, hs⟩ := segment_cases h3
  obtain ⟨ok1, le1, l1, f1, s1⟩ := orientedF_ok hi ha (by simp) hx
  obtain ⟨ok2, le2, l2, f2, s2⟩ := orientedF_ok ok1 (le1.fps 0 hb) (by simp) hy
  have hxy : x ≠ y := by
    rintro rfl
    rw [le2.ofp 0 x l1, f1] at f2
    exact hab f2
  rw [segment_bind]
  refine Matches.bind (n := 1) (m := 3) (orientedF_matches h hi hi' ha (by simp) hx) le1 ?_
  intro t1' φ1 ω1 ok1' e1 i1
  rw [show φ 0 b = φ1 0 b from (e1.f 0 b hb).symm]
  refine Matches.bind (n := 1) (m := 2) (orientedF_matches i1 ok1 ok1' (le1.fps 0 hb) (by simp) hy) le2 ?_
  intro t2' φ2 ω2 ok2' e2 i2
  rw [show ω1 0 x = ω2 0 x from (e2.o 0 x l1).symm]
  exact simplex_matches i2 ok2 ok2' (c := [x, y]) (by simp [l2, le2.ors 0 l1]) rfl (by simp [hxy]) hs

theorem triangle_matches (h : Iso φ ω t t') (hi : Ok t) (hi' : Ok t') {a b c : Id} (ha : a ∈ (t.lvl 0).fps)
    (hb : b ∈ (t.lvl 0).fps) (hc : c ∈ (t.lvl 0).fps) {t4 : Topo} {o : Id}
    (h4 : t.triangle a b c = some (t4, o)) :
    Matches 14 2 φ ω t t4 o t' (t'.triangle (φ 0 a) (φ 0 b) (φ 0 c)) := by
  obtain ⟨t1, x, t2, y, t3, z, hx, hy, hz, hs⟩ := triangle_cases h4
  obtain ⟨ok1, le1, l1, e1, n1⟩ := segment_ok hi ha hb hx
  obtain ⟨ok2, le2, l2, e2, n2⟩ := segment_ok ok1 (le1.fps 0 hb) (le1.fps 0 hc) hy
  obtain ⟨ok3, le3, l3, e3, n3⟩ := segment_ok ok2 (le2.fps 0 (le1.fps 0 hc)) (le2.fps 0 (le1.fps 0 ha)) hz
  have ex : (t3.ends x).Perm [a, b] := by
    rw [ends_le ok2.inv le3 (le2.ors 1 l1), ends_le ok1.inv le2 l1]; exact e1
  have ey : (t3.ends y).Perm [b, c] := by
    rw [ends_le ok2.inv le3 l2]; exact e2
  have hxl := le3.ors 1 (le2.ors 1 l1)
  have hyl := le3.ors 1 l2
  have hxy : x ≠ y := by
    rintro rfl
    rcases perm_two (ex.symm.trans ey) with ⟨h1, h2⟩ | ⟨h1, h2⟩
    · exact n1 h1
    · exact n3 h1.symm
  have hxz : x ≠ z := by
    rintro rfl
    rcases perm_two (ex.symm.trans e3) with ⟨h1, h2⟩ | ⟨h1, h2⟩
    · exact n3 h1.symm
    · exact n2 h2
  have hyz : y ≠ z := by
    rintro rfl
    rcases perm_two (ey.symm.trans e3) with ⟨h1, h2⟩ | ⟨h1, h2⟩
    · exact n2 h1
    · exact n1 h1.symm
  rw [triangle_bind]
  refine Matches.bind (n := 4) (m := 10) (segment_matches h hi hi' ha hb hx) le1 ?_
  intro t1' φ1 ω1 ok1' e1 i1
  dsimp only
  rw [show φ 0 a = φ1 0 a from (e1.f 0 a ha).symm, show φ 0 b = φ1 0 b from (e1.f 0 b hb).symm,
    show φ 0 c = φ1 0 c from (e1.f 0 c hc).symm]
  replace ha := le1.fps 0 ha
  replace hb := le1.fps 0 hb
  replace hc := le1.fps 0 hc
  refine Matches.bind (n := 4) (m := 6) (segment_matches i1 ok1 ok1' hb hc hy) le2 ?_
  intro t2' φ2 ω2 ok2' e2 i2
  dsimp only
  rw [show φ1 0 a = φ2 0 a from (e2.f 0 a ha).symm,
    show φ1 0 c = φ2 0 c from (e2.f 0 c hc).symm, show ω1 1 x = ω2 1 x from (e2.o 1 x l1).symm]
  replace ha := le2.fps 0 ha
  replace hc := le2.fps 0 hc
  refine Matches.bind (n := 4) (m := 2) (segment_matches i2 ok2 ok2' hc ha hz) le3 ?_
  intro t3' φ3 ω3 ok3' e3 i3
  dsimp only
  rw [show ω2 1 x = ω3 1 x from (e3.o 1 x (le2.ors 1 l1)).symm, show ω2 1 y = ω3 1 y from (e3.o 1 y l2).symm]
  exact simplex_matches i3 ok3 ok3' (c := [x, y, z]) (by simp [hxl, hyl, l3]) rfl (by simp [hxy, hxz, hyz]) hs

theorem tetrahedron_matches (h : Iso φ ω t t') (hi : Ok t) (hi' : Ok t') {a b c d : Id}
    (ha : a ∈ (t.lvl 0).fps) (hb : b ∈ (t.lvl 0).fps) (hc : c ∈ (t.lvl 0).fps) (hd : d ∈ (t.lvl 0).fps)
    {t5 : Topo} {o : Id} (h5 : t.tetrahedron a b c d = some (t5, o)) :
    Matches 58 3 φ ω t t5 o t' (t'.tetrahedron (φ 0 a) (φ 0 b) (φ 0 c) (φ 0 d)) := by
  obtain ⟨t1, x, t2, y, t3, z, t4, w, hx, hy, hz, hw, hs⟩ := tetrahedron_cases h5
  obtain ⟨ok1, le1, l1, e1, n1⟩ := triangle_ok hi ha hb hc hx
  have ha1 := le1.fps 0 ha
  have hb1 := le1.fps 0 hb
  have hc1 := le1.fps 0 hc
  have hd1 := le1.fps 0 hd
  obtain ⟨ok2, le2, l2, e2, n2⟩ := triangle_ok ok1 hb1 hd1 hc1 hy
  have ha2 := le2.fps 0 ha1
  have hb2 := le2.fps 0 hb1
  have hc2 := le2.fps 0 hc1
  have hd2 := le2.fps 0 hd1
  obtain ⟨ok3, le3, l3, e3, n3⟩ := triangle_ok ok2 hd2 hb2 ha2 hz
  have ha3 := le3.fps 0 ha2
  have hc3 := le3.fps 0 hc2
  have hd3 := le3.fps 0 hd2
  obtain ⟨ok4, le4, l4, e4, n4⟩ := triangle_ok ok3 hd3 ha3 hc3 hw
  have ex : (t4.ends2 x).Perm [a, b, b, c, c, a] := by
    rw [ends2_le ok3.inv le4 (le3.ors 2 (le2.ors 2 l1)),
      ends2_le ok2.inv le3 (le2.ors 2 l1), ends2_le ok1.inv le2 l1]; exact e1
  have ey : (t4.ends2 y).Perm [b, d, d, c, c, b] := by
    rw [ends2_le ok3.inv le4 (le3.ors 2 l2), ends2_le ok2.inv le3 l2]; exact e2
  have ez : (t4.ends2 z).Perm [d, b, b, a, a, d] := by
    rw [ends2_le ok3.inv le4 l3]; exact e3
  have hxl := le4.ors 2 (le3.ors 2 (le2.ors 2 l1))
  have hyl := le4.ors 2 (le3.ors 2 l2)
  have hzl := le4.ors 2 l3
  have dist : a ≠ b ∧ b ≠ c ∧ c ≠ a ∧ b ≠ d ∧ d ≠ c ∧ a ≠ d :=
    ⟨n1.1, n1.2.1, n1.2.2, n2.1, n2.2.1, n4.1.symm⟩
  have key : ∀ {p q : List Id} (u : Id), p.Perm q → u ∈ p → u ∉ q → False :=
    fun u hp h1 h2 => h2 (hp.mem_iff.mp h1)
  have hxy : x ≠ y := by
    rintro rfl
    exact key a (ex.symm.trans ey) (by simp) (by simp; tauto)
  have hxz : x ≠ z := by
    rintro rfl
    exact key c (ex.symm.trans ez) (by simp) (by simp; tauto)
  have hxw : x ≠ w := by
    rintro rfl
    exact key b (ex.symm.trans e4) (by simp) (by simp; tauto)
  have hyz : y ≠ z := by
    rintro rfl
    exact key c (ey.symm.trans ez) (by simp) (by simp; tauto)
  have hyw : y ≠ w := by
    rintro rfl
    exact key b (ey.symm.trans e4) (by simp) (by simp; tauto)
  have hzw : z ≠ w := by
    rintro rfl
    exact key b (ez.symm.trans e4) (by simp) (by simp; tauto)
  rw [tetrahedron_bind]
  refine Matches.bind (n := 14) (m := 44) (triangle_matches h hi hi' ha hb hc hx) le1 ?_
  intro t1' φ1 ω1 ok1' e1 i1
  dsimp only
  rw [show φ 0 a = φ1 0 a from (e1.f 0 a ha).symm, show φ 0 b = φ1 0 b from (e1.f 0 b hb).symm,
    show φ 0 c = φ1 0 c from (e1.f 0 c hc).symm, show φ 0 d = φ1 0 d from (e1.f 0 d hd).symm]
  refine Matches.bind (n := 14) (m := 30) (triangle_matches i1 ok1 ok1' hb1 hd1 hc1 hy) le2 ?_
  intro t2' φ2 ω2 ok2' e2 i2
  dsimp only
  rw [show φ1 0 a = φ2 0 a from (e2.f 0 a ha1).symm, show φ1 0 b = φ2 0 b from (e2.f 0 b hb1).symm,
    show φ1 0 c = φ2 0 c from (e2.f 0 c hc1).symm, show φ1 0 d = φ2 0 d from (e2.f 0 d hd1).symm,
    show ω1 2 x = ω2 2 x from (e2.o 2 x l1).symm]
  refine Matches.bind (n := 14) (m := 16) (triangle_matches i2 ok2 ok2' hd2 hb2 ha2 hz) le3 ?_
  intro t3' φ3 ω3 ok3' e3 i3
  dsimp only
  rw [show φ2 0 a = φ3 0 a from (e3.f 0 a ha2).symm,
    show φ2 0 c = φ3 0 c from (e3.f 0 c hc2).symm, show φ2 0 d = φ3 0 d from (e3.f 0 d hd2).symm,
    show ω2 2 x = ω3 2 x from (e3.o 2 x (le2.ors 2 l1)).symm, show ω2 2 y = ω3 2 y from (e3.o 2 y l2).symm]
  refine Matches.bind (n := 14) (m := 2) (triangle_matches i3 ok3 ok3' hd3 ha3 hc3 hw) le4 ?_
  intro t4' φ4 ω4 ok4' e4 i4
  dsimp only
  rw [show ω3 2 x = ω4 2 x from (e4.o 2 x (le3.ors 2 (le2.ors 2 l1))).symm,
    show ω3 2 y = ω4 2 y from (e4.o 2 y (le3.ors 2 l2)).symm, show ω3 2 z = ω4 2 z from (e4.o 2 z l3).symm]
  exact simplex_matches i4 ok4 ok4' (c := [x, y, z, w]) (by simp [hxl, hyl, hzl, l4]) rfl
    (by simp [hxy, hxz, hxw, hyz, hyw, hzw]) hs

/-! ### handles -/

theorem hold_ext (t : Topo) (N : Nat) (o : Id) (M : Nat) (x : Id) :
    (t.hold N o).ext M x = t.ext M x + if M = N ∧ x = o then 1 else 0 := by
  simp only [Topo.hold, Topo.setExt, Function.update_apply]
  by_cases e : M = N
  · subst e
    by_cases e' : x = o
    · subst e'; simp
    · simp [e']
  · simp [e]

theorem drop_ext (t : Topo) (N : Nat) (o : Id) (M : Nat) (x : Id) :
    (t.drop N o).ext M x = t.ext M x - if M = N ∧ x = o then 1 else 0 := by
  simp only [Topo.drop, Topo.setExt, Function.update_apply]
  by_cases e : M = N
  · subst e
    by_cases e' : x = o
    · subst e'; simp
    · simp [e']
  · simp [e]

theorem setExtF_extF (t : Topo) (N : Nat) (f : Id) (k M : Nat) (x : Id) :
    (t.setExtF N f k).extF M x = if M = N ∧ x = f then k else t.extF M x := by
  simp only [Topo.setExtF, Function.update_apply]
  by_cases e : M = N
  · subst e
    by_cases e' : x = f
    · subst e'; simp
    · simp [e']
  · simp [e]

/-- only the numbers of handles change -/
theorem Iso.of_ext (h : Iso φ ω t t') {u u' : Topo} (hl : u.lvl = t.lvl) (hl' : u'.lvl = t'.lvl)
    (he : ∀ N, ∀ o ∈ (t.lvl N).ors, u'.ext N (ω N o) = u.ext N o)
    (heF : ∀ N, ∀ f ∈ (t.lvl N).fps, u'.extF N (φ N f) = u.extF N f) : Iso φ ω u u' := by
  have hfp : u.fp = t.fp := by unfold Topo.fp; rw [hl]
  have hsg : u.sg = t.sg := by unfold Topo.sg; rw [hl]
  have hcF : u.compF = t.compF := by unfold Topo.compF; rw [hl]
  have hfp' : u'.fp = t'.fp := by unfold Topo.fp; rw [hl']
  have hsg' : u'.sg = t'.sg := by unfold Topo.sg; rw [hl']
  have hcF' : u'.compF = t'.compF := by unfold Topo.compF; rw [hl']
  constructor
  · intro N; rw [hl, hl', h.fps]
  · intro N; rw [hl, hl', h.ors]
  · intro N; rw [hl]; exact h.injF N
  · intro N; rw [hl]; exact h.injO N
  · rw [hl, hcF, hcF']; exact h.comp
  · rw [hl, hfp, hfp']; exact h.fp
  · rw [hl, hsg, hsg']; exact h.sg
  · rw [hl]; exact he
  · rw [hl]; exact heF

theorem Iso.iffO (h : Iso φ ω t t') {o : Id} (ho : o ∈ (t.lvl N).ors) {M : Nat} {x : Id}
    (hx : x ∈ (t.lvl M).ors) : (M = N ∧ ω M x = ω N o) ↔ (M = N ∧ x = o) := by
  constructor
  · rintro ⟨rfl, e⟩; exact ⟨rfl, h.injO M hx ho e⟩
  · rintro ⟨rfl, rfl⟩; exact ⟨rfl, rfl⟩

theorem Iso.iffF (h : Iso φ ω t t') {f : Id} (hf : f ∈ (t.lvl N).fps) {M : Nat} {x : Id}
    (hx : x ∈ (t.lvl M).fps) : (M = N ∧ φ M x = φ N f) ↔ (M = N ∧ x = f) := by
  constructor
  · rintro ⟨rfl, e⟩; exact ⟨rfl, h.injF M hx hf e⟩
  · rintro ⟨rfl, rfl⟩; exact ⟨rfl, rfl⟩

theorem Iso.hold (h : Iso φ ω t t') {o : Id} (ho : o ∈ (t.lvl N).ors) :
    Iso φ ω (t.hold N o) (t'.hold N (ω N o)) := by
  refine h.of_ext rfl rfl (fun M x hx => ?_) h.extF
  rw [hold_ext, hold_ext, h.ext M x hx]
  simp only [h.iffO ho hx]

theorem Iso.drop (h : Iso φ ω t t') {o : Id} (ho : o ∈ (t.lvl N).ors) :
    Iso φ ω (t.drop N o) (t'.drop N (ω N o)) := by
  refine h.of_ext rfl rfl (fun M x hx => ?_) h.extF
  rw [drop_ext, drop_ext, h.ext M x hx]
  simp only [h.iffO ho hx]

theorem Iso.setExtF (h : Iso φ ω t t') {f : Id} (hf : f ∈ (t.lvl N).fps) (k : Nat) :
    Iso φ ω (t.setExtF N f k) (t'.setExtF N (φ N f) k) := by
  refine h.of_ext rfl rfl h.ext (fun M x hx => ?_)
  rw [setExtF_extF, setExtF_extF, h.extF M x hx]
  simp only [h.iffF hf hx]

theorem hold_foldl_iso (h : Iso φ ω t t') (c : List Id) (hc : ∀ x ∈ c, x ∈ (t.lvl N).ors) :
    Iso φ ω (c.foldl (fun t x => t.hold N x) t) ((c.map (ω N)).foldl (fun t x => t.hold N x) t') := by
  induction c generalizing t t' with
  | nil => exact h
  | cons x c ih =>
    exact ih (h.hold (hc x (by simp))) fun y hy => hc y (by simp [hy])

theorem drop_foldl_iso (h : Iso φ ω t t') (c : List Id) (hc : ∀ x ∈ c, x ∈ (t.lvl N).ors) :
    Iso φ ω (c.foldl (fun t x => t.drop N x) t) ((c.map (ω N)).foldl (fun t x => t.drop N x) t') := by
  induction c generalizing t t' with
  | nil => exact h
  | cons x c ih =>
    exact ih (h.drop (hc x (by simp))) fun y hy => hc y (by simp [hy])

end Mito.Topology
