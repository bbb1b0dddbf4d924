import Verif.Topology.RenamingLemmas

/-! # Helper lemmas: erasure does not depend on the addresses -/

set_option linter.unusedSimpArgs false
set_option linter.unusedVariables false

namespace Mito.Topology

variable {φ ω φ' ω' : Nat → Id → Id} {t t' : Topo} {N : Nat}

theorem eraseF_view (t : Topo) (N : Nat) (f : Id) :
    (∀ M, ((t.eraseF N f).lvl M).fps =
      if M = N ∧ ¬ 0 < t.refsF N f then (t.lvl M).fps.erase f else (t.lvl M).fps) ∧
    (∀ M, ((t.eraseF N f).lvl M).ors = (t.lvl M).ors) ∧ (t.eraseF N f).compF = t.compF ∧
    (t.eraseF N f).fp = t.fp ∧ (t.eraseF N f).sg = t.sg ∧ (t.eraseF N f).ext = t.ext ∧
    (t.eraseF N f).extF = t.extF := by
  by_cases hr : 0 < t.refsF N f
  · have e : t.eraseF N f = t := by simp [Topo.eraseF, hr]
    rw [e]
    simp [hr]
  · have e : ∃ l : Level, t.eraseF N f = t.setLvl N l ∧ l.fps = (t.lvl N).fps.erase f ∧
        l.ors = (t.lvl N).ors ∧ l.comp = (t.lvl N).comp ∧ l.ofp = (t.lvl N).ofp ∧ l.osg = (t.lvl N).osg := by
      cases N with
      | zero =>
        exact ⟨{ t.lvl 0 with fps := (t.lvl 0).fps.erase f }, by simp only [Topo.eraseF, hr, if_false],
          rfl, rfl, rfl, rfl, rfl⟩
      | succ M =>
        exact ⟨{ t.lvl (M + 1) with
            fps := (t.lvl (M + 1)).fps.erase f,
            comps := Function.update (t.lvl (M + 1)).comps (t.representative M ((t.lvl (M + 1)).comp f)) none },
          by simp only [Topo.eraseF, hr, if_false], rfl, rfl, rfl, rfl, rfl⟩
    obtain ⟨l, e, h1, h2, h3, h4, h5⟩ := e
    rw [e]
    refine ⟨fun M => ?_, fun M => ?_, ?_, ?_, ?_, rfl, rfl⟩
    · by_cases e : M = N
      · subst e; simp [Topo.setLvl, h1, hr]
      · simp [Topo.setLvl, e]
    · by_cases e : M = N
      · subst e; simp [Topo.setLvl, h2]
      · simp [Topo.setLvl, e]
    all_goals
      funext M x
      by_cases e : M = N
      · subst e; simp [Topo.setLvl, Topo.compF, Topo.fp, Topo.sg, h3, h4, h5]
      · simp [Topo.setLvl, Topo.compF, Topo.fp, Topo.sg, e]

theorem image_erase_injOn (s : Finset Id) (g : Id → Id) (hg : Set.InjOn g s) {a : Id} (ha : a ∈ s) :
    (s.image g).erase (g a) = (s.erase a).image g := by
  ext x
  simp only [Finset.mem_erase, Finset.mem_image]
  constructor
  · rintro ⟨h1, y, hy, rfl⟩
    exact ⟨y, ⟨fun e => h1 (by rw [e]), hy⟩, rfl⟩
  · rintro ⟨y, ⟨h1, hy⟩, rfl⟩
    exact ⟨fun e => h1 (hg hy ha e), y, hy, rfl⟩

theorem eraseF_iso (h : Iso φ ω t t') (hi : ∀ o ∈ (t.lvl N).ors, t.fp N o ∈ (t.lvl N).fps) {f : Id}
    (hf : f ∈ (t.lvl N).fps) : Iso φ ω (t.eraseF N f) (t'.eraseF N (φ N f)) := by
  have hr := h.refsF_of hi hf
  obtain ⟨u1, u2, u3, u4, u5, u6, u7⟩ := eraseF_view t N f
  obtain ⟨v1, v2, v3, v4, v5, v6, v7⟩ := eraseF_view t' N (φ N f)
  rw [hr] at v1
  have hsub : ∀ M, ((t.eraseF N f).lvl M).fps ⊆ (t.lvl M).fps := by
    intro M
    rw [u1]
    split
    · exact Finset.erase_subset _ _
    · exact subset_rfl
  constructor
  · intro M
    rw [u1, v1, h.fps]
    by_cases e : M = N ∧ ¬ 0 < t.refsF N f
    · rw [if_pos e, if_pos e]
      obtain ⟨rfl, _⟩ := e
      exact image_erase_injOn _ _ (h.injF M) hf
    · rw [if_neg e, if_neg e]
  · intro M; rw [u2, v2, h.ors]
  · intro M; exact (h.injF M).mono (hsub M)
  · intro M; rw [u2]; exact h.injO M
  · intro M g hg; rw [u3, v3]; exact h.comp M g (hsub _ hg)
  · intro M x hx; rw [u2] at hx; rw [u4, v4]; exact h.fp M x hx
  · intro M x hx; rw [u2] at hx; rw [u5, v5]; exact h.sg M x hx
  · intro M x hx; rw [u2] at hx; rw [u6, v6]; exact h.ext M x hx
  · intro M g hg; rw [u7, v7]; exact h.extF M g (hsub _ hg)

/-- the state before the footprint is looked at -/
theorem eraseO_eq {o : Id} (hr : ¬ 1 < t.refs N o) : ∃ u : Topo, t.eraseO N o = (u.eraseF N (t.fp N o), true) ∧
    (∀ M, (u.lvl M).fps = (t.lvl M).fps) ∧
    (∀ M, (u.lvl M).ors = if M = N then (t.lvl M).ors.erase o else (t.lvl M).ors) ∧ u.compF = t.compF ∧
    u.fp = t.fp ∧ u.sg = t.sg ∧ (∀ M x, ¬ (M = N ∧ x = o) → u.ext M x = t.ext M x) ∧ u.extF = t.extF := by
  refine ⟨(t.setLvl N { t.lvl N with
      orients := Function.update (t.lvl N).orients ((t.lvl N).ofp o, (t.lvl N).osg o) none,
      ors := (t.lvl N).ors.erase o }).setExt N o (t.ext N o - 1),
    by simp only [Topo.eraseO, hr, if_false]; rfl, ?_, ?_, ?_, ?_, ?_, ?_, rfl⟩
  · intro M
    by_cases e : M = N
    · subst e; simp [Topo.setExt, Topo.setLvl]
    · simp [Topo.setExt, Topo.setLvl, e]
  · intro M
    by_cases e : M = N
    · subst e; simp [Topo.setExt, Topo.setLvl]
    · simp [Topo.setExt, Topo.setLvl, e]
  · funext M x
    by_cases e : M = N
    · subst e; simp [Topo.setExt, Topo.setLvl, Topo.compF]
    · simp [Topo.setExt, Topo.setLvl, Topo.compF, e]
  · funext M x
    by_cases e : M = N
    · subst e; simp [Topo.setExt, Topo.setLvl, Topo.fp]
    · simp [Topo.setExt, Topo.setLvl, Topo.fp, e]
  · funext M x
    by_cases e : M = N
    · subst e; simp [Topo.setExt, Topo.setLvl, Topo.sg]
    · simp [Topo.setExt, Topo.setLvl, Topo.sg, e]
  · intro M x hne
    by_cases e : M = N
    · subst e
      have : x ≠ o := fun e => hne ⟨rfl, e⟩
      simp [Topo.setExt, Topo.setLvl, this]
    · simp [Topo.setExt, Topo.setLvl, e]

theorem eraseO_iso (h : Iso φ ω t t') (hi : Inv t) {o : Id} (ho : o ∈ (t.lvl N).ors) :
    Iso φ ω (t.eraseO N o).1 (t'.eraseO N (ω N o)).1 ∧ (t'.eraseO N (ω N o)).2 = (t.eraseO N o).2 := by
  have hr := h.refs hi ho
  by_cases hc : 1 < t.refs N o
  · have hc' : 1 < t'.refs N (ω N o) := by rw [hr]; exact hc
    rw [eraseO_inUse hc, eraseO_inUse hc']
    exact ⟨h, rfl⟩
  · have hc' : ¬ 1 < t'.refs N (ω N o) := by rw [hr]; exact hc
    obtain ⟨u, e, u1, u2, u3, u4, u5, u6, u7⟩ := eraseO_eq hc
    obtain ⟨v, e', v1, v2, v3, v4, v5, v6, v7⟩ := eraseO_eq hc'
    have hsub : ∀ M, (u.lvl M).ors ⊆ (t.lvl M).ors := by
      intro M
      rw [u2]
      split
      · exact Finset.erase_subset _ _
      · exact subset_rfl
    have hne : ∀ M x, x ∈ (u.lvl M).ors → ¬ (M = N ∧ x = o) := by
      rintro M x hx ⟨rfl, rfl⟩
      rw [u2] at hx
      simp at hx
    have huv : Iso φ ω u v := by
      constructor
      · intro M; rw [u1, v1, h.fps]
      · intro M
        rw [u2, v2, h.ors]
        by_cases e : M = N
        · subst e
          rw [if_pos rfl, if_pos rfl]
          exact image_erase_injOn _ _ (h.injO M) ho
        · rw [if_neg e, if_neg e]
      · intro M; rw [u1]; exact h.injF M
      · intro M; exact (h.injO M).mono (hsub M)
      · intro M g hg; rw [u1] at hg; rw [u3, v3]; exact h.comp M g hg
      · intro M x hx; rw [u4, v4]; exact h.fp M x (hsub M hx)
      · intro M x hx; rw [u5, v5]; exact h.sg M x (hsub M hx)
      · intro M x hx
        rw [u6 M x (hne M x hx), v6 M _ fun hh => hne M x hx ((h.iffO ho (hsub M hx)).1 hh)]
        exact h.ext M x (hsub M hx)
      · intro M g hg; rw [u1] at hg; rw [u7, v7]; exact h.extF M g hg
    rw [e, e', h.fp N o ho]
    refine ⟨eraseF_iso huv ?_ ?_, rfl⟩
    · intro x hx
      rw [u4, u1]
      exact hi.fp_live N x (hsub N hx)
    · rw [u1]; exact hi.fp_live N o ho

theorem erase_iso (N : Nat) : ∀ t t' o, Inv t → Inv t' → Iso φ ω t t' → 0 < t.ext N o →
    Iso φ ω (Topo.erase N t o).1 (Topo.erase N t' (ω N o)).1 ∧
      (Topo.erase N t' (ω N o)).2 = (Topo.erase N t o).2 := by
  induction N with
  | zero => intro t t' o hi hi' h ho; exact eraseO_iso h hi (hi.ext_live 0 o ho)
  | succ N ih =>
    have loop : ∀ c t t', Inv t → Inv t' → Iso φ ω t t' → c.Nodup → (∀ x ∈ c, 0 < t.ext N x) →
        Iso φ ω (eraseLoop (Topo.erase N) t c).1 (eraseLoop (Topo.erase N) t' (c.map (ω N))).1 ∧
          (eraseLoop (Topo.erase N) t' (c.map (ω N))).2 = (eraseLoop (Topo.erase N) t c).2.map (ω N) := by
      intro c
      induction c with
      | nil => intro t t' hi hi' h _ _; exact ⟨h, rfl⟩
      | cons x c ihc =>
        intro t t' hi hi' h hnd hpos
        rw [List.nodup_cons] at hnd
        have hx := hpos x (by simp)
        have hxl := hi.ext_live N x hx
        have hx' : 0 < t'.ext N (ω N x) := by rw [h.ext N x hxl]; exact hx
        obtain ⟨i1, b1⟩ := ih t t' x hi hi' h hx
        have s1 := erase_spec N t x hi hx
        have s1' := erase_spec N t' (ω N x) hi' hx'
        have hpos' : ∀ y ∈ c, 0 < (Topo.erase N t x).1.ext N y := by
          intro y hy
          have hne : y ≠ x := fun e => hnd.1 (e ▸ hy)
          rw [s1.ext]; simp [hne]; exact hpos y (by simp [hy])
        obtain ⟨i2, b2⟩ := ihc _ _ s1.shr.inv s1'.shr.inv i1 hnd.2 hpos'
        simp only [List.map_cons, eraseLoop]
        refine ⟨i2, ?_⟩
        rw [b1, b2]
        split <;> simp
    intro t t' o hi hi' h ho
    have hol := hi.ext_live _ o ho
    have hfl := hi.fp_live _ o hol
    have hc' := h.composition hi hol
    generalize hcdef : t.composition (N + 1) o = c at hc'
    have hcperm : c.Perm (t.compF (N + 1) (t.fp (N + 1) o)) := hcdef ▸ composition_perm t (N + 1) o
    have hcnd : c.Nodup := hcperm.nodup_iff.mpr (hi.comp_nodup N _ hfl)
    have hclive : ∀ x ∈ c, x ∈ (t.lvl N).ors := fun x hx => hi.comp_live N _ hfl x (hcperm.mem_iff.mp hx)
    have holdInv : ∀ (u : Topo) (d : List Id), Inv u → (∀ x ∈ d, x ∈ (u.lvl N).ors) →
        Inv (d.foldl (fun t x => t.hold N x) u) := by
      intro u d hu hd
      obtain ⟨hl1, hF1, hs1, he1⟩ := hold_foldl N d u
      apply hu.of_ext hl1 hF1
      intro M x hx
      rw [he1] at hx
      by_cases e : M = N
      · subst e
        rw [if_pos rfl] at hx
        by_cases e' : x ∈ d
        · exact hd x e'
        · rw [List.count_eq_zero_of_not_mem e'] at hx
          exact hu.ext_live M x (by omega)
      · rw [if_neg e] at hx
        exact hu.ext_live M x (by omega)
    have h1 := hold_foldl_iso h c hclive
    have i1 := holdInv t c hi hclive
    have i1' := holdInv t' (c.map (ω N)) hi' (by
      intro x hx
      obtain ⟨y, hy, rfl⟩ := List.mem_map.mp hx
      exact h.memO (hclive y hy))
    obtain ⟨hl1, hF1, hs1, he1⟩ := hold_foldl N c t
    have hdef : Topo.erase (N + 1) t o =
        ((eraseLoop (Topo.erase N) ((c.foldl (fun t x => t.hold N x) t).eraseO (N + 1) o).1 c).2.foldl
          (fun t x => t.drop N x)
          (eraseLoop (Topo.erase N) ((c.foldl (fun t x => t.hold N x) t).eraseO (N + 1) o).1 c).1,
          ((c.foldl (fun t x => t.hold N x) t).eraseO (N + 1) o).2) := by rw [← hcdef]; rfl
    have hdef' : Topo.erase (N + 1) t' (ω (N + 1) o) =
        ((eraseLoop (Topo.erase N) (((c.map (ω N)).foldl (fun t x => t.hold N x) t').eraseO (N + 1)
            (ω (N + 1) o)).1 (c.map (ω N))).2.foldl (fun t x => t.drop N x)
          (eraseLoop (Topo.erase N) (((c.map (ω N)).foldl (fun t x => t.hold N x) t').eraseO (N + 1)
            (ω (N + 1) o)).1 (c.map (ω N))).1,
          (((c.map (ω N)).foldl (fun t x => t.hold N x) t').eraseO (N + 1) (ω (N + 1) o)).2) := by
      rw [← hc']; rfl
    rw [hdef, hdef']
    generalize c.foldl (fun t x => t.hold N x) t = u at *
    generalize (c.map (ω N)).foldl (fun t x => t.hold N x) t' = u' at *
    have hou : o ∈ (u.lvl (N + 1)).ors := by rw [hl1]; exact hol
    have hou' := h1.memO hou
    have hext : ∀ x ∈ c, 0 < u.ext N x := by
      intro x hx
      rw [he1, if_pos rfl]
      have := List.count_pos_iff.mpr hx
      omega
    obtain ⟨h2, b2⟩ := eraseO_iso h1 i1 hou
    -- after the oriented simplex was looked at
    have after : ∀ (w : Topo) (q : Id), Inv w → 0 < w.ext (N + 1) q → Inv (w.eraseO (N + 1) q).1 ∧
        ∀ x, (w.eraseO (N + 1) q).1.ext N x = w.ext N x := by
      intro w q hw hq
      by_cases hr : 1 < w.refs (N + 1) q
      · rw [eraseO_inUse hr]; exact ⟨hw, fun _ => rfl⟩
      · obtain ⟨_, hE⟩ := eraseO_spec hw hq hr
        exact ⟨hE.inv, fun x => by rw [hE.ext]; simp⟩
    have hoe : 0 < u.ext (N + 1) o := by rw [he1]; omega
    have hoe' : 0 < u'.ext (N + 1) (ω (N + 1) o) := by rw [h1.ext _ o hou]; exact hoe
    obtain ⟨i2, x2⟩ := after u o i1 hoe
    obtain ⟨i2', _⟩ := after u' _ i1' hoe'
    have hpos : ∀ x ∈ c, 0 < (u.eraseO (N + 1) o).1.ext N x := fun x hx => by rw [x2]; exact hext x hx
    obtain ⟨h3, b3⟩ := loop c _ _ i2 i2' h2 hcnd hpos
    have ls := loop_spec N (erase_spec N) c _ i2 hcnd hpos
    refine ⟨?_, b2⟩
    simp only
    rw [b3]
    apply drop_foldl_iso h3
    intro x hx
    apply ls.shr.inv.ext_live
    rw [ls.ext]
    simp [hx]
    exact hpos x (ls.sub x hx)

end Mito.Topology
