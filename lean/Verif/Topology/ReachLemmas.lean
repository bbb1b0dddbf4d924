import Verif.Topology.EraseLemmas
import Verif.Math.SignLemmas

/-! # Helper lemmas for the topology: every reachable state satisfies the invariant -/

set_option linter.unusedSimpArgs false
set_option linter.unusedVariables false

namespace Mito.Topology

open Mito.Combinatorics

/-! ### validity of compositions -/

theorem isValid_congr {t t' : Topo} {N : Nat} {c : List Id}
    (h1 : ∀ x ∈ c, t'.fp N x = t.fp N x) (h2 : ∀ x ∈ c, t'.sg N x = t.sg N x)
    (h3 : ∀ M, N = M + 1 → ∀ s ∈ c, t'.composition N s = t.composition N s ∧
      ∀ x ∈ t.composition N s, t'.fp M x = t.fp M x ∧ t'.sg M x = t.sg M x) :
    t'.isValid (N + 1) c = t.isValid (N + 1) c := by
  cases N with
  | zero =>
    unfold Topo.isValid
    match c with
    | [] => rfl
    | [_] => rfl
    | [x, y] => simp [h1, h2]
    | _ :: _ :: _ :: _ => rfl
  | succ M =>
    have : t'.netPairs M c = t.netPairs M c := by
      unfold Topo.netPairs
      apply List.flatMap_congr
      intro s hs
      obtain ⟨e1, e2⟩ := h3 M rfl s hs
      rw [e1]
      apply List.map_congr_left
      intro x hx
      rw [(e2 x hx).1, (e2 x hx).2, h2 s hs]
    simp only [Topo.isValid]
    rw [this]

theorem composition_le {t t' : Topo} (h : Inv t) (hle : Le t t') {N : Nat} {o : Id}
    (ho : o ∈ (t.lvl N).ors) : t'.composition N o = t.composition N o := by
  unfold Topo.composition
  rw [hle.osg N o ho, hle.ofp N o ho, hle.comp N _ (h.fp_live N o ho)]

theorem composition_live {t : Topo} (h : Inv t) {N : Nat} {o : Id}
    (ho : o ∈ (t.lvl (N + 1)).ors) : ∀ x ∈ t.composition (N + 1) o, x ∈ (t.lvl N).ors := by
  intro x hx
  exact h.comp_live N _ (h.fp_live _ o ho) x ((composition_perm t (N + 1) o).mem_iff.mp hx)

theorem isValid_le {t t' : Topo} (h : Inv t) (hle : Le t t') {N : Nat} {c : List Id}
    (hc : ∀ x ∈ c, x ∈ (t.lvl N).ors) : t'.isValid (N + 1) c = t.isValid (N + 1) c := by
  apply isValid_congr
  · exact fun x hx => hle.ofp N x (hc x hx)
  · exact fun x hx => hle.osg N x (hc x hx)
  · rintro M rfl s hs
    refine ⟨composition_le h hle (hc s hs), fun x hx => ?_⟩
    have := composition_live h (hc s hs) x hx
    exact ⟨hle.ofp M x this, hle.osg M x this⟩

theorem isValid_shr {t t' : Topo} {K : Nat} (h : Shr K t t') (N : Nat) (c : List Id) :
    t'.isValid (N + 1) c = t.isValid (N + 1) c := by
  apply isValid_congr
  · intro x _; rw [h.fp]
  · intro x _; rw [h.sg]
  · rintro M rfl s hs
    refine ⟨?_, fun x hx => by rw [h.fp, h.sg]; exact ⟨rfl, rfl⟩⟩
    unfold Topo.composition
    rw [h.fp, h.sg, h.compF]

/-- the full invariant: `Inv` and every footprint alive has a valid composition -/
structure Ok (t : Topo) : Prop where
  inv : Inv t
  valid : ∀ N, ∀ f ∈ (t.lvl (N + 1)).fps, t.isValid (N + 1) (t.compF (N + 1) f) = some true

theorem Ok.init (s : List Id) : Ok (.init s) :=
  ⟨Inv.init s, by simp [Topo.init, Level.empty]⟩

/-- a step that adds no footprint above order 0 keeps the compositions valid -/
theorem Ok.of_le {t t' : Topo} (h : Ok t) (hi : Inv t') (hle : Le t t')
    (hf : ∀ N, ∀ f ∈ (t'.lvl (N + 1)).fps, f ∈ (t.lvl (N + 1)).fps) : Ok t' := by
  refine ⟨hi, fun N f hfm => ?_⟩
  have hfm' := hf N f hfm
  rw [hle.comp _ f hfm', isValid_le h.inv hle (h.inv.comp_live N f hfm')]
  exact h.valid N f hfm'

theorem orientedF_fps {t t' : Topo} {N : Nat} {f : Id} {s : Int} {o : Id}
    (h : t.orientedF N f s = some (t', o)) (M : Nat) : (t'.lvl M).fps = (t.lvl M).fps := by
  rcases orientedF_cases h with ⟨_, rfl⟩ | ⟨_, _, rest, _, rfl⟩
  · rfl
  · by_cases e : M = N
    · subst e; simp [Topo.addO]
    · simp [Topo.addO, e]

theorem orientedF_ok {t t' : Topo} (h : Ok t) {N : Nat} {f : Id} {s : Int} {o : Id}
    (hf : f ∈ (t.lvl N).fps) (hs : s = 1 ∨ s = -1) (ho : t.orientedF N f s = some (t', o)) :
    Ok t' ∧ Le t t' ∧ o ∈ (t'.lvl N).ors ∧ t'.fp N o = f ∧ t'.sg N o = s := by
  obtain ⟨a, b, c⟩ := orientedF_spec h.inv hf hs ho
  exact ⟨h.of_le a b fun M g hg => by rw [orientedF_fps ho] at hg; exact hg, b, c⟩

theorem simplex_fps {t t' : Topo} {N : Nat} {c : List Id} {o : Id} (h : Inv t)
    (hc : ∀ x ∈ c, x ∈ (t.lvl N).ors) (hl : c.length = N + 2) (hnd : c.Nodup)
    (ho : t.simplex N c = some (t', o)) :
    ∀ M f, f ∈ (t'.lvl M).fps → f ∈ (t.lvl M).fps ∨
      (M = N + 1 ∧ f = t'.fp (N + 1) o ∧ f ∉ (t.lvl (N + 1)).fps) := by
  have hspec := simplex_spec h hc hl hnd ho
  unfold Topo.simplex at ho
  split at ho
  · split at ho
    · simp at ho
    · rename_i t1 f1 hf1
      split at ho
      · simp at ho
      · rename_i s hs
        intro M f hf
        rw [orientedF_fps ho] at hf
        obtain ⟨i1, l1, f1l, e1, p1, n1⟩ := simplexF_spec h hc hl hnd hf1
        have hsv : s = 1 ∨ s = -1 := permutationSign_values hs
        have ho' := orientedF_spec i1 f1l hsv ho
        rcases simplexF_cases hf1 with ⟨_, rfl⟩ | ⟨_, hn, rest, _, rfl⟩
        · exact Or.inl hf
        · by_cases e : M = N + 1
          · subst e
            simp [Topo.addF] at hf
            rcases hf with rfl | hf
            · exact Or.inr ⟨rfl, ho'.2.2.2.1.symm, hn⟩
            · exact Or.inl hf
          · simp [Topo.addF, e] at hf
            exact Or.inl hf
  · simp at ho

theorem simplex_ok {t t' : Topo} (h : Ok t) {N : Nat} {c : List Id} {o : Id}
    (hc : ∀ x ∈ c, x ∈ (t.lvl N).ors) (hl : c.length = N + 2) (hnd : c.Nodup)
    (ho : t.simplex N c = some (t', o)) : Ok t' := by
  obtain ⟨i, le, ol, hv, _, _, hnew, _⟩ := simplex_spec h.inv hc hl hnd ho
  refine ⟨i, fun M f hf => ?_⟩
  rcases simplex_fps h.inv hc hl hnd ho (M + 1) f hf with hf | ⟨e, rfl, hn⟩
  · rw [le.comp _ f hf, isValid_le h.inv le (h.inv.comp_live M f hf)]
    exact h.valid M f hf
  · have e' : M = N := by omega
    subst e'
    rw [hnew hn, isValid_le h.inv le hc]
    exact hv

/-! ### creation from vertices -/

/-- the vertices of a segment -/
def Topo.ends (t : Topo) (o : Id) : List Id := (t.compF 1 (t.fp 1 o)).map (t.fp 0)

/-- the end points of the edges of a triangle -/
def Topo.ends2 (t : Topo) (o : Id) : List Id := (t.compF 2 (t.fp 2 o)).flatMap t.ends

theorem ends_le {t t' : Topo} (h : Inv t) (hle : Le t t') {o : Id} (ho : o ∈ (t.lvl 1).ors) :
    t'.ends o = t.ends o := by
  unfold Topo.ends
  rw [hle.ofp 1 o ho, hle.comp 1 _ (h.fp_live 1 o ho)]
  exact map_fp_congr fun x hx => hle.ofp 0 x (h.comp_live 0 _ (h.fp_live 1 o ho) x hx)

theorem ends2_le {t t' : Topo} (h : Inv t) (hle : Le t t') {o : Id} (ho : o ∈ (t.lvl 2).ors) :
    t'.ends2 o = t.ends2 o := by
  unfold Topo.ends2
  rw [hle.ofp 2 o ho, hle.comp 2 _ (h.fp_live 2 o ho)]
  apply List.flatMap_congr
  intro x hx
  exact ends_le h hle (h.comp_live 1 _ (h.fp_live 2 o ho) x hx)

theorem segment_ok {t t' : Topo} (h : Ok t) {a b o : Id} (ha : a ∈ (t.lvl 0).fps)
    (hb : b ∈ (t.lvl 0).fps) (ho : t.segment a b = some (t', o)) :
    Ok t' ∧ Le t t' ∧ o ∈ (t'.lvl 1).ors ∧ (t'.ends o).Perm [a, b] ∧ a ≠ b := by
  unfold Topo.segment at ho
  split at ho
  · simp at ho
  · rename_i t1 x hx
    obtain ⟨ok1, le1, l1, f1, s1⟩ := orientedF_ok h ha (by simp) hx
    split at ho
    · simp at ho
    · rename_i t2 y hy
      obtain ⟨ok2, le2, l2, f2, s2⟩ := orientedF_ok ok1 (le1.fps 0 hb) (by simp) hy
      have hxl : x ∈ (t2.lvl 0).ors := le2.ors 0 l1
      have hfx : t2.fp 0 x = a := by rw [le2.ofp 0 x l1, f1]
      have hsx : t2.sg 0 x = -1 := by rw [le2.osg 0 x l1, s1]
      have hne : x ≠ y := by
        rintro rfl
        rw [hsx] at s2; simp at s2
      have hc : ∀ z ∈ [x, y], z ∈ (t2.lvl 0).ors := by simp [hxl, l2]
      have hnd : [x, y].Nodup := by simp [hne]
      obtain ⟨i, le, ol, hv, hp, _, _, _⟩ := simplex_spec ok2.inv hc rfl hnd ho
      refine ⟨simplex_ok ok2 hc rfl hnd ho, (le1.trans le2).trans le, ol, ?_, ?_⟩
      · have := hp.symm
        simpa [Topo.ends, hfx, f2] using this
      · simp [Topo.isValid, hfx, f2] at hv
        exact hv.1

theorem ends_of_fp {t : Topo} {o o' : Id} (h : t.fp 1 o = t.fp 1 o') : t.ends o = t.ends o' := by
  unfold Topo.ends; rw [h]

/-- the end points of the edges only depend on the footprints of the edges -/
theorem flatMap_ends_perm {t : Topo} {c c' : List Id}
    (h : (c.map (t.fp 1)).Perm (c'.map (t.fp 1))) :
    (c.flatMap t.ends).Perm (c'.flatMap t.ends) := by
  have e : ∀ c : List Id, c.flatMap t.ends =
      (c.map (t.fp 1)).flatMap fun f => (t.compF 1 f).map (t.fp 0) := by
    intro c
    rw [List.flatMap_map]; rfl
  rw [e, e]
  exact List.Perm.flatMap_right _ h

theorem perm_two {a b c d : Id} (h : [a, b].Perm [c, d]) : (a = c ∧ b = d) ∨ (a = d ∧ b = c) := by
  have h1 : a = c ∨ a = d := by simpa using h.mem_iff.mp (show a ∈ [a, b] by simp)
  rcases h1 with rfl | rfl
  · left; simpa using h
  · right
    have h2 : [a, b].Perm [a, c] := h.trans (List.Perm.swap _ _ _)
    simpa using h2

theorem triangle_ok {t t' : Topo} (h : Ok t) {a b c o : Id} (ha : a ∈ (t.lvl 0).fps)
    (hb : b ∈ (t.lvl 0).fps) (hc : c ∈ (t.lvl 0).fps) (ho : t.triangle a b c = some (t', o)) :
    Ok t' ∧ Le t t' ∧ o ∈ (t'.lvl 2).ors ∧ (t'.ends2 o).Perm [a, b, b, c, c, a] ∧
      a ≠ b ∧ b ≠ c ∧ c ≠ a := by
  unfold Topo.triangle at ho
  split at ho
  · simp at ho
  · rename_i t1 x hx
    obtain ⟨ok1, le1, l1, e1, n1⟩ := segment_ok h ha hb hx
    split at ho
    · simp at ho
    · rename_i t2 y hy
      obtain ⟨ok2, le2, l2, e2, n2⟩ := segment_ok ok1 (le1.fps 0 hb) (le1.fps 0 hc) hy
      split at ho
      · simp at ho
      · rename_i t3 z hz
        obtain ⟨ok3, le3, l3, e3, n3⟩ := segment_ok ok2 (le2.fps 0 (le1.fps 0 hc))
          (le2.fps 0 (le1.fps 0 ha)) hz
        have ex : (t3.ends x).Perm [a, b] := by
          rw [ends_le ok2.inv le3 (le2.ors 1 l1), ends_le ok1.inv le2 l1]; exact e1
        have ey : (t3.ends y).Perm [b, c] := by
          rw [ends_le ok2.inv le3 l2]; exact e2
        have hxl := le3.ors 1 (le2.ors 1 l1)
        have hyl := le3.ors 1 l2
        have hxy : x ≠ y := by
          rintro rfl
          rcases perm_two (ex.symm.trans ey) with ⟨h1, h2⟩ | ⟨h1, h2⟩
          · exact n1 h1
          · exact n3 h1.symm
        have hxz : x ≠ z := by
          rintro rfl
          rcases perm_two (ex.symm.trans e3) with ⟨h1, h2⟩ | ⟨h1, h2⟩
          · exact n3 h1.symm
          · exact n2 h2
        have hyz : y ≠ z := by
          rintro rfl
          rcases perm_two (ey.symm.trans e3) with ⟨h1, h2⟩ | ⟨h1, h2⟩
          · exact n2 h1
          · exact n1 h1.symm
        have hcl : ∀ w ∈ [x, y, z], w ∈ (t3.lvl 1).ors := by simp [hxl, hyl, l3]
        have hnd : [x, y, z].Nodup := by simp [hxy, hxz, hyz]
        obtain ⟨i, le, ol, hv, hp, _, _, hfp⟩ := simplex_spec ok3.inv hcl rfl hnd ho
        refine ⟨simplex_ok ok3 hcl rfl hnd ho, ((le1.trans le2).trans le3).trans le, ol, ?_,
          n1, n2, n3⟩
        have hp' : ([x, y, z].map (t'.fp 1)).Perm
            ((t'.compF 2 (t'.fp 2 o)).map (t'.fp 1)) := by
          have : [x, y, z].map (t'.fp 1) = [x, y, z].map (t3.fp 1) := map_fp_congr hfp
          rw [this]; exact hp
        have h1 := flatMap_ends_perm hp'
        unfold Topo.ends2
        refine h1.symm.trans ?_
        simp only [List.flatMap_cons, List.flatMap_nil, List.append_nil]
        rw [ends_le ok3.inv le hxl, ends_le ok3.inv le hyl, ends_le ok3.inv le l3]
        exact (ex.append (ey.append e3))

theorem tetrahedron_ok {t t' : Topo} (h : Ok t) {a b c d o : Id} (ha : a ∈ (t.lvl 0).fps)
    (hb : b ∈ (t.lvl 0).fps) (hc : c ∈ (t.lvl 0).fps) (hd : d ∈ (t.lvl 0).fps)
    (ho : t.tetrahedron a b c d = some (t', o)) :
    Ok t' ∧ Le t t' ∧ o ∈ (t'.lvl 3).ors := by
  unfold Topo.tetrahedron at ho
  split at ho
  · simp at ho
  · rename_i t1 x hx
    obtain ⟨ok1, le1, l1, e1, n1⟩ := triangle_ok h ha hb hc hx
    have ha := le1.fps 0 ha
    have hb := le1.fps 0 hb
    have hc := le1.fps 0 hc
    have hd := le1.fps 0 hd
    split at ho
    · simp at ho
    · rename_i t2 y hy
      obtain ⟨ok2, le2, l2, e2, n2⟩ := triangle_ok ok1 hb hd hc hy
      have ha := le2.fps 0 ha
      have hb := le2.fps 0 hb
      have hc := le2.fps 0 hc
      have hd := le2.fps 0 hd
      split at ho
      · simp at ho
      · rename_i t3 z hz
        obtain ⟨ok3, le3, l3, e3, n3⟩ := triangle_ok ok2 hd hb ha hz
        have ha := le3.fps 0 ha
        have hb := le3.fps 0 hb
        have hc := le3.fps 0 hc
        have hd := le3.fps 0 hd
        split at ho
        · simp at ho
        · rename_i t4 w hw
          obtain ⟨ok4, le4, l4, e4, n4⟩ := triangle_ok ok3 hd ha hc hw
          have ex : (t4.ends2 x).Perm [a, b, b, c, c, a] := by
            rw [ends2_le ok3.inv le4 (le3.ors 2 (le2.ors 2 l1)),
              ends2_le ok2.inv le3 (le2.ors 2 l1), ends2_le ok1.inv le2 l1]; exact e1
          have ey : (t4.ends2 y).Perm [b, d, d, c, c, b] := by
            rw [ends2_le ok3.inv le4 (le3.ors 2 l2), ends2_le ok2.inv le3 l2]; exact e2
          have ez : (t4.ends2 z).Perm [d, b, b, a, a, d] := by
            rw [ends2_le ok3.inv le4 l3]; exact e3
          have hxl := le4.ors 2 (le3.ors 2 (le2.ors 2 l1))
          have hyl := le4.ors 2 (le3.ors 2 l2)
          have hzl := le4.ors 2 l3
          have dist : a ≠ b ∧ b ≠ c ∧ c ≠ a ∧ b ≠ d ∧ d ≠ c ∧ a ≠ d :=
            ⟨n1.1, n1.2.1, n1.2.2, n2.1, n2.2.1, n4.1.symm⟩
          have key : ∀ {p q : List Id} (u : Id), p.Perm q → u ∈ p → u ∉ q → False :=
            fun u hp h1 h2 => h2 (hp.mem_iff.mp h1)
          have hxy : x ≠ y := by
            rintro rfl
            exact key a (ex.symm.trans ey) (by simp) (by simp; tauto)
          have hxz : x ≠ z := by
            rintro rfl
            exact key c (ex.symm.trans ez) (by simp) (by simp; tauto)
          have hxw : x ≠ w := by
            rintro rfl
            exact key b (ex.symm.trans e4) (by simp) (by simp; tauto)
          have hyz : y ≠ z := by
            rintro rfl
            exact key c (ey.symm.trans ez) (by simp) (by simp; tauto)
          have hyw : y ≠ w := by
            rintro rfl
            exact key b (ey.symm.trans e4) (by simp) (by simp; tauto)
          have hzw : z ≠ w := by
            rintro rfl
            exact key b (ez.symm.trans e4) (by simp) (by simp; tauto)
          have hcl : ∀ u ∈ [x, y, z, w], u ∈ (t4.lvl 2).ors := by simp [hxl, hyl, hzl, l4]
          have hnd : [x, y, z, w].Nodup := by simp [hxy, hxz, hxw, hyz, hyw, hzw]
          obtain ⟨i, le, ol, _⟩ := simplex_spec ok4.inv hcl rfl hnd ho
          exact ⟨simplex_ok ok4 hcl rfl hnd ho,
            (((le1.trans le2).trans le3).trans le4).trans le, ol⟩

theorem vertex_cases {t t' : Topo} {v : Id} (h : t.vertex = some (t', v)) :
    v ∉ (t.lvl 0).fps ∧ ∃ rest, t.supply = v :: rest ∧
      t' = { t.setLvl 0 { t.lvl 0 with
               fps := insert v (t.lvl 0).fps, comp := Function.update (t.lvl 0).comp v [] }
             with supply := rest } := by
  unfold Topo.vertex Topo.emplaceF at h
  split at h
  · simp at h
  · rename_i i rest hs
    split at h
    · simp at h
    · rename_i hi
      simp at h
      obtain ⟨rfl, rfl⟩ := h
      exact ⟨hi, rest, hs, rfl⟩

theorem vertex_ok {t t' : Topo} (h : Ok t) {v : Id} (hv : t.vertex = some (t', v)) :
    Ok t' ∧ Le t t' ∧ v ∈ (t'.lvl 0).fps ∧ v ∉ (t.lvl 0).fps := by
  obtain ⟨hn, rest, hs, rfl⟩ := vertex_cases hv
  generalize ht' : ({ t.setLvl 0 { t.lvl 0 with
               fps := insert v (t.lvl 0).fps, comp := Function.update (t.lvl 0).comp v [] }
             with supply := rest } : Topo) = t'
  have h0 : t'.lvl 0 = { t.lvl 0 with
      fps := insert v (t.lvl 0).fps, comp := Function.update (t.lvl 0).comp v [] } := by
    rw [← ht']; simp [Topo.setLvl]
  have hS : ∀ M, t'.lvl (M + 1) = t.lvl (M + 1) := by
    intro M; rw [← ht']; simp [Topo.setLvl]
  have hext : t'.ext = t.ext := by rw [← ht']; rfl
  have hextF : t'.extF = t.extF := by rw [← ht']; rfl
  have hors : ∀ M, (t'.lvl M).ors = (t.lvl M).ors := by
    intro M; cases M with
    | zero => rw [h0]
    | succ M => rw [hS]
  have horr : ∀ M, (t'.lvl M).orients = (t.lvl M).orients := by
    intro M; cases M with
    | zero => rw [h0]
    | succ M => rw [hS]
  have hfp : t'.fp = t.fp := by
    funext M x; cases M with
    | zero => simp [Topo.fp, h0]
    | succ M => simp [Topo.fp, hS]
  have hsg : t'.sg = t.sg := by
    funext M x; cases M with
    | zero => simp [Topo.sg, h0]
    | succ M => simp [Topo.sg, hS]
  have hfpsub : ∀ M, (t.lvl M).fps ⊆ (t'.lvl M).fps := by
    intro M; cases M with
    | zero => rw [h0]; simp
    | succ M => rw [hS]
  have hcF : ∀ M f, t'.compF (M + 1) f = t.compF (M + 1) f := by
    intro M f; simp [Topo.compF, hS]
  have hle : Le t t' := by
    refine ⟨hfpsub, fun M => by rw [hors], ?_, fun M o _ => by rw [hfp], fun M o _ => by rw [hsg],
      hext, hextF⟩
    intro M f hf
    cases M with
    | zero =>
      have : f ≠ v := fun e => hn (e ▸ hf)
      simp [Topo.compF, h0, this]
    | succ M => exact hcF M f
  refine ⟨h.of_le ?_ hle ?_, hle, by rw [h0]; simp, hn⟩
  · have hi := h.inv
    constructor
    · intro M o ho
      rw [hors] at ho
      rw [hfp]; exact hfpsub M (hi.fp_live M o ho)
    · intro M o ho
      rw [hors] at ho
      rw [hsg]; exact hi.sg M o ho
    · intro M f hf x hx
      rw [hS] at hf
      rw [hcF] at hx
      rw [hors]; exact hi.comp_live M f hf x hx
    · intro M f hf
      rw [hS] at hf
      rw [hcF]; exact hi.comp_len M f hf
    · intro M f hf
      rw [hS] at hf
      rw [hcF]; exact hi.comp_nodup M f hf
    · intro M k f
      rw [hS, hcF, hi.comps]
      have : ∀ c, t'.representative M c = t.representative M c :=
        fun c => representative_congr fun x _ => by rw [hfp]
      rw [this]
    · intro M f s o
      rw [horr, hi.orients, hors, hfp, hsg]
    · intro M o ho
      rw [hext] at ho
      rw [hors]; exact hi.ext_live M o ho
    · intro M f hf
      rw [hextF] at hf
      exact hfpsub M (hi.extF_live M f hf)
  · intro M f hf
    rw [hS] at hf; exact hf

/-! ### handles -/

theorem Ok.of_ext {t t' : Topo} (h : Ok t) (hl : t'.lvl = t.lvl)
    (he : ∀ N o, 0 < t'.ext N o → o ∈ (t.lvl N).ors)
    (hF : ∀ N f, 0 < t'.extF N f → f ∈ (t.lvl N).fps) : Ok t' := by
  have hi : Inv t' := by
    obtain ⟨l, e, f, s⟩ := t
    obtain ⟨l', e', f', s'⟩ := t'
    simp only at hl
    subst hl
    have h := h.inv
    exact ⟨h.fp_live, h.sg, h.comp_live, h.comp_len, h.comp_nodup, h.comps, h.orients, he, hF⟩
  refine ⟨hi, fun N f hf => ?_⟩
  rw [hl] at hf
  have hfp : t'.fp = t.fp := by unfold Topo.fp; rw [hl]
  have hsg : t'.sg = t.sg := by unfold Topo.sg; rw [hl]
  have hcF : t'.compF = t.compF := by unfold Topo.compF; rw [hl]
  rw [hcF]
  rw [isValid_congr (t := t) (t' := t')]
  · exact h.valid N f hf
  · intro x _; rw [hfp]
  · intro x _; rw [hsg]
  · intro M e s hs
    refine ⟨by unfold Topo.composition; rw [hfp, hsg, hcF], fun x _ => by rw [hfp, hsg]; exact ⟨rfl, rfl⟩⟩

theorem hold_ok {t : Topo} (h : Ok t) {N : Nat} {o : Id} (ho : o ∈ (t.lvl N).ors) :
    Ok (t.hold N o) := by
  apply h.of_ext (t' := t.hold N o) rfl
  · intro M x hx
    have : (t.hold N o).ext M x = t.ext M x + if M = N ∧ x = o then 1 else 0 := by
      simp only [Topo.hold, Topo.setExt, Function.update_apply]
      by_cases e : M = N
      · subst e
        by_cases e' : x = o
        · subst e'; simp
        · simp [e']
      · simp [e]
    rw [this] at hx
    by_cases e : M = N ∧ x = o
    · obtain ⟨rfl, rfl⟩ := e; exact ho
    · rw [if_neg e] at hx; exact h.inv.ext_live M x (by omega)
  · exact h.inv.extF_live

theorem drop_ok {t : Topo} (h : Ok t) (N : Nat) (o : Id) : Ok (t.drop N o) := by
  apply h.of_ext (t' := t.drop N o) rfl
  · intro M x hx
    simp only [Topo.drop, Topo.setExt, Function.update_apply] at hx
    apply h.inv.ext_live M x
    by_cases e : M = N
    · subst e
      by_cases e' : x = o
      · subst e'; simp at hx; omega
      · simpa [e'] using hx
    · simpa [e] using hx
  · exact h.inv.extF_live

theorem setExtF_ok {t : Topo} (h : Ok t) {N : Nat} {f : Id} {k : Nat}
    (hf : 0 < k → f ∈ (t.lvl N).fps) : Ok (t.setExtF N f k) := by
  apply h.of_ext (t' := t.setExtF N f k) rfl
  · exact h.inv.ext_live
  · intro M x hx
    simp only [Topo.setExtF, Function.update_apply] at hx
    by_cases e : M = N
    · subst e
      by_cases e' : x = f
      · subst e'; simp at hx; exact hf hx
      · apply h.inv.extF_live M x; simpa [e'] using hx
    · apply h.inv.extF_live M x; simpa [e] using hx

theorem live_of_refs {t : Topo} (h : Inv t) {N : Nat} {o : Id} (ho : 0 < t.refs N o) :
    o ∈ (t.lvl N).ors := by
  unfold Topo.refs at ho
  rcases Nat.eq_zero_or_pos (t.ext N o) with e | e
  · have hs : 0 < ∑ f ∈ (t.lvl (N + 1)).fps, (t.compF (N + 1) f).count o := by omega
    obtain ⟨f, hf, hc⟩ := Finset.exists_ne_zero_of_sum_ne_zero (by omega :
      ∑ f ∈ (t.lvl (N + 1)).fps, (t.compF (N + 1) f).count o ≠ 0)
    have hm : o ∈ t.compF (N + 1) f := List.count_pos_iff.mp (by omega)
    exact h.comp_live N f hf o hm
  · exact h.ext_live N o e

theorem live_of_refsF {t : Topo} (h : Inv t) {N : Nat} {f : Id} (hf : 0 < t.refsF N f) :
    f ∈ (t.lvl N).fps := by
  unfold Topo.refsF at hf
  rcases Nat.eq_zero_or_pos (t.extF N f) with e | e
  · have hs : 0 < ((t.lvl N).ors.filter fun o => (t.lvl N).ofp o = f).card := by omega
    obtain ⟨o, ho⟩ := Finset.card_pos.mp hs
    simp at ho
    have := h.fp_live N o ho.1
    unfold Topo.fp at this
    rw [ho.2] at this
    exact this
  · exact h.extF_live N f e

theorem erase_ok {t : Topo} (h : Ok t) {N : Nat} {o : Id} (ho : 0 < t.ext N o) :
    Ok (Topo.erase N t o).1 := by
  have hs := (erase_spec N t o h.inv ho).shr
  refine ⟨hs.inv, fun M f hf => ?_⟩
  rw [hs.compF, isValid_shr hs]
  exact h.valid M f (hs.fps _ hf)

/-- the invariant is kept by every operation -/
theorem step_ok {t t' : Topo} (h : Ok t) {op : Op} (hs : step t op = some t') : Ok t' := by
  have keep_ok : ∀ {N : Nat} {r : Option (Topo × Id)} {t' : Topo}, keep N r = some t' →
      (∀ t1 o, r = some (t1, o) → Ok t1 ∧ o ∈ (t1.lvl N).ors) → Ok t' := by
    intro N r t' hk hr
    unfold keep at hk
    split at hk
    · simp at hk
    · rename_i t1 o
      simp at hk
      obtain ⟨a, b⟩ := hr t1 o rfl
      rw [← hk]; exact hold_ok a b
  unfold step at hs
  split at hs
  · split at hs
    · simp at hs
    · rename_i t1 v hv
      simp at hs
      rw [← hs]
      obtain ⟨a, _, b, _⟩ := vertex_ok h hv
      exact setExtF_ok a fun _ => b
  · split at hs
    · rename_i hc
      exact keep_ok hs fun t1 o hr => by
        obtain ⟨a, b, c, _⟩ := orientedF_ok h hc.1 hc.2 hr
        exact ⟨a, c⟩
    · simp at hs
  · split at hs
    · rename_i hc
      exact keep_ok hs fun t1 o hr =>
        ⟨simplex_ok h hc.1 hc.2.1 hc.2.2 hr, (simplex_spec h.inv hc.1 hc.2.1 hc.2.2 hr).2.2.1⟩
    · simp at hs
  · split at hs
    · rename_i hc
      exact keep_ok hs fun t1 o hr => by
        obtain ⟨a, b, c, _⟩ := segment_ok h hc.1 hc.2 hr
        exact ⟨a, c⟩
    · simp at hs
  · split at hs
    · rename_i hc
      exact keep_ok hs fun t1 o hr => by
        obtain ⟨a, b, c, _⟩ := triangle_ok h hc.1 hc.2.1 hc.2.2 hr
        exact ⟨a, c⟩
    · simp at hs
  · split at hs
    · rename_i hc
      exact keep_ok hs fun t1 o hr => by
        obtain ⟨a, b, c⟩ := tetrahedron_ok h hc.1 hc.2.1 hc.2.2.1 hc.2.2.2 hr
        exact ⟨a, c⟩
    · simp at hs
  · split at hs
    · rename_i hc
      exact keep_ok hs fun t1 o hr => by
        have hsg := h.inv.sg _ _ hc
        obtain ⟨a, b, c, _⟩ := orientedF_ok h (h.inv.fp_live _ _ hc) (by omega) hr
        exact ⟨a, c⟩
    · simp at hs
  · split at hs
    · rename_i hc
      simp at hs
      rw [← hs]; exact hold_ok h (live_of_refs h.inv hc)
    · simp at hs
  · split at hs
    · simp at hs
      rw [← hs]; exact drop_ok h _ _
    · simp at hs
  · split at hs
    · rename_i hc
      simp at hs
      rw [← hs]; exact setExtF_ok h fun _ => live_of_refsF h.inv hc
    · simp at hs
  · split at hs
    · rename_i hc
      simp at hs
      rw [← hs]; exact setExtF_ok h fun _ => h.inv.extF_live _ _ hc
    · simp at hs
  · split at hs
    · rename_i hc
      simp at hs
      rw [← hs]; exact erase_ok h hc
    · simp at hs

theorem run_ok {t t' : Topo} (h : Ok t) {ops : List Op} (hr : run t ops = some t') : Ok t' := by
  induction ops generalizing t with
  | nil => simp [run] at hr; rw [← hr]; exact h
  | cons op ops ih =>
    simp only [run] at hr
    split at hr
    · simp at hr
    · rename_i t1 h1
      exact ih (step_ok h h1) hr

end Mito.Topology
