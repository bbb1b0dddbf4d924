import Verif.Topology.ReachLemmas
import Mathlib.Data.Finset.Insert
import Mathlib.Tactic.LinearCombination

/-! # Helper lemmas for the topology: simplices built from vertices -/

set_option linter.unusedSimpArgs false
set_option linter.unusedVariables false

namespace Mito.Topology

open Mito.Combinatorics

/-! ### the standard shape of footprints -/

/-- footprint of a segment `a → b` -/
def SegF (t : Topo) (f a b : Id) : Prop :=
  a ≠ b ∧ ∃ x y, t.compF 1 f = [x, y] ∧ t.fp 0 x = a ∧ t.sg 0 x = -1 ∧ t.fp 0 y = b ∧ t.sg 0 y = 1

/-- oriented segment `a → b` -/
def SegO (t : Topo) (o a b : Id) : Prop :=
  ∃ a' b', SegF t (t.fp 1 o) a' b' ∧ permutationSign [a, b] [a', b'] = some (t.sg 1 o)

/-- footprint of a triangle -/
def TriF (t : Topo) (f a b c : Id) : Prop :=
  [a, b, c].Nodup ∧ ∃ x y z, t.compF 2 f = [x, y, z] ∧ SegO t x a b ∧ SegO t y b c ∧ SegO t z c a

/-- oriented triangle -/
def TriO (t : Topo) (o a b c : Id) : Prop :=
  ∃ a' b' c', TriF t (t.fp 2 o) a' b' c' ∧
    permutationSign [a, b, c] [a', b', c'] = some (t.sg 2 o)

/-- footprint of a tetrahedron -/
def TetF (t : Topo) (f a b c d : Id) : Prop :=
  [a, b, c, d].Nodup ∧ ∃ x y z w, t.compF 3 f = [x, y, z, w] ∧ TriO t x a b c ∧ TriO t y b d c ∧
    TriO t z d b a ∧ TriO t w d a c

/-- oriented tetrahedron -/
def TetO (t : Topo) (o a b c d : Id) : Prop :=
  ∃ a' b' c' d', TetF t (t.fp 3 o) a' b' c' d' ∧
    permutationSign [a, b, c, d] [a', b', c', d'] = some (t.sg 3 o)

/-- every footprint of order 1, 2, 3 has the standard shape -/
structure Std (t : Topo) : Prop where
  seg : ∀ f ∈ (t.lvl 1).fps, ∃ a b, SegF t f a b
  tri : ∀ f ∈ (t.lvl 2).fps, ∃ a b c, TriF t f a b c
  tet : ∀ f ∈ (t.lvl 3).fps, ∃ a b c d, TetF t f a b c d

/-! ### transport -/

section congr
variable {t t' : Topo} (h1 : t'.compF = t.compF) (h2 : t'.fp = t.fp) (h3 : t'.sg = t.sg)
include h1 h2 h3

theorem SegF_congr {f a b} (h : SegF t f a b) : SegF t' f a b := by
  unfold SegF at *; rw [h1, h2, h3]; exact h
theorem SegO_congr {f a b} (h : SegO t f a b) : SegO t' f a b := by
  obtain ⟨a', b', h4, h5⟩ := h
  exact ⟨a', b', by rw [h2]; exact SegF_congr h1 h2 h3 h4, by rw [h3]; exact h5⟩
theorem TriF_congr {f a b c} (h : TriF t f a b c) : TriF t' f a b c := by
  obtain ⟨n, x, y, z, e, p, q, r⟩ := h
  exact ⟨n, x, y, z, by rw [h1]; exact e, SegO_congr h1 h2 h3 p, SegO_congr h1 h2 h3 q,
    SegO_congr h1 h2 h3 r⟩
theorem TriO_congr {f a b c} (h : TriO t f a b c) : TriO t' f a b c := by
  obtain ⟨a', b', c', h4, h5⟩ := h
  exact ⟨a', b', c', by rw [h2]; exact TriF_congr h1 h2 h3 h4, by rw [h3]; exact h5⟩
theorem TetF_congr {f a b c d} (h : TetF t f a b c d) : TetF t' f a b c d := by
  obtain ⟨n, x, y, z, w, e, p, q, r, s⟩ := h
  exact ⟨n, x, y, z, w, by rw [h1]; exact e, TriO_congr h1 h2 h3 p, TriO_congr h1 h2 h3 q,
    TriO_congr h1 h2 h3 r, TriO_congr h1 h2 h3 s⟩

theorem Std.congr (h : Std t) (hf : ∀ N, (t'.lvl N).fps ⊆ (t.lvl N).fps) : Std t' := by
  constructor
  · intro f hfm
    obtain ⟨a, b, h⟩ := h.seg f (hf 1 hfm)
    exact ⟨a, b, SegF_congr h1 h2 h3 h⟩
  · intro f hfm
    obtain ⟨a, b, c, h⟩ := h.tri f (hf 2 hfm)
    exact ⟨a, b, c, TriF_congr h1 h2 h3 h⟩
  · intro f hfm
    obtain ⟨a, b, c, d, h⟩ := h.tet f (hf 3 hfm)
    exact ⟨a, b, c, d, TetF_congr h1 h2 h3 h⟩

end congr

section le
variable {t t' : Topo} (hi : Inv t) (hle : Le t t')
include hi hle

theorem SegF_le {f a b} (hf : f ∈ (t.lvl 1).fps) (h : SegF t f a b) : SegF t' f a b := by
  obtain ⟨n, x, y, e, p, q, r, s⟩ := h
  have hx : x ∈ (t.lvl 0).ors := hi.comp_live 0 f hf x (by rw [e]; simp)
  have hy : y ∈ (t.lvl 0).ors := hi.comp_live 0 f hf y (by rw [e]; simp)
  exact ⟨n, x, y, by rw [hle.comp 1 f hf]; exact e, by rw [hle.ofp 0 x hx]; exact p,
    by rw [hle.osg 0 x hx]; exact q, by rw [hle.ofp 0 y hy]; exact r,
    by rw [hle.osg 0 y hy]; exact s⟩
theorem SegO_le {o a b} (ho : o ∈ (t.lvl 1).ors) (h : SegO t o a b) : SegO t' o a b := by
  obtain ⟨a', b', h4, h5⟩ := h
  exact ⟨a', b', by rw [hle.ofp 1 o ho]; exact SegF_le hi hle (hi.fp_live 1 o ho) h4,
    by rw [hle.osg 1 o ho]; exact h5⟩
theorem TriF_le {f a b c} (hf : f ∈ (t.lvl 2).fps) (h : TriF t f a b c) : TriF t' f a b c := by
  obtain ⟨n, x, y, z, e, p, q, r⟩ := h
  have hl : ∀ u ∈ t.compF 2 f, u ∈ (t.lvl 1).ors := hi.comp_live 1 f hf
  rw [e] at hl
  exact ⟨n, x, y, z, by rw [hle.comp 2 f hf]; exact e, SegO_le hi hle (hl x (by simp)) p,
    SegO_le hi hle (hl y (by simp)) q, SegO_le hi hle (hl z (by simp)) r⟩
theorem TriO_le {o a b c} (ho : o ∈ (t.lvl 2).ors) (h : TriO t o a b c) : TriO t' o a b c := by
  obtain ⟨a', b', c', h4, h5⟩ := h
  exact ⟨a', b', c', by rw [hle.ofp 2 o ho]; exact TriF_le hi hle (hi.fp_live 2 o ho) h4,
    by rw [hle.osg 2 o ho]; exact h5⟩
theorem TetF_le {f a b c d} (hf : f ∈ (t.lvl 3).fps) (h : TetF t f a b c d) :
    TetF t' f a b c d := by
  obtain ⟨n, x, y, z, w, e, p, q, r, s⟩ := h
  have hl : ∀ u ∈ t.compF 3 f, u ∈ (t.lvl 2).ors := hi.comp_live 2 f hf
  rw [e] at hl
  exact ⟨n, x, y, z, w, by rw [hle.comp 3 f hf]; exact e, TriO_le hi hle (hl x (by simp)) p,
    TriO_le hi hle (hl y (by simp)) q, TriO_le hi hle (hl z (by simp)) r,
    TriO_le hi hle (hl w (by simp)) s⟩
theorem TetO_le {o a b c d} (ho : o ∈ (t.lvl 3).ors) (h : TetO t o a b c d) :
    TetO t' o a b c d := by
  obtain ⟨a', b', c', d', h4, h5⟩ := h
  exact ⟨a', b', c', d', by rw [hle.ofp 3 o ho]; exact TetF_le hi hle (hi.fp_live 3 o ho) h4,
    by rw [hle.osg 3 o ho]; exact h5⟩

/-- only new footprints have to be looked at -/
theorem Std.of_le (h : Std t)
    (h1 : ∀ f ∈ (t'.lvl 1).fps, f ∉ (t.lvl 1).fps → ∃ a b, SegF t' f a b)
    (h2 : ∀ f ∈ (t'.lvl 2).fps, f ∉ (t.lvl 2).fps → ∃ a b c, TriF t' f a b c)
    (h3 : ∀ f ∈ (t'.lvl 3).fps, f ∉ (t.lvl 3).fps → ∃ a b c d, TetF t' f a b c d) : Std t' := by
  constructor
  · intro f hf
    by_cases hm : f ∈ (t.lvl 1).fps
    · obtain ⟨a, b, h⟩ := h.seg f hm
      exact ⟨a, b, SegF_le hi hle hm h⟩
    · exact h1 f hf hm
  · intro f hf
    by_cases hm : f ∈ (t.lvl 2).fps
    · obtain ⟨a, b, c, h⟩ := h.tri f hm
      exact ⟨a, b, c, TriF_le hi hle hm h⟩
    · exact h2 f hf hm
  · intro f hf
    by_cases hm : f ∈ (t.lvl 3).fps
    · obtain ⟨a, b, c, d, h⟩ := h.tet f hm
      exact ⟨a, b, c, d, TetF_le hi hle hm h⟩
    · exact h3 f hf hm

end le

/-! ### the set of vertices determines the footprint -/

/-- the set of vertices of a footprint -/
def VS (t : Topo) (N : Nat) (f : Id) : Finset Id := (t.vertexSet N f).toFinset

theorem mem_vertexSet_succ (t : Topo) (N : Nat) (f v : Id) :
    v ∈ t.vertexSet (N + 1) f ↔ ∃ o ∈ t.compF (N + 1) f, v ∈ t.vertexSet N (t.fp N o) := by
  simp only [Topo.vertexSet]
  rw [(List.perm_insertionSort _ _).mem_iff]
  simp

theorem vertexSet_nodup (t : Topo) (N : Nat) (f : Id) : (t.vertexSet N f).Nodup := by
  cases N with
  | zero => simp [Topo.vertexSet]
  | succ N =>
    simp only [Topo.vertexSet]
    rw [(List.perm_insertionSort _ _).nodup_iff]
    exact List.nodup_dedup _

theorem mem_VS_succ (t : Topo) (N : Nat) (f v : Id) :
    v ∈ VS t (N + 1) f ↔ ∃ o ∈ t.compF (N + 1) f, v ∈ VS t N (t.fp N o) := by
  simp [VS, mem_vertexSet_succ]

theorem SegF_VS {t : Topo} {f a b : Id} (h : SegF t f a b) : VS t 1 f = {a, b} := by
  obtain ⟨n, x, y, e, p, q, r, s⟩ := h
  ext v
  rw [mem_VS_succ, e]
  simp [VS, Topo.vertexSet, p, r]

theorem finset_eq_of_perm {l l' : List Id} (h : l.Perm l') : l.toFinset = l'.toFinset :=
  List.toFinset_eq_of_perm _ _ h

theorem SegO_VS {t : Topo} {o a b : Id} (h : SegO t o a b) : VS t 1 (t.fp 1 o) = {a, b} := by
  obtain ⟨a', b', h1, h2⟩ := h
  rw [SegF_VS h1]
  have := finset_eq_of_perm (perm_of_permutationSign h2)
  simpa using this.symm

theorem TriF_VS {t : Topo} {f a b c : Id} (h : TriF t f a b c) : VS t 2 f = {a, b, c} := by
  obtain ⟨n, x, y, z, e, p, q, r⟩ := h
  ext v
  rw [mem_VS_succ, e]
  simp [SegO_VS p, SegO_VS q, SegO_VS r]
  tauto

theorem TriO_VS {t : Topo} {o a b c : Id} (h : TriO t o a b c) :
    VS t 2 (t.fp 2 o) = {a, b, c} := by
  obtain ⟨a', b', c', h1, h2⟩ := h
  rw [TriF_VS h1]
  have := finset_eq_of_perm (perm_of_permutationSign h2)
  simpa using this.symm

theorem TetF_VS {t : Topo} {f a b c d : Id} (h : TetF t f a b c d) : VS t 3 f = {a, b, c, d} := by
  obtain ⟨n, x, y, z, w, e, p, q, r, s⟩ := h
  ext v
  rw [mem_VS_succ, e]
  simp [TriO_VS p, TriO_VS q, TriO_VS r, TriO_VS s]
  tauto

theorem TetO_VS {t : Topo} {o a b c d : Id} (h : TetO t o a b c d) :
    VS t 3 (t.fp 3 o) = {a, b, c, d} := by
  obtain ⟨a', b', c', d', h1, h2⟩ := h
  rw [TetF_VS h1]
  have := finset_eq_of_perm (perm_of_permutationSign h2)
  simpa using this.symm

theorem perm_of_map_perm {β : Type*} {l l' : List Id} (f : Id → β)
    (hinj : ∀ x ∈ l, ∀ y ∈ l', f x = f y → x = y) (hnd : (l.map f).Nodup)
    (hp : (l.map f).Perm (l'.map f)) : l.Perm l' := by
  have h1 : l.Nodup := List.Nodup.of_map f hnd
  have h2 : l'.Nodup := List.Nodup.of_map f (hp.nodup_iff.mp hnd)
  rw [List.perm_ext_iff_of_nodup h1 h2]
  intro x
  constructor
  · intro hx
    have : f x ∈ l'.map f := hp.mem_iff.mp (List.mem_map_of_mem hx)
    obtain ⟨y, hy, e⟩ := List.mem_map.mp this
    rw [hinj x hx y hy e.symm]; exact hy
  · intro hx
    have : f x ∈ l.map f := hp.mem_iff.mpr (List.mem_map_of_mem hx)
    obtain ⟨y, hy, e⟩ := List.mem_map.mp this
    rw [← hinj y hy x hx e]; exact hy

theorem perm_of_toFinset {l l' : List Id} (h : l.Nodup) (h' : l'.Nodup)
    (e : l.toFinset = l'.toFinset) : l.Perm l' := by
  rw [List.perm_ext_iff_of_nodup h h']
  intro x
  rw [← List.mem_toFinset, e, List.mem_toFinset]

/-- segments: the end points determine the footprint -/
theorem seg_unique {t : Topo} (hi : Inv t) (hs : Std t) {f f' : Id} (hf : f ∈ (t.lvl 1).fps)
    (hf' : f' ∈ (t.lvl 1).fps) (e : VS t 1 f = VS t 1 f') : f = f' := by
  obtain ⟨a, b, h⟩ := hs.seg f hf
  obtain ⟨a', b', h'⟩ := hs.seg f' hf'
  rw [SegF_VS h, SegF_VS h'] at e
  apply hi.footprint_unique hf hf'
  have hp : [a, b].Perm [a', b'] :=
    perm_of_toFinset (by simp [h.1]) (by simp [h'.1]) (by simpa using e)
  obtain ⟨n, x, y, e1, p, q, r, s⟩ := h
  obtain ⟨n', x', y', e1', p', q', r', s'⟩ := h'
  rw [e1, e1']
  simpa [p, r, p', r'] using hp

/-- faces are known by their opposite vertices -/
theorem erase_injOn {S : Finset Id} {x y : Id} (hx : x ∈ S) (hy : y ∈ S)
    (e : S.erase x = S.erase y) : x = y := by
  by_contra hne
  have : x ∈ S.erase y := Finset.mem_erase.mpr ⟨hne, hx⟩
  rw [← e] at this
  simp at this

/-- If the faces `l` (footprints) are opposite to the vertices `v` and the faces `l'` to `v'`, in the
same simplex, then comparing faces is comparing vertices. -/
theorem faces_perm {t : Topo} {N : Nat} {S : Finset Id} {l l' v v' : List Id}
    (hinj : ∀ f ∈ l, ∀ f' ∈ l', VS t N f = VS t N f' → f = f')
    (hl : l.map (VS t N) = v.map (S.erase ·)) (hl' : l'.map (VS t N) = v'.map (S.erase ·))
    (hv : v.Nodup) (hv' : v'.Nodup) (hS : v.toFinset = S) (hS' : v'.toFinset = S) : l.Perm l' := by
  have hp : v.Perm v' := perm_of_toFinset hv hv' (hS.trans hS'.symm)
  apply perm_of_map_perm (VS t N) hinj
  · rw [hl]
    apply List.Nodup.map_on _ hv
    intro x hx y hy e
    exact erase_injOn (by rw [← hS]; simpa using hx) (by rw [← hS]; simpa using hy) e
  · rw [hl, hl']; exact hp.map _

theorem faces_sign {t : Topo} {N : Nat} {S : Finset Id} {l l' v v' : List Id} {s : Int}
    (hinj : ∀ f ∈ l', ∀ f' ∈ l', VS t N f = VS t N f' → f = f')
    (hl : l.map (VS t N) = v.map (S.erase ·)) (hl' : l'.map (VS t N) = v'.map (S.erase ·))
    (hv : v.Nodup) (hv' : v'.Nodup) (hS : v.toFinset = S) (hS' : v'.toFinset = S)
    (hs : permutationSign l l' = some s) : permutationSign v v' = some s := by
  have hp : v.Perm v' := perm_of_toFinset hv hv' (hS.trans hS'.symm)
  have hne : v ≠ [] := by
    rintro rfl
    have hv'e : v' = [] := hp.symm.eq_nil
    subst hv'e
    have hl0 : l = [] := by simpa using hl
    have hl0' : l' = [] := by simpa using hl'
    subst hl0 hl0'
    simp [permutationSign, swapSort] at hs
  have hej : ∀ x ∈ v', ∀ y ∈ v', S.erase x = S.erase y → x = y := by
    intro x hx y hy e
    exact erase_injOn (by rw [← hS']; simpa using hx) (by rw [← hS']; simpa using hy) e
  obtain ⟨s', hs'⟩ := permutationSign_some hne hv' hp
  have h1 := permutationSign_map (S.erase ·) hv' hej hs'
  have hnd' : l'.Nodup := List.Nodup.of_map (VS t N)
    (by rw [hl']; exact List.Nodup.map_on hej hv')
  have h2 := permutationSign_map (VS t N) hnd' hinj hs
  rw [hl, hl', h1] at h2
  simp at h2
  rw [hs', h2]

theorem tri_faces {t : Topo} {a b c x y z : Id} (n : [a, b, c].Nodup) (p : SegO t x a b)
    (q : SegO t y b c) (r : SegO t z c a) :
    ([x, y, z].map (t.fp 1)).map (VS t 1) = [c, a, b].map (({a, b, c} : Finset Id).erase ·) := by
  simp only [List.map_cons, List.map_nil, SegO_VS p, SegO_VS q, SegO_VS r]
  simp only [List.nodup_cons, List.mem_cons, List.not_mem_nil, or_false, not_or, not_false_eq_true,
    List.nodup_nil, and_true] at n
  obtain ⟨⟨n1, n2⟩, n3⟩ := n
  have key : ∀ {p q u : Id}, p ≠ u → q ≠ u →
      (∀ v, v ∈ ({a, b, c} : Finset Id) ↔ v = u ∨ v = p ∨ v = q) →
      ({p, q} : Finset Id) = ({a, b, c} : Finset Id).erase u := by
    intro p q u h1 h2 h4
    ext v
    rw [Finset.mem_erase, h4]
    simp
    constructor
    · rintro (rfl | rfl) <;> tauto
    · tauto
  congr 1
  · exact key n2 n3 (by intro v; simp; tauto)
  · congr 1
    · exact key (Ne.symm n1) (Ne.symm n2) (by intro v; simp)
    · congr 1
      exact key (Ne.symm n3) n1 (by intro v; simp; tauto)

theorem rot3 (a b c : Id) : [c, a, b].toFinset = ({a, b, c} : Finset Id) := by
  ext v; simp; tauto

theorem nodup_rot3 {a b c : Id} (n : [a, b, c].Nodup) : [c, a, b].Nodup := by
  simp at n ⊢; tauto

theorem nodup_rot4 {a b c d : Id} (n : [a, b, c, d].Nodup) : [d, a, c, b].Nodup := by
  simp at n ⊢; tauto

theorem rot4 (a b c d : Id) : [d, a, c, b].toFinset = ({a, b, c, d} : Finset Id) := by
  ext v; simp; tauto

theorem sub3 (a b c : Id) : ({a, b} : Finset Id) ⊆ {a, b, c} ∧ ({b, c} : Finset Id) ⊆ {a, b, c} ∧
    ({c, a} : Finset Id) ⊆ {a, b, c} := by
  refine ⟨?_, ?_, ?_⟩ <;> intro v <;> simp <;> tauto

theorem sub4 (a b c d : Id) : ({a, b, c} : Finset Id) ⊆ {a, b, c, d} ∧
    ({b, d, c} : Finset Id) ⊆ {a, b, c, d} ∧ ({d, b, a} : Finset Id) ⊆ {a, b, c, d} ∧
    ({d, a, c} : Finset Id) ⊆ {a, b, c, d} := by
  refine ⟨?_, ?_, ?_, ?_⟩ <;> intro v <;> simp <;> tauto

/-- triangles: the vertices determine the footprint -/
theorem tri_unique {t : Topo} (hi : Inv t) (hs : Std t) {f f' : Id} (hf : f ∈ (t.lvl 2).fps)
    (hf' : f' ∈ (t.lvl 2).fps) (e : VS t 2 f = VS t 2 f') : f = f' := by
  obtain ⟨a, b, c, h⟩ := hs.tri f hf
  obtain ⟨a', b', c', h'⟩ := hs.tri f' hf'
  rw [TriF_VS h, TriF_VS h'] at e
  apply hi.footprint_unique hf hf'
  obtain ⟨n, x, y, z, e1, p, q, r⟩ := h
  obtain ⟨n', x', y', z', e1', p', q', r'⟩ := h'
  have hl : ∀ u ∈ t.compF 2 f, u ∈ (t.lvl 1).ors := hi.comp_live 1 f hf
  have hl' : ∀ u ∈ t.compF 2 f', u ∈ (t.lvl 1).ors := hi.comp_live 1 f' hf'
  have h1 := tri_faces n p q r
  have h2 := tri_faces n' p' q' r'
  rw [← e] at h2
  rw [e1] at hl ⊢
  rw [e1'] at hl' ⊢
  refine faces_perm ?_ h1 h2 ?_ ?_ ?_ ?_
  · intro g hg g' hg' eg
    obtain ⟨u, hu, rfl⟩ := List.mem_map.mp hg
    obtain ⟨u', hu', rfl⟩ := List.mem_map.mp hg'
    exact seg_unique hi hs (hi.fp_live 1 u (hl u hu)) (hi.fp_live 1 u' (hl' u' hu')) eg
  · simp at n ⊢; tauto
  · simp at n' ⊢; tauto
  · exact rot3 a b c
  · rw [e]; exact rot3 a' b' c'

theorem tet_faces {t : Topo} {a b c d x y z w : Id} (n : [a, b, c, d].Nodup) (p : TriO t x a b c)
    (q : TriO t y b d c) (r : TriO t z d b a) (s : TriO t w d a c) :
    ([x, y, z, w].map (t.fp 2)).map (VS t 2) =
      [d, a, c, b].map (({a, b, c, d} : Finset Id).erase ·) := by
  simp only [List.map_cons, List.map_nil, TriO_VS p, TriO_VS q, TriO_VS r, TriO_VS s]
  simp only [List.nodup_cons, List.mem_cons, List.not_mem_nil, or_false, not_or, not_false_eq_true,
    List.nodup_nil, and_true] at n
  obtain ⟨⟨n1, n2, n3⟩, ⟨n4, n5⟩, n6⟩ := n
  have key : ∀ {p q r u : Id}, p ≠ u → q ≠ u → r ≠ u →
      (∀ v, v ∈ ({a, b, c, d} : Finset Id) ↔ v = u ∨ v = p ∨ v = q ∨ v = r) →
      ({p, q, r} : Finset Id) = ({a, b, c, d} : Finset Id).erase u := by
    intro p q r u h1 h2 h3 h4
    ext v
    rw [Finset.mem_erase, h4]
    simp
    constructor
    · rintro (rfl | rfl | rfl) <;> tauto
    · tauto
  congr 1
  · exact key n3 n5 n6 (by intro v; simp; tauto)
  · congr 1
    · exact key (Ne.symm n1) (Ne.symm n3) (Ne.symm n2) (by intro v; simp; tauto)
    · congr 1
      · exact key (Ne.symm n6) n4 n2 (by intro v; simp; tauto)
      · congr 1
        exact key (Ne.symm n5) n1 (Ne.symm n4) (by intro v; simp; tauto)

/-- tetrahedra: the vertices determine the footprint -/
theorem tet_unique {t : Topo} (hi : Inv t) (hs : Std t) {f f' : Id} (hf : f ∈ (t.lvl 3).fps)
    (hf' : f' ∈ (t.lvl 3).fps) (e : VS t 3 f = VS t 3 f') : f = f' := by
  obtain ⟨a, b, c, d, h⟩ := hs.tet f hf
  obtain ⟨a', b', c', d', h'⟩ := hs.tet f' hf'
  rw [TetF_VS h, TetF_VS h'] at e
  apply hi.footprint_unique hf hf'
  obtain ⟨n, x, y, z, w, e1, p, q, r, s⟩ := h
  obtain ⟨n', x', y', z', w', e1', p', q', r', s'⟩ := h'
  have hl : ∀ u ∈ t.compF 3 f, u ∈ (t.lvl 2).ors := hi.comp_live 2 f hf
  have hl' : ∀ u ∈ t.compF 3 f', u ∈ (t.lvl 2).ors := hi.comp_live 2 f' hf'
  have h1 := tet_faces n p q r s
  have h2 := tet_faces n' p' q' r' s'
  rw [← e] at h2
  rw [e1] at hl ⊢
  rw [e1'] at hl' ⊢
  refine faces_perm ?_ h1 h2 ?_ ?_ ?_ ?_
  · intro g hg g' hg' eg
    obtain ⟨u, hu, rfl⟩ := List.mem_map.mp hg
    obtain ⟨u', hu', rfl⟩ := List.mem_map.mp hg'
    exact tri_unique hi hs (hi.fp_live 2 u (hl u hu)) (hi.fp_live 2 u' (hl' u' hu')) eg
  · simp at n ⊢; tauto
  · simp at n' ⊢; tauto
  · exact rot4 a b c d
  · rw [e]; exact rot4 a' b' c' d'

/-! ### creation -/

/-- the data of a created simplex, from the specification of `simplex` -/
theorem SegO_of_simplex {t t' : Topo} (h : Ok t) (hs : Std t) {a b x y o : Id} (hne : a ≠ b)
    (hx : x ∈ (t.lvl 0).ors) (hy : y ∈ (t.lvl 0).ors) (fx : t.fp 0 x = a) (sx : t.sg 0 x = -1)
    (fy : t.fp 0 y = b) (sy : t.sg 0 y = 1) (ho : t.simplex 0 [x, y] = some (t', o)) :
    Std t' ∧ SegO t' o a b := by
  have hxy : x ≠ y := by rintro rfl; rw [sx] at sy; simp at sy
  have hc : ∀ z ∈ [x, y], z ∈ (t.lvl 0).ors := by simp [hx, hy]
  have hnd : [x, y].Nodup := by simp [hxy]
  obtain ⟨i, le, ol, hv, hp, hsg, hnew, _⟩ := simplex_spec h.inv hc rfl hnd ho
  have hfps := simplex_fps h.inv hc rfl hnd ho
  have hstd : Std t' := by
    apply hs.of_le h.inv le
    · intro f hf hn
      rcases hfps 1 f hf with hf' | ⟨_, rfl, hn'⟩
      · exact absurd hf' hn
      · refine ⟨a, b, hne, x, y, hnew hn', ?_, ?_, ?_, ?_⟩
        · rw [le.ofp 0 x hx, fx]
        · rw [le.osg 0 x hx, sx]
        · rw [le.ofp 0 y hy, fy]
        · rw [le.osg 0 y hy, sy]
    · intro f hf hn
      rcases hfps 2 f hf with hf' | ⟨e, _⟩
      · exact absurd hf' hn
      · omega
    · intro f hf hn
      rcases hfps 3 f hf with hf' | ⟨e, _⟩
      · exact absurd hf' hn
      · omega
  refine ⟨hstd, ?_⟩
  obtain ⟨a', b', hF⟩ := hstd.seg _ (i.fp_live 1 o ol)
  refine ⟨a', b', hF, ?_⟩
  obtain ⟨_, x', y', e1, p, q, r, s⟩ := hF
  rw [e1] at hsg
  simpa [fx, fy, p, r] using hsg

theorem TriO_of_simplex {t t' : Topo} (h : Ok t) (hs : Std t) {a b c x y z o : Id}
    (n : [a, b, c].Nodup) (hx : x ∈ (t.lvl 1).ors) (hy : y ∈ (t.lvl 1).ors)
    (hz : z ∈ (t.lvl 1).ors) (p : SegO t x a b) (q : SegO t y b c) (r : SegO t z c a)
    (hnd : [x, y, z].Nodup) (ho : t.simplex 1 [x, y, z] = some (t', o)) :
    Std t' ∧ TriO t' o a b c := by
  have hc : ∀ u ∈ [x, y, z], u ∈ (t.lvl 1).ors := by simp [hx, hy, hz]
  obtain ⟨i, le, ol, hv, hp, hsg, hnew, hfp⟩ := simplex_spec h.inv hc rfl hnd ho
  have hfps := simplex_fps h.inv hc rfl hnd ho
  have p' := SegO_le h.inv le hx p
  have q' := SegO_le h.inv le hy q
  have r' := SegO_le h.inv le hz r
  have hstd : Std t' := by
    apply hs.of_le h.inv le
    · intro f hf hn
      rcases hfps 1 f hf with hf' | ⟨e, _⟩
      · exact absurd hf' hn
      · omega
    · intro f hf hn
      rcases hfps 2 f hf with hf' | ⟨_, rfl, hn'⟩
      · exact absurd hf' hn
      · exact ⟨a, b, c, n, x, y, z, hnew hn', p', q', r'⟩
    · intro f hf hn
      rcases hfps 3 f hf with hf' | ⟨e, _⟩
      · exact absurd hf' hn
      · omega
  refine ⟨hstd, ?_⟩
  obtain ⟨a', b', c', hF⟩ := hstd.tri _ (i.fp_live 2 o ol)
  refine ⟨a', b', c', hF, ?_⟩
  have hlive := i.comp_live 1 _ (i.fp_live 2 o ol)
  obtain ⟨n', x', y', z', e1, p1, q1, r1⟩ := hF
  rw [e1] at hsg hlive hp
  have e0 : [x, y, z].map (t.fp 1) = [x, y, z].map (t'.fp 1) := (map_fp_congr hfp).symm
  rw [e0] at hsg hp
  have hvs : ∀ u ∈ ({a, b, c} : Finset Id), u ∈ ({a', b', c'} : Finset Id) := by
    intro u hu
    have hsub : ∀ g ∈ [x', y', z'].map (t'.fp 1), VS t' 1 g ⊆ {a', b', c'} := by
      intro g hg
      simp only [List.map_cons, List.map_nil, List.mem_cons, List.not_mem_nil, or_false] at hg
      rcases hg with rfl | rfl | rfl
      · rw [SegO_VS p1]; exact sub3 _ _ _ |>.1
      · rw [SegO_VS q1]; exact sub3 _ _ _ |>.2.1
      · rw [SegO_VS r1]; exact sub3 _ _ _ |>.2.2
    simp at hu
    rcases hu with rfl | rfl | rfl
    · exact hsub _ (hp.mem_iff.mp (show t'.fp 1 x ∈ _ by simp)) (by rw [SegO_VS p']; simp)
    · exact hsub _ (hp.mem_iff.mp (show t'.fp 1 x ∈ _ by simp)) (by rw [SegO_VS p']; simp)
    · exact hsub _ (hp.mem_iff.mp (show t'.fp 1 y ∈ _ by simp)) (by rw [SegO_VS q']; simp)
  have hS : ({a, b, c} : Finset Id) = {a', b', c'} := by
    apply Finset.eq_of_subset_of_card_le hvs
    have c1 : ({a, b, c} : Finset Id).card = 3 := by
      have := List.toFinset_card_of_nodup n
      simpa using this
    have c2 : ({a', b', c'} : Finset Id).card = 3 := by
      have := List.toFinset_card_of_nodup n'
      simpa using this
    omega
  have h1 := tri_faces n p' q' r'
  have h2 := tri_faces n' p1 q1 r1
  rw [← hS] at h2
  have nr : [c, a, b].Nodup := nodup_rot3 n
  have nr' : [c', a', b'].Nodup := nodup_rot3 n'
  have hsgn : permutationSign [c, a, b] [c', a', b'] = some (t'.sg 2 o) := by
    refine faces_sign ?_ h1 h2 nr nr' ?_ ?_ hsg
    · intro g hg g' hg' eg
      obtain ⟨u, hu, rfl⟩ := List.mem_map.mp hg
      obtain ⟨u', hu', rfl⟩ := List.mem_map.mp hg'
      exact seg_unique i hstd (i.fp_live 1 u (hlive u hu)) (i.fp_live 1 u' (hlive u' hu')) eg
    · exact rot3 a b c
    · rw [hS]; exact rot3 a' b' c'
  have s1 := permutationSign_comm n (permutationSign_cycle n)
  have s2 := permutationSign_cycle n'
  have := permutationSign_trans nr s1 (permutationSign_trans nr' hsgn s2)
  simpa using this

theorem four {a b c d : Id} (n : [a, b, c, d].Nodup) :
    permutationSign [d, a, c, b] [a, b, c, d] = some 1 := by
  have hp : [d, a, c, b].Perm [a, b, c, d] := by
    have h1 : [d, a, c, b].Nodup := nodup_rot4 n
    rw [List.perm_ext_iff_of_nodup h1 n]
    intro v; simp; tauto
  simp only [List.nodup_cons, List.mem_cons, List.not_mem_nil, or_false, not_or,
    not_false_eq_true, List.nodup_nil, and_true] at n
  obtain ⟨⟨n1, n2, n3⟩, ⟨n4, n5⟩, n6⟩ := n
  have := permutationSign_of_swapSort hp (k := 2)
    (by simp [swapSort_cons, swapSort_refl, putBack, n1, n2, n3, n4, n5, n6, Ne.symm n1,
          Ne.symm n2, Ne.symm n3, Ne.symm n4, Ne.symm n5, Ne.symm n6])
  simpa using this

theorem TetO_of_simplex {t t' : Topo} (h : Ok t) (hs : Std t) {a b c d x y z w o : Id}
    (n : [a, b, c, d].Nodup) (hx : x ∈ (t.lvl 2).ors) (hy : y ∈ (t.lvl 2).ors)
    (hz : z ∈ (t.lvl 2).ors) (hw : w ∈ (t.lvl 2).ors) (p : TriO t x a b c) (q : TriO t y b d c)
    (r : TriO t z d b a) (s : TriO t w d a c)
    (hnd : [x, y, z, w].Nodup) (ho : t.simplex 2 [x, y, z, w] = some (t', o)) :
    Std t' ∧ TetO t' o a b c d := by
  have hc : ∀ u ∈ [x, y, z, w], u ∈ (t.lvl 2).ors := by simp [hx, hy, hz, hw]
  obtain ⟨i, le, ol, hv, hp, hsg, hnew, hfp⟩ := simplex_spec h.inv hc rfl hnd ho
  have hfps := simplex_fps h.inv hc rfl hnd ho
  have p' := TriO_le h.inv le hx p
  have q' := TriO_le h.inv le hy q
  have r' := TriO_le h.inv le hz r
  have s' := TriO_le h.inv le hw s
  have hstd : Std t' := by
    apply hs.of_le h.inv le
    · intro f hf hn
      rcases hfps 1 f hf with hf' | ⟨e, _⟩
      · exact absurd hf' hn
      · omega
    · intro f hf hn
      rcases hfps 2 f hf with hf' | ⟨e, _⟩
      · exact absurd hf' hn
      · omega
    · intro f hf hn
      rcases hfps 3 f hf with hf' | ⟨_, rfl, hn'⟩
      · exact absurd hf' hn
      · exact ⟨a, b, c, d, n, x, y, z, w, hnew hn', p', q', r', s'⟩
  refine ⟨hstd, ?_⟩
  obtain ⟨a', b', c', d', hF⟩ := hstd.tet _ (i.fp_live 3 o ol)
  refine ⟨a', b', c', d', hF, ?_⟩
  have hlive := i.comp_live 2 _ (i.fp_live 3 o ol)
  obtain ⟨n', x', y', z', w', e1, p1, q1, r1, s1⟩ := hF
  rw [e1] at hsg hlive hp
  have e0 : [x, y, z, w].map (t.fp 2) = [x, y, z, w].map (t'.fp 2) := (map_fp_congr hfp).symm
  rw [e0] at hsg hp
  have hvs : ∀ u ∈ ({a, b, c, d} : Finset Id), u ∈ ({a', b', c', d'} : Finset Id) := by
    intro u hu
    have hsub : ∀ g ∈ [x', y', z', w'].map (t'.fp 2), VS t' 2 g ⊆ {a', b', c', d'} := by
      intro g hg
      simp only [List.map_cons, List.map_nil, List.mem_cons, List.not_mem_nil, or_false] at hg
      rcases hg with rfl | rfl | rfl | rfl
      · rw [TriO_VS p1]; exact sub4 _ _ _ _ |>.1
      · rw [TriO_VS q1]; exact sub4 _ _ _ _ |>.2.1
      · rw [TriO_VS r1]; exact sub4 _ _ _ _ |>.2.2.1
      · rw [TriO_VS s1]; exact sub4 _ _ _ _ |>.2.2.2
    simp at hu
    rcases hu with rfl | rfl | rfl | rfl
    · exact hsub _ (hp.mem_iff.mp (show t'.fp 2 x ∈ _ by simp)) (by rw [TriO_VS p']; simp)
    · exact hsub _ (hp.mem_iff.mp (show t'.fp 2 x ∈ _ by simp)) (by rw [TriO_VS p']; simp)
    · exact hsub _ (hp.mem_iff.mp (show t'.fp 2 x ∈ _ by simp)) (by rw [TriO_VS p']; simp)
    · exact hsub _ (hp.mem_iff.mp (show t'.fp 2 y ∈ _ by simp)) (by rw [TriO_VS q']; simp)
  have hS : ({a, b, c, d} : Finset Id) = {a', b', c', d'} := by
    apply Finset.eq_of_subset_of_card_le hvs
    have c1 : ({a, b, c, d} : Finset Id).card = 4 := by
      have := List.toFinset_card_of_nodup n
      simpa using this
    have c2 : ({a', b', c', d'} : Finset Id).card = 4 := by
      have := List.toFinset_card_of_nodup n'
      simpa using this
    omega
  have h1 := tet_faces n p' q' r' s'
  have h2 := tet_faces n' p1 q1 r1 s1
  rw [← hS] at h2
  have nr : [d, a, c, b].Nodup := nodup_rot4 n
  have nr' : [d', a', c', b'].Nodup := nodup_rot4 n'
  have hsgn : permutationSign [d, a, c, b] [d', a', c', b'] = some (t'.sg 3 o) := by
    refine faces_sign ?_ h1 h2 nr nr' ?_ ?_ hsg
    · intro g hg g' hg' eg
      obtain ⟨u, hu, rfl⟩ := List.mem_map.mp hg
      obtain ⟨u', hu', rfl⟩ := List.mem_map.mp hg'
      exact tri_unique i hstd (i.fp_live 2 u (hlive u hu)) (i.fp_live 2 u' (hlive u' hu')) eg
    · exact rot4 a b c d
    · rw [hS]; exact rot4 a' b' c' d'
  have t1 := permutationSign_comm n (four n)
  have t2 := four n'
  have := permutationSign_trans nr t1 (permutationSign_trans nr' hsgn t2)
  simpa using this

theorem orientedF_std {t t' : Topo} (h : Ok t) (hs : Std t) {N : Nat} {f : Id} {s : Int} {o : Id}
    (hf : f ∈ (t.lvl N).fps) (hv : s = 1 ∨ s = -1) (ho : t.orientedF N f s = some (t', o)) :
    Std t' := by
  have hle := (orientedF_ok h hf hv ho).2.1
  apply hs.of_le h.inv hle <;> intro g hg hn <;> rw [orientedF_fps ho] at hg <;> exact absurd hg hn

theorem segment_std {t t' : Topo} (h : Ok t) (hs : Std t) {a b o : Id} (ha : a ∈ (t.lvl 0).fps)
    (hb : b ∈ (t.lvl 0).fps) (ho : t.segment a b = some (t', o)) :
    Std t' ∧ SegO t' o a b := by
  have hne := (segment_ok h ha hb ho).2.2.2.2
  unfold Topo.segment at ho
  split at ho
  · simp at ho
  · rename_i t1 x hx
    obtain ⟨ok1, le1, l1, f1, s1⟩ := orientedF_ok h ha (by simp) hx
    have st1 := orientedF_std h hs ha (by simp) hx
    split at ho
    · simp at ho
    · rename_i t2 y hy
      obtain ⟨ok2, le2, l2, f2, s2⟩ := orientedF_ok ok1 (le1.fps 0 hb) (by simp) hy
      have st2 := orientedF_std ok1 st1 (le1.fps 0 hb) (by simp) hy
      exact SegO_of_simplex ok2 st2 hne (le2.ors 0 l1) l2 (by rw [le2.ofp 0 x l1, f1])
        (by rw [le2.osg 0 x l1, s1]) f2 s2 ho

theorem triangle_std {t t' : Topo} (h : Ok t) (hs : Std t) {a b c o : Id} (ha : a ∈ (t.lvl 0).fps)
    (hb : b ∈ (t.lvl 0).fps) (hc : c ∈ (t.lvl 0).fps) (ho : t.triangle a b c = some (t', o)) :
    Std t' ∧ TriO t' o a b c := by
  have hne := (triangle_ok h ha hb hc ho).2.2.2.2
  unfold Topo.triangle at ho
  split at ho
  · simp at ho
  · rename_i t1 x hx
    obtain ⟨ok1, le1, l1, _⟩ := segment_ok h ha hb hx
    obtain ⟨st1, o1⟩ := segment_std h hs ha hb hx
    split at ho
    · simp at ho
    · rename_i t2 y hy
      obtain ⟨ok2, le2, l2, _⟩ := segment_ok ok1 (le1.fps 0 hb) (le1.fps 0 hc) hy
      obtain ⟨st2, o2⟩ := segment_std ok1 st1 (le1.fps 0 hb) (le1.fps 0 hc) hy
      split at ho
      · simp at ho
      · rename_i t3 z hz
        obtain ⟨ok3, le3, l3, _⟩ := segment_ok ok2 (le2.fps 0 (le1.fps 0 hc))
          (le2.fps 0 (le1.fps 0 ha)) hz
        obtain ⟨st3, o3⟩ := segment_std ok2 st2 (le2.fps 0 (le1.fps 0 hc))
          (le2.fps 0 (le1.fps 0 ha)) hz
        have ox := SegO_le ok2.inv le3 (le2.ors 1 l1) (SegO_le ok1.inv le2 l1 o1)
        have oy := SegO_le ok2.inv le3 l2 o2
        have n : [a, b, c].Nodup := by simp; exact ⟨⟨hne.1, Ne.symm hne.2.2⟩, hne.2.1⟩
        have key : ∀ {x y p q r s : Id}, SegO t3 x p q → SegO t3 y r s → x = y →
            ∀ v, v = p ∨ v = q ↔ v = r ∨ v = s := by
          intro x y p q r s h1 h2 e v
          have := SegO_VS h1
          rw [e, SegO_VS h2] at this
          have := Finset.ext_iff.mp this v
          simpa using this.symm
        have hnd : [x, y, z].Nodup := by
          simp only [List.nodup_cons, List.mem_cons, List.not_mem_nil, or_false, not_or,
            not_false_eq_true, List.nodup_nil, and_true]
          refine ⟨⟨fun e => ?_, fun e => ?_⟩, fun e => ?_⟩
          · have := (key ox oy e a).1 (Or.inl rfl); exact this.elim hne.1 (Ne.symm hne.2.2)
          · have := (key ox o3 e b).1 (Or.inr rfl); exact this.elim hne.2.1 (Ne.symm hne.1)
          · have := (key oy o3 e b).1 (Or.inl rfl); exact this.elim hne.2.1 (Ne.symm hne.1)
        exact TriO_of_simplex ok3 st3 n (le3.ors 1 (le2.ors 1 l1)) (le3.ors 1 l2) l3 ox oy o3 hnd ho

theorem tetrahedron_std {t t' : Topo} (h : Ok t) (hs : Std t) {a b c d o : Id}
    (ha : a ∈ (t.lvl 0).fps) (hb : b ∈ (t.lvl 0).fps) (hc : c ∈ (t.lvl 0).fps)
    (hd : d ∈ (t.lvl 0).fps) (ho : t.tetrahedron a b c d = some (t', o)) :
    Std t' ∧ TetO t' o a b c d ∧ [a, b, c, d].Nodup := by
  unfold Topo.tetrahedron at ho
  split at ho
  · simp at ho
  · rename_i t1 x hx
    obtain ⟨ok1, le1, l1, _, n1⟩ := triangle_ok h ha hb hc hx
    obtain ⟨st1, o1⟩ := triangle_std h hs ha hb hc hx
    have ha := le1.fps 0 ha
    have hb := le1.fps 0 hb
    have hc := le1.fps 0 hc
    have hd := le1.fps 0 hd
    split at ho
    · simp at ho
    · rename_i t2 y hy
      obtain ⟨ok2, le2, l2, _, n2⟩ := triangle_ok ok1 hb hd hc hy
      obtain ⟨st2, o2⟩ := triangle_std ok1 st1 hb hd hc hy
      have ha := le2.fps 0 ha
      have hb := le2.fps 0 hb
      have hc := le2.fps 0 hc
      have hd := le2.fps 0 hd
      split at ho
      · simp at ho
      · rename_i t3 z hz
        obtain ⟨ok3, le3, l3, _, n3⟩ := triangle_ok ok2 hd hb ha hz
        obtain ⟨st3, o3⟩ := triangle_std ok2 st2 hd hb ha hz
        have ha := le3.fps 0 ha
        have hb := le3.fps 0 hb
        have hc := le3.fps 0 hc
        have hd := le3.fps 0 hd
        split at ho
        · simp at ho
        · rename_i t4 w hw
          obtain ⟨ok4, le4, l4, _, n4⟩ := triangle_ok ok3 hd ha hc hw
          obtain ⟨st4, o4⟩ := triangle_std ok3 st3 hd ha hc hw
          have ox := TriO_le ok3.inv le4 (le3.ors 2 (le2.ors 2 l1))
            (TriO_le ok2.inv le3 (le2.ors 2 l1) (TriO_le ok1.inv le2 l1 o1))
          have oy := TriO_le ok3.inv le4 (le3.ors 2 l2) (TriO_le ok2.inv le3 l2 o2)
          have oz := TriO_le ok3.inv le4 l3 o3
          have dist : a ≠ b ∧ b ≠ c ∧ c ≠ a ∧ b ≠ d ∧ d ≠ c ∧ d ≠ a :=
            ⟨n1.1, n1.2.1, n1.2.2, n2.1, n2.2.1, n4.1⟩
          have n : [a, b, c, d].Nodup := by
            simp
            obtain ⟨h1, h2, h3, h4, h5, h6⟩ := dist
            exact ⟨⟨h1, Ne.symm h3, Ne.symm h6⟩, ⟨h2, h4⟩, Ne.symm h5⟩
          have key : ∀ {x y p q r p' q' r' : Id}, TriO t4 x p q r → TriO t4 y p' q' r' → x = y →
              ∀ v, v = p ∨ v = q ∨ v = r ↔ v = p' ∨ v = q' ∨ v = r' := by
            intro x y p q r p' q' r' h1 h2 e v
            have := TriO_VS h1
            rw [e, TriO_VS h2] at this
            have := Finset.ext_iff.mp this v
            simpa using this.symm
          have hnd : [x, y, z, w].Nodup := by
            simp only [List.nodup_cons, List.mem_cons, List.not_mem_nil, or_false, not_or,
              not_false_eq_true, List.nodup_nil, and_true]
            refine ⟨⟨fun e => ?_, fun e => ?_, fun e => ?_⟩, ⟨fun e => ?_, fun e => ?_⟩, fun e => ?_⟩
            · have := (key ox oy e a).1 (by simp); revert this; simp [dist, Ne.symm dist.1, Ne.symm dist.2.1, Ne.symm dist.2.2.1,
                Ne.symm dist.2.2.2.1, Ne.symm dist.2.2.2.2.1, Ne.symm dist.2.2.2.2.2]
            · have := (key ox oz e c).1 (by simp); revert this; simp [dist, Ne.symm dist.1, Ne.symm dist.2.1, Ne.symm dist.2.2.1,
                Ne.symm dist.2.2.2.1, Ne.symm dist.2.2.2.2.1, Ne.symm dist.2.2.2.2.2]
            · have := (key ox o4 e b).1 (by simp); revert this; simp [dist, Ne.symm dist.1, Ne.symm dist.2.1, Ne.symm dist.2.2.1,
                Ne.symm dist.2.2.2.1, Ne.symm dist.2.2.2.2.1, Ne.symm dist.2.2.2.2.2]
            · have := (key oy oz e c).1 (by simp); revert this; simp [dist, Ne.symm dist.1, Ne.symm dist.2.1, Ne.symm dist.2.2.1,
                Ne.symm dist.2.2.2.1, Ne.symm dist.2.2.2.2.1, Ne.symm dist.2.2.2.2.2]
            · have := (key oy o4 e b).1 (by simp); revert this; simp [dist, Ne.symm dist.1, Ne.symm dist.2.1, Ne.symm dist.2.2.1,
                Ne.symm dist.2.2.2.1, Ne.symm dist.2.2.2.2.1, Ne.symm dist.2.2.2.2.2]
            · have := (key oz o4 e b).1 (by simp); revert this; simp [dist, Ne.symm dist.1, Ne.symm dist.2.1, Ne.symm dist.2.2.1,
                Ne.symm dist.2.2.2.1, Ne.symm dist.2.2.2.2.1, Ne.symm dist.2.2.2.2.2]
          have := TetO_of_simplex ok4 st4 n (le4.ors 2 (le3.ors 2 (le2.ors 2 l1)))
            (le4.ors 2 (le3.ors 2 l2)) (le4.ors 2 l3) l4 ox oy oz o4 hnd ho
          exact ⟨this.1, this.2, n⟩

/-! ### `vertices()` -/

theorem SegF_determines {t : Topo} {f a b a' b' : Id} (h : SegF t f a b) (h' : SegF t f a' b') :
    a = a' ∧ b = b' := by
  obtain ⟨_, x, y, e, p, _, r, _⟩ := h
  obtain ⟨_, x', y', e', p', _, r', _⟩ := h'
  rw [e] at e'
  simp at e'
  obtain ⟨rfl, rfl⟩ := e'
  exact ⟨p.symm.trans p', r.symm.trans r'⟩

theorem sign_two {a b a' b' : Id} {s : Int} (hne : a' ≠ b')
    (h : permutationSign [a, b] [a', b'] = some s) :
    (s = 1 ∧ a = a' ∧ b = b') ∨ (s = -1 ∧ a = b' ∧ b = a') := by
  rcases perm_two (perm_of_permutationSign h) with ⟨rfl, rfl⟩ | ⟨rfl, rfl⟩
  · rw [permutationSign_refl (by simp) (by simp [hne])] at h
    simp at h
    exact Or.inl ⟨h.symm, rfl, rfl⟩
  · rw [permutationSign_swap01 _ _ [] (by simp [hne])] at h
    simp at h
    exact Or.inr ⟨h.symm, rfl, rfl⟩

theorem SegO_vertices {t : Topo} {o a b : Id} (h : SegO t o a b) :
    t.verticesOf 1 o = some [a, b] := by
  obtain ⟨a', b', hF, hs⟩ := h
  obtain ⟨n, x, y, e, p, _, r, _⟩ := hF
  simp only [Topo.verticesOf, e, p, r]
  rcases sign_two n hs with ⟨e1, rfl, rfl⟩ | ⟨e1, rfl, rfl⟩ <;> simp [e1, swap01]

theorem eq_singleton_of_mem {l : List Id} {c : Id} (hnd : l.Nodup) (h : ∀ v, v ∈ l ↔ v = c) :
    l = [c] := by
  have : l.Perm [c] := by
    rw [List.perm_ext_iff_of_nodup hnd (by simp)]
    intro v; rw [h]; simp
  exact List.perm_singleton.mp this

theorem TriO_vertices {t : Topo} {o a b c : Id} (h : TriO t o a b c) :
    ∃ l, t.verticesOf 2 o = some l ∧ permutationSign l [a, b, c] = some 1 := by
  obtain ⟨a', b', c', hF, hs⟩ := h
  obtain ⟨n, x, y, z, e, p, q, r⟩ := hF
  have n0 := n
  simp only [List.nodup_cons, List.mem_cons, List.not_mem_nil, or_false, not_or, not_false_eq_true,
    List.nodup_nil, and_true] at n
  have hfil : (t.vertexSet 1 (t.fp 1 y)).filter (· ∉ [a', b']) = [c'] := by
    apply eq_singleton_of_mem ((vertexSet_nodup t 1 _).filter _)
    intro v
    have hv : v ∈ t.vertexSet 1 (t.fp 1 y) ↔ v = b' ∨ v = c' := by
      have := Finset.ext_iff.mp (SegO_VS q) v
      simpa [VS] using this
    simp only [List.mem_filter, hv, decide_eq_true_eq, List.mem_cons, List.not_mem_nil, or_false,
      not_or]
    constructor
    · rintro ⟨h1 | h1, h2, h3⟩
      · exact absurd h1 h3
      · exact h1
    · rintro rfl; exact ⟨Or.inr rfl, Ne.symm n.1.2, Ne.symm n.2⟩
  have hsym := permutationSign_comm n0 hs
  have hv : t.verticesOf 2 o =
      some (if t.sg 2 o = -1 then [b', a', c'] else [a', b', c']) := by
    simp only [Topo.verticesOf, e]
    have e2 := SegO_vertices p
    simp only [Topo.verticesOf] at e2
    rw [e2]
    simp only [hfil]
    simp [swap01]
  refine ⟨_, hv, ?_⟩
  rcases permutationSign_values hs with e1 | e1
  · rw [e1] at hsym
    simp [e1, hsym]
  · rw [e1] at hsym
    rw [if_pos e1]
    have := permutationSign_trans n0 (permutationSign_swap01 a' b' [c'] n0) hsym
    simpa using this

theorem TetO_vertices {t : Topo} {o a b c d : Id} (h : TetO t o a b c d) :
    ∃ l, t.verticesOf 3 o = some l ∧ permutationSign l [a, b, c, d] = some 1 := by
  obtain ⟨a', b', c', d', hF, hs⟩ := h
  obtain ⟨n, x, y, z, w, e, p, q, r, s⟩ := hF
  have n0 := n
  simp only [List.nodup_cons, List.mem_cons, List.not_mem_nil, or_false, not_or, not_false_eq_true,
    List.nodup_nil, and_true] at n
  obtain ⟨⟨n1, n2, n3⟩, ⟨n4, n5⟩, n6⟩ := n
  obtain ⟨l, hl, hlp⟩ := TriO_vertices p
  have hmem : ∀ v, v ∈ l ↔ v = a' ∨ v = b' ∨ v = c' := by
    intro v
    have := (perm_of_permutationSign hlp).mem_iff (a := v)
    simpa using this
  have hfil : (t.vertexSet 2 (t.fp 2 y)).filter (· ∉ l) = [d'] := by
    apply eq_singleton_of_mem ((vertexSet_nodup t 2 _).filter _)
    intro v
    have hv : v ∈ t.vertexSet 2 (t.fp 2 y) ↔ v = b' ∨ v = d' ∨ v = c' := by
      have := Finset.ext_iff.mp (TriO_VS q) v
      simpa [VS] using this
    simp only [List.mem_filter, hv, decide_eq_true_eq, hmem, not_or]
    constructor
    · rintro ⟨h1 | h1 | h1, h2, h3, h4⟩
      · exact absurd h1 h3
      · exact h1
      · exact absurd h1 h4
    · rintro rfl; exact ⟨Or.inr (Or.inl rfl), Ne.symm n3, Ne.symm n5, Ne.symm n6⟩
  have hv : t.verticesOf 3 o =
      some (if t.sg 3 o = -1 then swap01 (l ++ [d']) else l ++ [d']) := by
    rw [Topo.verticesOf]
    simp only [e, hl, hfil]
  have hn3 : [a', b', c'].Nodup := by simp [n1, n2, n4]
  have happ : permutationSign (l ++ [d']) [a', b', c', d'] = some 1 := by
    rcases permutationSign_three hn3 hlp with rfl | rfl | rfl
    · exact permutationSign_refl (by simp) n0
    · have := permutationSign_of_swapSort (a := [b', c', a', d']) (b := [a', b', c', d']) (k := 2)
        (by rw [List.perm_ext_iff_of_nodup] <;> simp <;> tauto)
        (by simp [swapSort_cons, swapSort_refl, putBack, n1, n2, n3, n4, n5, n6, Ne.symm n1,
              Ne.symm n2, Ne.symm n3, Ne.symm n4, Ne.symm n5, Ne.symm n6])
      simpa using this
    · have := permutationSign_of_swapSort (a := [c', a', b', d']) (b := [a', b', c', d']) (k := 2)
        (by rw [List.perm_ext_iff_of_nodup] <;> simp <;> tauto)
        (by simp [swapSort_cons, swapSort_refl, putBack, n1, n2, n3, n4, n5, n6, Ne.symm n1,
              Ne.symm n2, Ne.symm n3, Ne.symm n4, Ne.symm n5, Ne.symm n6])
      simpa using this
  have hsym := permutationSign_trans n0 happ (permutationSign_comm n0 hs)
  refine ⟨_, hv, ?_⟩
  rcases permutationSign_values hs with e1 | e1
  · rw [e1] at hsym
    simp [e1] at hsym ⊢
    exact hsym
  · rw [e1] at hsym
    rw [if_pos e1]
    have hnl : (l ++ [d']).Nodup := (perm_of_permutationSign happ).nodup_iff.mpr n0
    have hsw : permutationSign (swap01 (l ++ [d'])) (l ++ [d']) = some (-1) := by
      rcases permutationSign_three hn3 hlp with rfl | rfl | rfl <;>
        exact permutationSign_swap01 _ _ _ hnl
    have := permutationSign_trans hnl hsw hsym
    simpa using this

/-! ### histories -/

theorem vertex_std {t t' : Topo} (h : Ok t) (hs : Std t) {v : Id} (hv : t.vertex = some (t', v)) :
    Std t' := by
  have hle := (vertex_ok h hv).2.1
  obtain ⟨_, rest, _, rfl⟩ := vertex_cases hv
  apply hs.of_le h.inv hle <;> intro g hg hn <;> simp [Topo.setLvl] at hg <;> exact absurd hg hn

/-- an operation that does not compose simplices from subsimplices given by the user -/
def VertexBased : Op → Prop
  | .simplex _ _ => False
  | _ => True

theorem Std.init (s : List Id) : Std (.init s) := by
  constructor <;> simp [Topo.init, Level.empty]

theorem Std.of_lvl {t t' : Topo} (h : Std t) (hl : t'.lvl = t.lvl) : Std t' := by
  apply h.congr
  · unfold Topo.compF; rw [hl]
  · unfold Topo.fp; rw [hl]
  · unfold Topo.sg; rw [hl]
  · intro N; rw [hl]

theorem step_std {t t' : Topo} (h : Ok t) (hst : Std t) {op : Op} (hop : VertexBased op)
    (hs : step t op = some t') : Std t' := by
  have keep_std : ∀ {N : Nat} {r : Option (Topo × Id)} {t' : Topo}, keep N r = some t' →
      (∀ t1 o, r = some (t1, o) → Std t1) → Std t' := by
    intro N r t' hk hr
    unfold keep at hk
    split at hk
    · simp at hk
    · rename_i t1 o
      simp at hk
      rw [← hk]; exact (hr t1 o rfl).of_lvl rfl
  unfold step at hs
  split at hs
  · split at hs
    · simp at hs
    · rename_i t1 v hv
      simp at hs
      rw [← hs]
      exact (vertex_std h hst hv).of_lvl rfl
  · split at hs
    · rename_i hc
      exact keep_std hs fun t1 o hr => orientedF_std h hst hc.1 hc.2 hr
    · simp at hs
  · exact absurd hop (by simp [VertexBased])
  · split at hs
    · rename_i hc
      exact keep_std hs fun t1 o hr => (segment_std h hst hc.1 hc.2 hr).1
    · simp at hs
  · split at hs
    · rename_i hc
      exact keep_std hs fun t1 o hr => (triangle_std h hst hc.1 hc.2.1 hc.2.2 hr).1
    · simp at hs
  · split at hs
    · rename_i hc
      exact keep_std hs fun t1 o hr =>
        (tetrahedron_std h hst hc.1 hc.2.1 hc.2.2.1 hc.2.2.2 hr).1
    · simp at hs
  · split at hs
    · rename_i hc
      exact keep_std hs fun t1 o hr => by
        have hsg := h.inv.sg _ _ hc
        exact orientedF_std h hst (h.inv.fp_live _ _ hc) (by omega) hr
    · simp at hs
  · split at hs
    · simp at hs
      rw [← hs]; exact hst.of_lvl rfl
    · simp at hs
  · split at hs
    · simp at hs
      rw [← hs]; exact hst.of_lvl rfl
    · simp at hs
  · split at hs
    · simp at hs
      rw [← hs]; exact hst.of_lvl rfl
    · simp at hs
  · split at hs
    · simp at hs
      rw [← hs]; exact hst.of_lvl rfl
    · simp at hs
  · split at hs
    · rename_i hc
      simp at hs
      rw [← hs]
      have hsh := (erase_spec _ t _ h.inv hc).shr
      exact hst.congr hsh.compF hsh.fp hsh.sg hsh.fps
    · simp at hs

theorem run_std {t t' : Topo} (h : Ok t) (hst : Std t) {ops : List Op}
    (hop : ∀ op ∈ ops, VertexBased op) (hr : run t ops = some t') : Ok t' ∧ Std t' := by
  induction ops generalizing t with
  | nil => simp [run] at hr; rw [← hr]; exact ⟨h, hst⟩
  | cons op ops ih =>
    simp only [run] at hr
    split at hr
    · simp at hr
    · rename_i t1 h1
      exact ih (step_ok h h1) (step_std h hst (hop op (by simp)) h1)
        (fun op' h' => hop op' (by simp [h'])) hr

end Mito.Topology
