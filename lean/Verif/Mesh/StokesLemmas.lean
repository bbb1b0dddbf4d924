import Verif.Mesh.BoundaryLemmas
import Verif.Spec.Stokes
import Mathlib.Tactic.LinearCombination
import Mathlib.LinearAlgebra.Matrix.Trace
import Mathlib.LinearAlgebra.Matrix.Determinant.Basic

/-! # Lemmas about sums over a mesh and over its boundary -/

set_option linter.unusedVariables false
set_option linter.unusedSimpArgs false

namespace Mito.Meshes

open Mito.Topology Mito.Combinatorics

theorem putBack_split {α : Type*} [DecidableEq α] {x r : α} {l l' : List α} (h : putBack x r l = some l') :
    ∃ m s, l = m ++ r :: s ∧ l' = m ++ x :: s := by
  induction l generalizing l' with
  | nil => simp [putBack] at h
  | cons y ys ih =>
    simp only [putBack] at h
    split at h
    · rename_i e
      subst e
      simp at h
      exact ⟨[], ys, rfl, h.symm⟩
    · simp only [Option.map_eq_some_iff] at h
      obtain ⟨l2, h2, rfl⟩ := h
      obtain ⟨m, s, rfl, rfl⟩ := ih h2
      exact ⟨y :: m, s, rfl, rfl⟩

theorem Alternating.swapSort {w : List Id → ℝ} (hw : Alternating w) : ∀ (a b p : List Id) (k : Nat), a.Perm b →
    swapSort a b = some k → w (p ++ a) = (-1) ^ k * w (p ++ b) := by
  intro a b
  induction b generalizing a with
  | nil =>
    intro p k hp h
    have := hp.length_eq
    cases a with
    | nil => simp [Combinatorics.swapSort] at h
    | cons => simp at this
  | cons r rs ih =>
    intro p k hp h
    match a, h with
    | [x], h =>
      have e := List.perm_singleton.mp hp.symm
      simp only [List.cons.injEq] at e
      obtain ⟨rfl, rfl⟩ := e
      simp [Combinatorics.swapSort] at h
      subst h
      simp
    | x :: y :: t, h =>
      simp only [Combinatorics.swapSort] at h
      split at h
      · rename_i e
        subst e
        have := ih (y :: t) (p ++ [r]) k (List.Perm.cons_inv hp) h
        simpa using this
      · split at h
        · cases h
        · rename_i t' hb
          simp only [Option.map_eq_some_iff] at h
          obtain ⟨k', h', rfl⟩ := h
          obtain ⟨m, s, e1, e2⟩ := putBack_split hb
          have hp' : t'.Perm rs := by
            rw [e1] at hp
            rw [e2]
            have h1 : (r :: (m ++ x :: s)).Perm (r :: rs) := by
              refine List.Perm.trans ?_ hp
              refine (List.perm_middle.cons r).trans ?_
              exact (List.Perm.swap _ _ _).trans (List.perm_middle.symm.cons x)
            exact h1.cons_inv
          have h3 := ih t' (p ++ [r]) k' hp' h'
          rw [e1, hw p x m r s]
          rw [e2] at h3
          simp only [List.append_assoc, List.singleton_append] at h3
          rw [h3, pow_succ]
          ring

theorem Alternating.sign {w : List Id → ℝ} (hw : Alternating w) {a b : List Id} {s : Int} (h : permutationSign a b = some s) :
    w a = s * w b := by
  have hp := perm_of_permutationSign h
  unfold permutationSign at h
  split at h
  · cases h
  · simp only [Option.map_eq_some_iff] at h
    obtain ⟨k, hk, rfl⟩ := h
    have := hw.swapSort a b [] k hp hk
    simp only [List.nil_append] at this
    rw [this]
    rcases Nat.even_or_odd k with he | ho
    · simp [he.neg_one_pow, Nat.even_iff.mp he]
    · simp [ho.neg_one_pow, Nat.odd_iff.mp ho]

theorem Alternating.even {w : List Id → ℝ} (hw : Alternating w) {a b : List Id} (h : permutationSign a b = some 1) : w a = w b := by
  rw [hw.sign h]; simp

/-! ### sums over facets -/

theorem paired_cancel_real {F : List (Nat × Int)} (hnd : F.Nodup) (hs : ∀ f ∈ F, f.2 = 1 ∨ f.2 = -1)
    (g : Nat → ℝ) : ((F.filter fun f => (f.1, -f.2) ∈ F).map fun f => (f.2 : ℝ) * g f.1).sum = 0 := by
  have hnd' : (F.filter fun f => (f.1, -f.2) ∈ F).Nodup := hnd.filter _
  rw [← List.sum_toFinset _ hnd']
  refine Finset.sum_involution (fun f _ => (f.1, -f.2)) ?_ ?_ ?_ ?_
  · intro f hf; simp
  · intro f hf h0 e
    have h1 := congrArg Prod.snd e
    simp only at h1
    simp only [List.mem_toFinset, List.mem_filter] at hf
    rcases hs f hf.1 with h2 | h2 <;> omega
  · intro f hf
    simp only [List.mem_toFinset, List.mem_filter, decide_eq_true_eq] at hf ⊢
    exact ⟨hf.2, by simpa using hf.1⟩
  · intro f hf; simp

theorem sum_filter_split_real {β : Type} (l : List β) (p : β → Bool) (v : β → ℝ) :
    (l.map v).sum = ((l.filter p).map v).sum + ((l.filter fun x => !p x).map v).sum := by
  induction l with
  | nil => simp
  | cons x xs ih =>
    by_cases hx : p x <;> simp [hx, ih] <;> ring

theorem sum_flatMap_real {β : Type} (l : List β) (f : β → List ℝ) : (l.flatMap f).sum = (l.map fun c => (f c).sum).sum := by
  induction l with
  | nil => simp
  | cons x xs ih => simp [ih]

/-- the facets on the boundary carry the whole sum -/
theorem sum_boundaryFacets {t : Topo} {N : Nat} {cells : List GCell} (hnd : (cells.flatMap (facets t N)).Nodup)
    (hsg : ∀ f ∈ cells.flatMap (facets t N), f.2 = 1 ∨ f.2 = -1) (g : Nat → ℝ) :
    ((boundaryFacets t N cells).map fun x => (t.sg N x.1 : ℝ) * g (t.fp N x.1)).sum =
      (cells.map fun c => ((t.composition (N + 1) c.simplex).map fun x => (t.sg N x : ℝ) * g (t.fp N x)).sum).sum := by
  have hF : cells.flatMap (facets t N) = ((occurrences t N cells).map (·.1)).map fun x => (t.fp N x, t.sg N x) := by
    unfold occurrences facets
    simp only [List.map_flatMap, List.map_map, Function.comp_def]
  have hall : (cells.map fun c => ((t.composition (N + 1) c.simplex).map fun x => (t.sg N x : ℝ) * g (t.fp N x)).sum).sum =
      ((cells.flatMap (facets t N)).map fun f => (f.2 : ℝ) * g f.1).sum := by
    rw [List.map_flatMap, sum_flatMap_real]
    simp only [facets, List.map_map, Function.comp_def]
  rw [hall, sum_filter_split_real (cells.flatMap (facets t N)) fun f => decide ((f.1, -f.2) ∈ cells.flatMap (facets t N)),
    paired_cancel_real hnd hsg, zero_add]
  rw [hF]
  unfold boundaryFacets
  simp only [List.map_map, List.filter_map]
  congr 1
  refine congrArg _ ?_
  apply List.filter_congr
  intro x hx
  have hU : Unpaired t N cells x.1 ↔ (t.fp N x.1, -t.sg N x.1) ∉ cells.flatMap (facets t N) := by
    simp only [Unpaired, List.mem_flatMap, not_exists, not_and]
  simp only [Function.comp_def]
  rw [hF] at hU
  simp only [List.map_map, Function.comp_def] at hU ⊢
  by_cases h : Unpaired t N cells x.1
  · simp [h, hU.mp h]
  · have := not_not.mp (mt hU.mpr h)
    simp only [h, decide_false, this, decide_true, Bool.not_true]

/-! ### vertices of footprints -/

/-- the vertices of a footprint, as `verticesOf` finds them for orientation `+1` -/
def vertsF (t : Topo) : (N : Nat) → Id → Option (List Id)
  | 0, f => some [f]
  | 1, f =>
    match t.compF 1 f with
    | x :: y :: _ => some [t.fp 0 x, t.fp 0 y]
    | _ => none
  | N + 2, f =>
    match t.compF (N + 2) f with
    | x :: y :: _ =>
      match t.verticesOf (N + 1) x with
      | none => none
      | some l => some (l ++ (t.vertexSet (N + 1) (t.fp (N + 1) y)).filter (· ∉ l))
    | _ => none

theorem verticesOf_eq (t : Topo) (N : Nat) (o : Id) :
    t.verticesOf (N + 1) o = (vertsF t (N + 1) (t.fp (N + 1) o)).map fun l => if t.sg (N + 1) o = -1 then swap01 l else l := by
  match N with
  | 0 =>
    simp only [Topo.verticesOf, vertsF]
    split <;> rename_i h <;> simp [h]
  | N + 1 =>
    rw [Topo.verticesOf, vertsF]
    simp only [Nat.add_assoc, Nat.reduceAdd]
    split
    · rename_i h
      simp only [h]
      split <;> rename_i h' <;> simp [h']
    · rename_i h
      have e : (match t.compF (N + 2) (t.fp (N + 2) o) with
          | x :: y :: _ =>
            match t.verticesOf (N + 1) x with
            | none => none
            | some l => some (l ++ (t.vertexSet (N + 1) (t.fp (N + 1) y)).filter (· ∉ l))
          | _ => none) = none := by
        split
        · rename_i h'; exact absurd h' (h _ _ _)
        · rfl
      rw [e]; rfl

theorem Alternating.swap01 {w : List Id → ℝ} (hw : Alternating w) {l : List Id} (hl : 2 ≤ l.length) : w (swap01 l) = -w l := by
  match l, hl with
  | x :: y :: l, _ =>
    have := hw [] y [] x l
    simpa [Topology.swap01] using this

/-- the value on an oriented simplex is the sign times a value of the footprint -/
noncomputable def onFootprint (t : Topo) (N : Nat) (w : List Id → ℝ) (f : Id) : ℝ := ((vertsF t N f).map w).getD 0

theorem onFootprint_eq {t : Topo} {N : Nat} {w : List Id → ℝ} (hw : Alternating w) {o : Id} {l : List Id} (hl : 2 ≤ l.length)
    (hs : t.sg (N + 1) o = 1 ∨ t.sg (N + 1) o = -1) (h : t.verticesOf (N + 1) o = some l) :
    w l = (t.sg (N + 1) o : ℝ) * onFootprint t (N + 1) w (t.fp (N + 1) o) := by
  rw [verticesOf_eq, Option.map_eq_some_iff] at h
  obtain ⟨l', h1, h2⟩ := h
  rw [onFootprint, h1]
  simp only [Option.map_some, Option.getD_some]
  rcases hs with e | e
  · rw [e] at h2 ⊢
    simp only [show ¬ ((1 : Int) = -1) by decide, if_false] at h2
    rw [h2]; simp
  · rw [e] at h2 ⊢
    simp only [if_true] at h2
    have hl' : 2 ≤ l'.length := by
      rw [← h2] at hl
      match l', hl with
      | [], h => simp [Topology.swap01] at h
      | [_], h => simp [Topology.swap01] at h
      | _ :: _ :: _, _ => simp
    rw [← h2, hw.swap01 hl']; simp

/-- **sum over the boundary = sum over the facets of all cells** -/
theorem sum_boundary {t : Topo} {N : Nat} {cells : List GCell} (hi : Inv t) (st : Std t) (hN : N + 1 ≤ 2)
    (hlive : ∀ c ∈ cells, c.simplex ∈ (t.lvl (N + 2)).ors) (hnd : (cells.flatMap (facets t (N + 1))).Nodup)
    {w : List Id → ℝ} (hw : Alternating w) {B : List GCell} (hB : List.Forall₂ (Places t (N + 1)) (boundaryFacets t (N + 1) cells) B) :
    (B.map fun d => w d.vertices).sum =
      (cells.map fun c => ((t.composition (N + 2) c.simplex).map fun x => ((t.verticesOf (N + 1) x).map w).getD 0).sum).sum := by
  have hsg : ∀ f ∈ cells.flatMap (facets t (N + 1)), f.2 = 1 ∨ f.2 = -1 := by
    intro f hf
    obtain ⟨c', hc', hf⟩ := List.mem_flatMap.mp hf
    exact facets_sign hi (hlive c' hc') f hf
  have hval : ∀ x ∈ (t.lvl (N + 1)).ors, ∀ l, t.verticesOf (N + 1) x = some l →
      w l = (t.sg (N + 1) x : ℝ) * onFootprint t (N + 1) w (t.fp (N + 1) x) := by
    intro x hx l hl
    obtain ⟨l', h1, h2, h3, h4⟩ := verticesOf_spec hi st (by omega) hx
    rw [hl] at h1
    cases h1
    exact onFootprint_eq hw (by rw [h4]; omega) (hi.sg _ x hx) hl
  have hocc : ∀ x ∈ boundaryFacets t (N + 1) cells, x.1 ∈ (t.lvl (N + 1)).ors := by
    intro x hx
    obtain ⟨c, hc, hx⟩ := List.mem_flatMap.mp (List.mem_filter.mp hx).1
    obtain ⟨y, hy, rfl⟩ := List.mem_map.mp hx
    exact composition_live hi (hlive c hc) y hy
  have h1 : (B.map fun d => w d.vertices) =
      (boundaryFacets t (N + 1) cells).map fun x => (t.sg (N + 1) x.1 : ℝ) * onFootprint t (N + 1) w (t.fp (N + 1) x.1) := by
    clear hnd hsg
    generalize boundaryFacets t (N + 1) cells = L at hB hocc
    induction hB with
    | nil => rfl
    | cons hp _ ih =>
      rw [List.map_cons, List.map_cons, ih fun x hx => hocc x (List.mem_cons_of_mem _ hx)]
      congr 1
      exact hval _ (hocc _ List.mem_cons_self) _ hp.2.2
  rw [h1, sum_boundaryFacets hnd hsg]
  congr 1
  apply List.map_congr_left
  intro c hc
  congr 1
  apply List.map_congr_left
  intro x hx
  have hxl := composition_live hi (hlive c hc) x hx
  obtain ⟨l, h2, _⟩ := verticesOf_spec hi st (by omega) hxl
  rw [h2, ← hval x hxl l h2]
  rfl

/-! ### alternating sums over the facets of one cell -/

theorem overEdges_other {w : List Id → ℝ} {l : List Id} (h : l.length ≠ 3) : overEdges w l = 0 := by
  match l, h with
  | [], _ | [_], _ | [_, _], _ | _ :: _ :: _ :: _ :: _, _ => rfl
  | [_, _, _], h => simp at h

theorem overFaces_other {w : List Id → ℝ} {l : List Id} (h : l.length ≠ 4) : overFaces w l = 0 := by
  match l, h with
  | [], _ | [_], _ | [_, _], _ | [_, _, _], _ | _ :: _ :: _ :: _ :: _ :: _, _ => rfl
  | [_, _, _, _], h => simp at h

theorem Alternating.overEdges {w : List Id → ℝ} (hw : Alternating w) : Alternating (overEdges w) := by
  have h2 : ∀ x y, w [x, y] = - w [y, x] := fun x y => hw [] x [] y []
  intro p x m y s
  by_cases hl : p.length + m.length + s.length = 1
  · rcases p with _ | ⟨p0, _ | ⟨p1, p⟩⟩ <;> rcases m with _ | ⟨m0, _ | ⟨m1, m⟩⟩ <;> rcases s with _ | ⟨s0, _ | ⟨s1, s⟩⟩ <;>
      simp only [List.length_cons, List.length_nil] at hl <;> first | omega | skip
    · simp only [List.nil_append, List.cons_append, Meshes.overEdges]
      linear_combination h2 x y + h2 y s0 + h2 s0 x
    · simp only [List.nil_append, List.cons_append, Meshes.overEdges]
      linear_combination h2 x m0 + h2 m0 y + h2 y x
    · simp only [List.nil_append, List.cons_append, Meshes.overEdges]
      linear_combination h2 p0 x + h2 x y + h2 y p0
  · rw [overEdges_other, overEdges_other, neg_zero] <;> simp only [List.length_append, List.length_cons] <;> omega

theorem Alternating.overFaces {w : List Id → ℝ} (hw : Alternating w) : Alternating (overFaces w) := by
  have h1 : ∀ x y z, w [x, y, z] = - w [y, x, z] := fun x y z => hw [] x [] y [z]
  have h2 : ∀ x y z, w [x, y, z] = - w [x, z, y] := fun x y z => hw [x] y [] z []
  have h3 : ∀ x y z, w [x, y, z] = - w [z, y, x] := fun x y z => hw [] x [y] z []
  intro p x m y s
  by_cases hl : p.length + m.length + s.length = 2
  · rcases p with _ | ⟨p0, _ | ⟨p1, _ | ⟨p2, p⟩⟩⟩ <;> rcases m with _ | ⟨m0, _ | ⟨m1, _ | ⟨m2, m⟩⟩⟩ <;>
      rcases s with _ | ⟨s0, _ | ⟨s1, _ | ⟨s2, s⟩⟩⟩ <;>
      simp only [List.length_cons, List.length_nil] at hl <;> first | omega | skip
    · simp only [List.nil_append, List.cons_append, Meshes.overFaces]
      linear_combination h1 x y s1 - h1 x y s0
    · simp only [List.nil_append, List.cons_append, Meshes.overFaces]
      linear_combination h1 m0 y s0 - h3 x m0 y + h1 x m0 s0 - h1 x y s0
    · simp only [List.nil_append, List.cons_append, Meshes.overFaces]
      linear_combination h3 x m0 y - h3 x m1 y + h2 m0 m1 y - h1 m0 y m1 + h2 m0 m1 x - h1 m0 x m1
    · simp only [List.nil_append, List.cons_append, Meshes.overFaces]
      linear_combination h1 x y s0 - h2 p0 x y
    · simp only [List.nil_append, List.cons_append, Meshes.overFaces]
      linear_combination h3 x m0 y - h2 p0 m0 y - h2 p0 x m0 + h2 p0 x y
    · simp only [List.nil_append, List.cons_append, Meshes.overFaces]
      linear_combination h2 p1 x y - h2 p0 x y
  · rw [overFaces_other, overFaces_other, neg_zero] <;> simp only [List.length_append, List.length_cons] <;> omega

/-- the edges that the mesh sees of a triangle -/
theorem edges_sum {t : Topo} (ok : Ok t) (st : Std t) {w : List Id → ℝ} (hw : Alternating w) {o : Id} (ho : o ∈ (t.lvl 2).ors) {l : List Id}
    (hv : t.verticesOf 2 o = some l) :
    ((t.composition 2 o).map fun x => ((t.verticesOf 1 x).map w).getD 0).sum = (t.sg 2 o : ℝ) * overEdges w l := by
  have h2 : ∀ x y, w [x, y] = - w [y, x] := fun x y => hw [] x [] y []
  obtain ⟨a, b, c, hF⟩ := st.tri _ (ok.inv.fp_live 2 o ho)
  rw [TriF_vertices hF] at hv
  obtain ⟨n, x, y, z, e, hx, hy, hz⟩ := hF
  unfold Topo.composition
  rcases ok.inv.sg 2 o ho with hs | hs
  · simp [hs] at hv
    subst hv
    simp [hs, e, SegO_vertices hx, SegO_vertices hy, SegO_vertices hz, overEdges]
    ring
  · simp [hs] at hv
    subst hv
    simp [hs, e, SegO_vertices hx, SegO_vertices hy, SegO_vertices hz, overEdges, swap01]
    linear_combination h2 a b + h2 b c + h2 c a

/-- the faces that the mesh sees of a tetrahedron: the opposite of the induced ones -/
theorem faces_sum {t : Topo} (ok : Ok t) (st : Std t) {w : List Id → ℝ} (hw : Alternating w) {o : Id} (ho : o ∈ (t.lvl 3).ors) {l : List Id}
    (hv : t.verticesOf 3 o = some l) :
    ((t.composition 3 o).map fun x => ((t.verticesOf 2 x).map w).getD 0).sum = - ((t.sg 3 o : ℝ) * overFaces w l) := by
  have h1 : ∀ x y z, w [x, y, z] = - w [y, x, z] := fun x y z => hw [] x [] y [z]
  have h2 : ∀ x y z, w [x, y, z] = - w [x, z, y] := fun x y z => hw [x] y [] z []
  have h3 : ∀ x y z, w [x, y, z] = - w [z, y, x] := fun x y z => hw [] x [y] z []
  obtain ⟨a, b, c, d, hF⟩ := st.tet _ (ok.inv.fp_live 3 o ho)
  have hF' := hF
  obtain ⟨n, x, y, z, u, e, hx, hy, hz, hu⟩ := hF
  obtain ⟨lx, vx, px⟩ := TriO_vertices hx
  obtain ⟨ly, vy, py⟩ := TriO_vertices hy
  obtain ⟨lz, vz, pz⟩ := TriO_vertices hz
  obtain ⟨lu, vu, pu⟩ := TriO_vertices hu
  have hsum : ((t.composition 3 o).map fun x => ((t.verticesOf 2 x).map w).getD 0).sum = - overFaces w [a, b, c, d] := by
    unfold Topo.composition
    have key : w lx + w ly + w lz + w lu = - overFaces w [a, b, c, d] := by
      rw [hw.even px, hw.even py, hw.even pz, hw.even pu, overFaces]
      linear_combination h2 b d c + h3 d b a + h1 d a c - h2 a d c
    rw [← key]
    rcases ok.inv.sg 3 o ho with hs | hs
    · simp [hs, e, vx, vy, vz, vu]; ring
    · simp [hs, e, vx, vy, vz, vu, swap01]; ring
  rw [hsum]
  have hval : overFaces w l = (t.sg 3 o : ℝ) * overFaces w [a, b, c, d] := by
    rcases ok.inv.sg 3 o ho with hs | hs
    · obtain ⟨l', h4, h5⟩ := TetO_vertices (o := o) ⟨a, b, c, d, hF', by rw [hs]; exact permutationSign_refl (by simp) n⟩
      rw [hv] at h4
      cases h4
      rw [hw.overFaces.even h5, hs]; simp
    · obtain ⟨l', h4, h5⟩ := TetO_vertices (o := o) (a := b) (b := a) (c := c) (d := d)
        ⟨a, b, c, d, hF', by rw [hs]; exact permutationSign_swap01 a b [c, d] n⟩
      rw [hv] at h4
      cases h4
      have h6 := hw.overFaces [] b [] a [c, d]
      simp only [List.nil_append] at h6
      rw [hw.overFaces.even h5, hs, h6]; simp
  rw [hval]
  rcases ok.inv.sg 3 o ho with hs | hs <;> rw [hs] <;> simp

theorem even_two {a b : Id} (hne : a ≠ b) {l : List Id} (h : permutationSign [a, b] l = some 1) : l = [a, b] := by
  have hp := perm_of_permutationSign h
  match l, hp.length_eq with
  | [x, y], _ =>
    have hxy : x ≠ y := by
      have := hp.nodup_iff.mp (by simp [hne])
      simpa using this
    rcases sign_two hxy h with ⟨_, rfl, rfl⟩ | ⟨h1, _⟩
    · rfl
    · omega

/-! ### fluxes -/

section flux
open Mito.Tensor Mito.Geometry

theorem det_rows (a b c d e f g h i : ℝ) :
    Matrix.det !![a, b, c; d, e, f; g, h, i] = a * e * i - a * f * h - b * d * i + b * f * g + c * d * h - c * e * g := by
  simp [Matrix.det_fin_three]

theorem flux2_other {F : Vec 2 → Vec 2} {p : Id → Vec 2} {l : List Id} (h : l.length ≠ 2) : flux2 F p l = 0 := by
  match l, h with
  | [], _ | [_], _ | _ :: _ :: _ :: _, _ => rfl
  | [_, _], h => simp at h

theorem flux3_other {F : Vec 3 → Vec 3} {p : Id → Vec 3} {l : List Id} (h : l.length ≠ 3) : flux3 F p l = 0 := by
  match l, h with
  | [], _ | [_], _ | [_, _], _ | _ :: _ :: _ :: _ :: _, _ => rfl
  | [_, _, _], h => simp at h

theorem flux2_alternating (F : Vec 2 → Vec 2) (p : Id → Vec 2) : Alternating (flux2 F p) := by
  intro pr x m y s
  by_cases hl : pr.length + m.length + s.length = 0
  · obtain ⟨h1, rfl⟩ : pr.length + m.length = 0 ∧ s = [] := ⟨by omega, List.length_eq_zero_iff.mp (by omega)⟩
    obtain rfl : pr = [] := List.length_eq_zero_iff.mp (by omega)
    obtain rfl : m = [] := List.length_eq_zero_iff.mp (by omega)
    simp only [List.nil_append, flux2, add_comm (p y) (p x)]
    ring
  · rw [flux2_other, flux2_other, neg_zero] <;> simp only [List.length_append, List.length_cons] <;> omega

theorem flux3_alternating (F : Vec 3 → Vec 3) (p : Id → Vec 3) : Alternating (flux3 F p) := by
  intro pr x m y s
  by_cases hl : pr.length + m.length + s.length = 1
  · rcases pr with _ | ⟨p0, _ | ⟨p1, pr⟩⟩ <;> rcases m with _ | ⟨m0, _ | ⟨m1, m⟩⟩ <;> rcases s with _ | ⟨s0, _ | ⟨s1, s⟩⟩ <;>
      simp only [List.length_cons, List.length_nil] at hl <;> first | omega | skip
    · simp only [List.nil_append, flux3, add_comm (p y) (p x), det_rows]
      ring
    · simp only [List.nil_append, List.cons_append, flux3, show p y + p m0 + p x = p x + p m0 + p y by abel, det_rows]
      ring
    · simp only [List.nil_append, List.cons_append, flux3, show p p0 + p y + p x = p p0 + p x + p y by abel, det_rows]
      ring
  · rw [flux3_other, flux3_other, neg_zero] <;> simp only [List.length_append, List.length_cons] <;> omega

theorem flux2_affine (A : Mat 2) (b : Vec 2) (p : Id → Vec 2) (l : List Id) :
    overEdges (flux2 (fun x => A.mulVec x + b) p) l = A.trace * area p l := by
  match l with
  | [] | [_] | [_, _] | _ :: _ :: _ :: _ :: _ => simp [overEdges, area]
  | [x, y, z] =>
    simp [overEdges, area, flux2, simplexVolume, Matrix.mulVec, dotProduct, Fin.sum_univ_two, Matrix.trace, Matrix.det_fin_two, Nat.factorial]
    ring

theorem flux3_affine (A : Mat 3) (b : Vec 3) (p : Id → Vec 3) (l : List Id) :
    overFaces (flux3 (fun x => A.mulVec x + b) p) l = A.trace * volume p l := by
  match l with
  | [] | [_] | [_, _] | [_, _, _] | _ :: _ :: _ :: _ :: _ :: _ => simp [overFaces, volume]
  | [x, y, z, u] =>
    simp [overFaces, volume, flux3, simplexVolume, Matrix.mulVec, dotProduct, Fin.sum_univ_three, Matrix.trace, Matrix.det_fin_three, Nat.factorial]
    ring

end flux

end Mito.Meshes
