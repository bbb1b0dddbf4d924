import Verif.Mesh.FlipVolumes
import Verif.Spec.FlipVolumes
import Verif.Props.FlipDiagonal
import Verif.Props.Coordinates
import Mathlib.Tactic.FieldSimp
import Mathlib.Tactic.LinearCombination

/-! # C150: flipping a diagonal conserves the area, and gives cells of positive volume in convex quadrilaterals only -/

set_option linter.unusedVariables false

namespace Mito.Meshes

open Mito.Topology Mito.Geometry Mito.Combinatorics Mito.Tensor

/-- the signed signedArea of a triangle -/
noncomputable def signedArea (a b c : Vec 2) : ℝ :=
  ((b 0 - a 0) * (c 1 - a 1) - (b 1 - a 1) * (c 0 - a 0)) / 2

theorem signedArea_cycle (a b c : Vec 2) : signedArea b c a = signedArea a b c := by unfold signedArea; ring
theorem signedArea_swap (a b c : Vec 2) : signedArea b a c = - signedArea a b c := by unfold signedArea; ring

theorem cellVolume_area (point : Node → Vec 2) {o : Id} {l m n : Node} :
    cellVolume point ⟨o, [l, m, n]⟩ = signedArea (point l) (point m) (point n) := by
  rw [cellVolume, volume_cartesian (by norm_num) (by norm_num), simplexVolume, Matrix.det_fin_two]
  simp [signedArea, Nat.factorial]
  ring

theorem signedArea_sign {pos : Id → Vec 2} {p q r a b c : Id} {s : ℤ} (hn : [a, b, c].Nodup)
    (h : permutationSign [p, q, r] [a, b, c] = some s) :
    signedArea (pos p) (pos q) (pos r) = s * signedArea (pos a) (pos b) (pos c) := by
  have hp := perm_of_permutationSign h
  have nab : a ≠ b := by simp at hn; tauto
  have nac : a ≠ c := by simp at hn; tauto
  have nbc : b ≠ c := by simp at hn; tauto
  have ha : a ∈ [p, q, r] := hp.mem_iff.mpr (by simp)
  have hb : b ∈ [p, q, r] := hp.mem_iff.mpr (by simp)
  have hc : c ∈ [p, q, r] := hp.mem_iff.mpr (by simp)
  simp only [List.mem_cons, List.not_mem_nil, or_false] at ha hb hc
  unfold permutationSign at h
  rw [sameElements, List.isPerm_iff.mpr hp] at h
  rcases ha with rfl | rfl | rfl <;> rcases hb with rfl | rfl | rfl <;> rcases hc with rfl | rfl | rfl <;>
    first
    | exact absurd rfl nab
    | exact absurd rfl nac
    | exact absurd rfl nbc
    | (simp [swapSort, putBack, nab, nac, nbc, nab.symm, nac.symm, nbc.symm] at h
       subst h
       unfold signedArea
       push_cast
       ring)

variable {t t3 : Topo} {c0 c1 d0 d1 : GCell} {a b c d : Id} {point : Node → Vec 2} {pos : Id → Vec 2}

theorem volume_of_nodes {e : GCell} (hn : [a, b, c].Nodup) {s : ℤ} (he : permutationSign (e.nodes.map (·.vertex)) [a, b, c] = some s)
    (hp : ∀ n ∈ e.nodes, point n = pos n.vertex) : cellVolume point e = s * signedArea (pos a) (pos b) (pos c) := by
  have hl := (perm_of_permutationSign he).length_eq
  obtain ⟨o, ns⟩ := e
  simp only [List.length_map, List.length_cons, List.length_nil] at hl
  match ns, hl with
  | [l, m, n], _ =>
    rw [cellVolume_area, hp l (by simp), hp m (by simp), hp n (by simp)]
    exact signedArea_sign hn he

/-- a triangle is traversed from each of its vertices -/
theorem around_area {o p q r : Id} (hl : Loop t o p q r) (h : Around t o a b c) :
    signedArea (pos p) (pos q) (pos r) = signedArea (pos a) (pos b) (pos c) := by
  have hp := hl.around.symm.trans h
  obtain ⟨n1, n2, n3⟩ := hl.ne
  have hm : (some a, some b) ∈ [(some p, some q), (some q, some r), (some r, some p)] := hp.mem_iff.mpr (by simp)
  have hm2 : (some b, some c) ∈ [(some p, some q), (some q, some r), (some r, some p)] := hp.mem_iff.mpr (by simp)
  simp only [List.mem_cons, Prod.mk.injEq, Option.some.injEq, List.not_mem_nil, or_false] at hm hm2
  rcases hm with ⟨rfl, rfl⟩ | ⟨rfl, rfl⟩ | ⟨rfl, rfl⟩ <;> rcases hm2 with ⟨h1, rfl⟩ | ⟨h1, rfl⟩ | ⟨h1, rfl⟩ <;>
    first
    | exact absurd h1 n1
    | exact absurd h1.symm n1
    | exact absurd h1 n2
    | exact absurd h1.symm n2
    | exact absurd h1 n3
    | exact absurd h1.symm n3
    | rfl
    | (unfold signedArea; ring)

/-- the volume of a triangle and the way around it in which its subsimplices are listed -/
theorem volume_of_around {e : GCell} (hok : Ok t) (hst : Std t) (he : CellOk t 2 e) (ha : Around t e.simplex a b c)
    (hp : ∀ n ∈ e.nodes, point n = pos n.vertex) :
    t.sg 2 e.simplex * cellVolume point e = signedArea (pos a) (pos b) (pos c) := by
  obtain ⟨hlive, hs⟩ := he
  unfold GCell.sanityCheck at hs
  obtain ⟨m, hm⟩ := exists_ofVertices hok.inv hst (Or.inr (Or.inl rfl)) hlive
  obtain ⟨l', hl', hp'⟩ := OfVertices_vertices hm
  rw [hl'] at hs
  simp only [beq_iff_eq] at hs
  match m, hm with
  | [p, q, r], hm =>
    have hT : TriO t e.simplex p q r := hm
    have hnd := hT.nodup
    have hnl : l'.Nodup := (perm_of_permutationSign hp').nodup_iff.mpr hnd
    have hne : (e.nodes.map (·.vertex)).Nodup := (perm_of_permutationSign hs).nodup_iff.mp hnl
    have key : permutationSign (e.nodes.map (·.vertex)) [p, q, r] = some 1 := by
      simpa using permutationSign_trans hnl (permutationSign_comm hne hs) hp'
    rw [volume_of_nodes hnd key hp]
    rcases hok.inv.sg 2 _ hlive with e1 | e1
    · rw [e1, ← around_area (Loop.of_pos hT e1) ha]
      simp
    · rw [e1, ← around_area (Loop.of_neg hT e1) ha, signedArea_swap]
      simp

theorem volume_of_triangle {t : Topo} {e : GCell} {L : List Node} {o : Id} (hT : TriO t o a b c) (hP : Places t 2 (o, L) e)
    (hp : ∀ n ∈ L, point n = pos n.vertex) : cellVolume point e = signedArea (pos a) (pos b) (pos c) := by
  obtain ⟨h1, h2, h3⟩ := hP
  obtain ⟨l, hl, hs⟩ := IsTriangle_of_TriO hT
  simp only at h3
  rw [hl] at h3
  obtain rfl := Option.some.inj h3
  rw [volume_of_nodes hT.nodup hs fun n hn => hp n (h2 n hn)]
  simp

/-- The volumes of the triangles before and after a flip of the common edge of `a` and `b` to the edge of `c` and `d`. -/
theorem flip_volumes (ht : VReachable t) (hfr : Fresh t 12) (h0 : CellOk t 2 c0) (h1 : CellOk t 2 c1)
    (hp : ∀ n ∈ c0.nodes ++ c1.nodes, point n = pos n.vertex) (h : flipDiagonal t c0 c1 = .ok (t3, d0, d1))
    (a0 : Around t c0.simplex a b c) (a1 : Around t c1.simplex b a d) (hcd : c ≠ d) :
    t.sg 2 c0.simplex * cellVolume point c0 = signedArea (pos a) (pos b) (pos c) ∧
    t.sg 2 c1.simplex * cellVolume point c1 = signedArea (pos b) (pos a) (pos d) ∧
    if c < d then cellVolume point d0 = signedArea (pos c) (pos d) (pos b) ∧ cellVolume point d1 = signedArea (pos d) (pos c) (pos a)
    else cellVolume point d0 = signedArea (pos d) (pos c) (pos a) ∧ cellVolume point d1 = signedArea (pos c) (pos d) (pos b) := by
  obtain ⟨ok, st⟩ := ht.ok
  refine ⟨volume_of_around ok st h0 a0 fun n hn => hp n (by simp [hn]),
    volume_of_around ok st h1 a1 fun n hn => hp n (by simp [hn]), ?_⟩
  obtain ⟨t1, x, y, hr, p0, p1⟩ := flipDiagonal_nodes ht hfr h0 h1 h
  have hp' : ∀ n ∈ c1.nodes ++ c0.nodes, point n = pos n.vertex := fun n hn => hp n (by
    simp only [List.mem_append] at hn ⊢; tauto)
  obtain ⟨_, _, _, _, _, hf⟩ := (flipDiagonal_opposite ok st h0.1 h1.1 (Loop.of_around ok.inv st h0.1 a0)
    (Loop.of_around ok.inv st h1.1 a1) hcd).2 t1 x y hr
  split
  · rename_i hlt
    exact ⟨volume_of_triangle (hf.lt hlt).1 p0 hp', volume_of_triangle (hf.lt hlt).2 p1 hp'⟩
  · rename_i hlt
    have := hf.gt (lt_of_le_of_ne (not_lt.mp hlt) (Ne.symm hcd))
    exact ⟨volume_of_triangle this.1 p0 hp', volume_of_triangle this.2 p1 hp'⟩

/-- when the flip succeeds there are such vertices -/
theorem flip_around (ht : VReachable t) (hfr : Fresh t 12) (h0 : CellOk t 2 c0) (h1 : CellOk t 2 c1)
    (h : flipDiagonal t c0 c1 = .ok (t3, d0, d1)) :
    ∃ a b c d, c ≠ d ∧ Around t c0.simplex a b c ∧ Around t c1.simplex b a d := by
  obtain ⟨t1, x, y, hr, -, -⟩ := flipDiagonal_nodes ht hfr h0 h1 h
  rcases flip_cases_partial ht hfr h0.1 h1.1 with ⟨e, _⟩ | ⟨a, b, c, d, hcd, ax, ay, _⟩ | ⟨_, _, _, _, _, _, e⟩
  · rw [hr] at e; simp at e
  · exact ⟨a, b, c, d, hcd, ax, ay⟩
  · rw [hr] at e; simp at e

/-- The flip conserves the volume of triangles of orientation `+1`; the volume of those of orientation `-1` changes its sign. -/
theorem flip_conserves (ht : VReachable t) (hfr : Fresh t 12) (h0 : CellOk t 2 c0) (h1 : CellOk t 2 c1)
    (hp : ∀ n ∈ c0.nodes ++ c1.nodes, point n = pos n.vertex) (h : flipDiagonal t c0 c1 = .ok (t3, d0, d1)) :
    cellVolume point d0 + cellVolume point d1 =
      t.sg 2 c0.simplex * cellVolume point c0 + t.sg 2 c1.simplex * cellVolume point c1 := by
  obtain ⟨a, b, c, d, hcd, a0, a1⟩ := flip_around ht hfr h0 h1 h
  obtain ⟨e0, e1, e2⟩ := flip_volumes ht hfr h0 h1 hp h a0 a1 hcd
  rw [e0, e1]
  split at e2 <;> (rw [e2.1, e2.2]; unfold signedArea; ring)

/-- the four triangles of a quadrilateral with the diagonals `a b` and `c d` -/
theorem crossing_iff {a b c d : Vec 2} (h0 : 0 < signedArea a b c) (h1 : 0 < signedArea b a d) :
    Crossing a b c d ↔ 0 < signedArea c d b ∧ 0 < signedArea d c a := by
  have hsum : signedArea c d b + signedArea d c a = signedArea a b c + signedArea b a d := by unfold signedArea; ring
  have hpos : 0 < signedArea a b c + signedArea b a d := by linarith
  constructor
  · rintro ⟨s, ⟨s0, s1⟩, r, ⟨r0, r1⟩, e⟩
    have ex := congrFun e 0
    have ey := congrFun e 1
    simp only [Pi.add_apply, Pi.smul_apply, smul_eq_mul] at ex ey
    have e1 : signedArea d c a = s * (signedArea a b c + signedArea b a d) := by
      unfold signedArea
      linear_combination (1 / 2) * (d 1 - c 1) * ex - (1 / 2) * (d 0 - c 0) * ey
    have e2 : signedArea c d b = (1 - s) * (signedArea a b c + signedArea b a d) := by linarith
    rw [e1, e2]
    exact ⟨mul_pos (by linarith) hpos, mul_pos s0 hpos⟩
  · rintro ⟨hb, ha⟩
    have hne := hpos.ne'
    refine ⟨signedArea d c a / (signedArea a b c + signedArea b a d), ⟨by positivity, ?_⟩,
      signedArea a b c / (signedArea a b c + signedArea b a d), ⟨by positivity, ?_⟩, ?_⟩
    · rw [div_lt_one hpos]; linarith
    · rw [div_lt_one hpos]; linarith
    · ext k
      simp only [Pi.add_apply, Pi.smul_apply, smul_eq_mul]
      field_simp
      fin_cases k <;> (simp only [Fin.zero_eta, Fin.mk_one]; unfold signedArea; ring)

/-- Of two triangles of positive volume (and orientation `+1`) the flip makes triangles of positive volume if and only if the
diagonals of the quadrilateral cross. -/
theorem flip_positive_iff (ht : VReachable t) (hfr : Fresh t 12) (h0 : CellOk t 2 c0) (h1 : CellOk t 2 c1)
    (hp : ∀ n ∈ c0.nodes ++ c1.nodes, point n = pos n.vertex) (h : flipDiagonal t c0 c1 = .ok (t3, d0, d1))
    (a0 : Around t c0.simplex a b c) (a1 : Around t c1.simplex b a d) (hcd : c ≠ d)
    (s0 : t.sg 2 c0.simplex = 1) (s1 : t.sg 2 c1.simplex = 1)
    (v0 : 0 < cellVolume point c0) (v1 : 0 < cellVolume point c1) :
    0 < cellVolume point d0 ∧ 0 < cellVolume point d1 ↔ Crossing (pos a) (pos b) (pos c) (pos d) := by
  obtain ⟨e0, e1, e2⟩ := flip_volumes ht hfr h0 h1 hp h a0 a1 hcd
  rw [s0, Int.cast_one, one_mul] at e0
  rw [s1, Int.cast_one, one_mul] at e1
  rw [e0] at v0
  rw [e1] at v1
  rw [crossing_iff v0 v1]
  split at e2
  · rw [e2.1, e2.2]
  · rw [e2.1, e2.2, and_comm]

/-! ### Examples and findings -/

/-- the outcome of a flip, given the nodes of the new cells -/
theorem flip_of_summary {l0 l1 l2 m0 m1 m2 : Node} (h : flipSummary (flipDiagonal t c0 c1) = .ok [[l0, l1, l2], [m0, m1, m2]])
    (point : Node → Vec 2) : ∃ t3 d0 d1, flipDiagonal t c0 c1 = .ok (t3, d0, d1) ∧
      cellVolume point d0 = signedArea (point l0) (point l1) (point l2) ∧ cellVolume point d1 = signedArea (point m0) (point m1) (point m2) := by
  cases e : flipDiagonal t c0 c1 with
  | ok r =>
    obtain ⟨t3, ⟨o0, n0⟩, ⟨o1, n1⟩⟩ := r
    rw [e] at h
    simp only [flipSummary, Outcome.ok.injEq, List.cons.injEq, and_true] at h
    obtain ⟨rfl, rfl⟩ := h
    exact ⟨t3, _, _, rfl, cellVolume_area .., cellVolume_area ..⟩
  | _ => rw [e] at h; simp [flipSummary] at h

/-- points for the vertices `0, 1, 2, 3` -/
def quad (p q r s : Vec 2) (n : Node) : Vec 2 :=
  if n.vertex = 0 then p else if n.vertex = 1 then q else if n.vertex = 2 then r else s

/-- The program of benchmarks/mito.lib/integration/integration.cc:45-57: the two halves of the unit square. -/
theorem flip_square : ∃ t3 d0 d1, flipDiagonal (exTopo [.triangle 0 1 3, .triangle 1 2 3]) ⟨17, [exNode 0, exNode 1, exNode 3]⟩
      ⟨26, [exNode 1, exNode 2, exNode 3]⟩ = .ok (t3, d0, d1) ∧
    cellVolume (quad ![0, 0] ![1, 0] ![1, 1] ![0, 1]) d0 = 1 / 2 ∧
    cellVolume (quad ![0, 0] ![1, 0] ![1, 1] ![0, 1]) d1 = 1 / 2 := by
  obtain ⟨t3, d0, d1, h, e0, e1⟩ := flip_of_summary (t := exTopo [.triangle 0 1 3, .triangle 1 2 3])
    (c0 := ⟨17, [exNode 0, exNode 1, exNode 3]⟩) (c1 := ⟨26, [exNode 1, exNode 2, exNode 3]⟩)
    (l0 := exNode 0) (l1 := exNode 2) (l2 := exNode 3) (m0 := exNode 2) (m1 := exNode 0) (m2 := exNode 1)
    (by decide +kernel) (quad ![0, 0] ![1, 0] ![1, 1] ![0, 1])
  refine ⟨t3, d0, d1, h, ?_, ?_⟩
  · rw [e0]; simp [signedArea, quad, exNode]
  · rw [e1]; simp [signedArea, quad, exNode]

/-- The program does not check that the diagonals cross: two triangles of positive volume are replaced by one that covers more than
both, and one of negative volume. -/
theorem flip_inverts : ∃ (t : Topo) (c0 c1 : GCell) (point : Node → Vec 2) (pos : Id → Vec 2), VReachable t ∧ CellOk t 2 c0 ∧
    CellOk t 2 c1 ∧ t.sg 2 c0.simplex = 1 ∧ t.sg 2 c1.simplex = 1 ∧ (∀ n, point n = pos n.vertex) ∧
    cellVolume point c0 = 8 ∧ cellVolume point c1 = 2 ∧
    ∃ t3 d0 d1, flipDiagonal t c0 c1 = .ok (t3, d0, d1) ∧ cellVolume point d0 = 20 ∧ cellVolume point d1 = -10 := by
  obtain ⟨t3, d0, d1, h, e0, e1⟩ := flip_of_summary (t := exB)
    (c0 := ⟨17, [exNode 0, exNode 1, exNode 2]⟩) (c1 := ⟨26, [exNode 2, exNode 1, exNode 3]⟩)
    (l0 := exNode 0) (l1 := exNode 3) (l2 := exNode 2) (m0 := exNode 3) (m1 := exNode 0) (m2 := exNode 1)
    (by decide +kernel) (quad ![0, 0] ![4, 0] ![0, 4] ![10, -5])
  refine ⟨exB, _, _, quad ![0, 0] ![4, 0] ![0, 4] ![10, -5], fun v => quad ![0, 0] ![4, 0] ![0, 4] ![10, -5] ⟨0, v⟩, exB_reachable,
    ⟨by decide +kernel, by decide +kernel⟩, ⟨by decide +kernel, by decide +kernel⟩,
    by decide +kernel, by decide +kernel, fun n => rfl, ?_, ?_, t3, d0, d1, h, ?_, ?_⟩
  · rw [cellVolume_area]; simp [signedArea, quad, exNode]; try norm_num
  · rw [cellVolume_area]; simp [signedArea, quad, exNode]; try norm_num
  · rw [e0]; simp [signedArea, quad, exNode]; try norm_num
  · rw [e1]; simp [signedArea, quad, exNode]; try norm_num

/-- Triangles of orientation `-1`: the unit square of volume `1` turns into cells of volume `-1`. -/
theorem flip_negates : ∃ (t : Topo) (c0 c1 : GCell) (point : Node → Vec 2), VReachable t ∧ CellOk t 2 c0 ∧ CellOk t 2 c1 ∧
    cellVolume point c0 = 1 / 2 ∧ cellVolume point c1 = 1 / 2 ∧
    ∃ t3 d0 d1, flipDiagonal t c0 c1 = .ok (t3, d0, d1) ∧ cellVolume point d0 = -1 / 2 ∧ cellVolume point d1 = -1 / 2 := by
  obtain ⟨t3, d0, d1, h, e0, e1⟩ := flip_of_summary (t := exNeg)
    (c0 := ⟨21, [exNode 0, exNode 1, exNode 2]⟩) (c1 := ⟨32, [exNode 2, exNode 1, exNode 3]⟩)
    (l0 := exNode 0) (l1 := exNode 3) (l2 := exNode 1) (m0 := exNode 3) (m1 := exNode 0) (m2 := exNode 2)
    (by decide +kernel) (quad ![0, 0] ![1, 0] ![0, 1] ![1, 1])
  refine ⟨exNeg, _, _, quad ![0, 0] ![1, 0] ![0, 1] ![1, 1], exNeg_reachable,
    ⟨by decide +kernel, by decide +kernel⟩, ⟨by decide +kernel, by decide +kernel⟩, ?_, ?_, t3, d0, d1, h, ?_, ?_⟩
  · rw [cellVolume_area]; simp [signedArea, quad, exNode]
  · rw [cellVolume_area]; simp [signedArea, quad, exNode]; try norm_num
  · rw [e0]; simp [signedArea, quad, exNode]; try norm_num
  · rw [e1]; simp [signedArea, quad, exNode]; try norm_num

/-- the diagonals of the unit square cross -/
example : Crossing ![1, 0] ![0, 1] ![0, 0] ![1, 1] := by
  refine ⟨1 / 2, by norm_num, 1 / 2, by norm_num, ?_⟩
  ext k
  fin_cases k <;> norm_num

/-- those of the other quadrilateral do not -/
example : ¬ Crossing ![4, 0] ![0, 4] ![0, 0] ![10, -5] := by
  rw [crossing_iff (by simp [signedArea]) (by simp [signedArea]; norm_num)]
  simp [signedArea]
  norm_num

end Mito.Meshes
