import Verif.Spec.RefineShape
import Verif.Spec.Refine
import Mathlib.Tactic.Ring
import Mathlib.Tactic.Linarith
import Mathlib.Tactic.FieldSimp
import Mathlib.Data.Nat.Fib.Basic

/-! # Helper lemmas for the sizes and shapes of refined cells -/

set_option linter.unusedSimpArgs false

namespace Mito.Refine

/-- what holds of all cells of all refined parts -/
theorem each_forall {K β : Type*} [Field K] {f : Nat → β → Nat × List (List (PNode K))} {P : List (PNode K) → Prop} (l : List β)
    (h : ∀ k, ∀ x ∈ l, ∀ d ∈ (f k x).2, P d) (k : Nat) : ∀ d ∈ (each f k l).2, P d := by
  induction l generalizing k with
  | nil => simp [each]
  | cons x l ih =>
    intro d hd
    rw [each] at hd
    rcases List.mem_append.mp hd with hd | hd
    · exact h k x (List.mem_cons_self ..) d hd
    · exact ih (fun k y hy => h k y (List.mem_cons_of_mem _ hy)) _ d hd

/-- a refined part is in the refined whole -/
theorem each_mem {K β : Type*} [Field K] {f : Nat → β → Nat × List (List (PNode K))} {P : List (PNode K) → Prop} (l : List β) (x : β)
    (hx : x ∈ l) (h : ∀ k, ∃ d ∈ (f k x).2, P d) (k : Nat) : ∃ d ∈ (each f k l).2, P d := by
  induction l generalizing k with
  | nil => simp at hx
  | cons y l ih =>
    rw [each]
    rcases List.mem_cons.mp hx with rfl | hx
    · obtain ⟨d, hd, hp⟩ := h k
      exact ⟨d, List.mem_append_left _ hd, hp⟩
    · obtain ⟨d, hd, hp⟩ := ih hx (f k y).1
      exact ⟨d, List.mem_append_right _ hd, hp⟩

section Size

variable {p : Seminorm ℝ (Nat → ℝ)} {h : ℝ}

theorem size_half {u v : Nat → ℝ} (hv : p v ≤ h) (e : ∀ i, u i = 1 / 2 * v i) : p u ≤ h / 2 := by
  have : u = (1 / 2 : ℝ) • v := funext e
  rw [this, map_smul_eq_mul, Real.norm_eq_abs, abs_of_pos (by norm_num)]
  linarith

theorem size_half' {u v : Nat → ℝ} (hv : p v ≤ h) (e : ∀ i, u i = -(1 / 2 * v i)) : p u ≤ h / 2 := by
  have : u = (-(1 / 2) : ℝ) • v := funext fun i => by rw [e i]; simp
  rw [this, map_smul_eq_mul, Real.norm_eq_abs, abs_neg, abs_of_pos (by norm_num)]
  linarith

theorem size_sum {u v w : Nat → ℝ} (hv : p v ≤ h) (hw : p w ≤ h) (e : ∀ i, u i = 1 / 2 * v i + 1 / 2 * w i) : p u ≤ h := by
  have h1 := size_half (u := (1 / 2 : ℝ) • v) hv fun i => by simp
  have h2 := size_half (u := (1 / 2 : ℝ) • w) hw fun i => by simp
  have : u = (1 / 2 : ℝ) • v + (1 / 2 : ℝ) • w := funext fun i => by rw [e i]; simp
  rw [this]
  linarith [map_add_le_add p ((1 / 2 : ℝ) • v) ((1 / 2 : ℝ) • w)]

theorem size_sub {u v w : Nat → ℝ} (hv : p v ≤ h) (hw : p w ≤ h) (e : ∀ i, u i = 1 / 2 * v i - 1 / 2 * w i) : p u ≤ h := by
  refine size_sum (w := -w) hv (by rwa [map_neg_eq_map]) fun i => ?_
  rw [e i]
  simp
  ring

/-- twice the vector between the midpoints of the edges `0 2` and `1 3` -/
def diagonal (a b c d : PNode ℝ) : Nat → ℝ := b.pos - a.pos + (d.pos - c.pos)

theorem halves_size (k : Nat) (a b : PNode ℝ) (hc : SizeLe p h [a, b]) :
    ∀ d ∈ halves k (a, b), SizeLe p (h / 2) [d.1, d.2] := by
  simp only [SizeLe, List.pairwise_cons, List.mem_cons, List.not_mem_nil, or_false, forall_eq, false_imp_iff, implies_true,
    List.Pairwise.nil, and_true, halves, forall_eq_or_imp] at hc ⊢
  constructor <;> refine size_half hc fun i => ?_ <;> simp only [midnode, midpoint, Pi.sub_apply] <;> ring

theorem quarters_size (k : Nat) (a b c : PNode ℝ) (hc : SizeLe p h [a, b, c]) :
    ∀ d ∈ quarters k (a, b, c), SizeLe p (h / 2) [d.1, d.2.1, d.2.2] := by
  simp only [SizeLe, List.pairwise_cons, List.mem_cons, List.not_mem_nil, or_false, forall_eq, false_imp_iff, implies_true,
    List.Pairwise.nil, and_true, quarters, forall_eq_or_imp] at hc ⊢
  obtain ⟨⟨h1, h2⟩, h3⟩ := hc
  refine ⟨⟨⟨?_, ?_⟩, ?_⟩, ⟨⟨?_, ?_⟩, ?_⟩, ⟨⟨?_, ?_⟩, ?_⟩, ⟨⟨?_, ?_⟩, ?_⟩⟩ <;>
    first
      | (refine size_half h1 fun i => ?_; simp only [midnode, midpoint, diagonal, Pi.sub_apply, Pi.add_apply, Pi.zero_apply]; ring1)
      | (refine size_half' h1 fun i => ?_; simp only [midnode, midpoint, diagonal, Pi.sub_apply, Pi.add_apply, Pi.zero_apply]; ring1)
      | (refine size_half h2 fun i => ?_; simp only [midnode, midpoint, diagonal, Pi.sub_apply, Pi.add_apply, Pi.zero_apply]; ring1)
      | (refine size_half' h2 fun i => ?_; simp only [midnode, midpoint, diagonal, Pi.sub_apply, Pi.add_apply, Pi.zero_apply]; ring1)
      | (refine size_half h3 fun i => ?_; simp only [midnode, midpoint, diagonal, Pi.sub_apply, Pi.add_apply, Pi.zero_apply]; ring1)
      | (refine size_half' h3 fun i => ?_; simp only [midnode, midpoint, diagonal, Pi.sub_apply, Pi.add_apply, Pi.zero_apply]; ring1)

theorem size_diagonal {a b c d : PNode ℝ} (hc : SizeLe p h [a, b, c, d]) : p (diagonal a b c d) ≤ 2 * h := by
  simp only [SizeLe, List.pairwise_cons, List.mem_cons, List.not_mem_nil, or_false, forall_eq, false_imp_iff, implies_true,
    List.Pairwise.nil, and_true, forall_eq_or_imp] at hc
  have := map_add_le_add p (b.pos - a.pos) (d.pos - c.pos)
  have h1 := hc.1.1
  have h2 := hc.2.2
  rw [diagonal]
  linarith

/-- the edges of the parts are half as long as an edge or as the diagonal -/
theorem eighthsRec_size (k : Nat) (a b c d : PNode ℝ) (hc : SizeLe p h [a, b, c, d]) (hd : p (diagonal a b c d) ≤ h) :
    ∀ e ∈ eighthsRec k (a, b, c, d), SizeLe p (h / 2) [e.1, e.2.1, e.2.2.1, e.2.2.2] := by
  simp only [SizeLe, List.pairwise_cons, List.mem_cons, List.not_mem_nil, or_false, forall_eq, false_imp_iff, implies_true,
    List.Pairwise.nil, and_true, eighthsRec, forall_eq_or_imp] at hc ⊢
  obtain ⟨⟨h1, h2, h3⟩, ⟨h4, h5⟩, h6⟩ := hc
  refine ⟨?_, ?_, ?_, ?_, ?_, ?_, ?_, ?_⟩ <;> refine ⟨⟨?_, ?_, ?_⟩, ⟨?_, ?_⟩, ?_⟩ <;>
    first
      | (refine size_half h1 fun i => ?_; simp only [midnode, midpoint, diagonal, Pi.sub_apply, Pi.add_apply, Pi.zero_apply]; ring1)
      | (refine size_half' h1 fun i => ?_; simp only [midnode, midpoint, diagonal, Pi.sub_apply, Pi.add_apply, Pi.zero_apply]; ring1)
      | (refine size_half h2 fun i => ?_; simp only [midnode, midpoint, diagonal, Pi.sub_apply, Pi.add_apply, Pi.zero_apply]; ring1)
      | (refine size_half' h2 fun i => ?_; simp only [midnode, midpoint, diagonal, Pi.sub_apply, Pi.add_apply, Pi.zero_apply]; ring1)
      | (refine size_half h3 fun i => ?_; simp only [midnode, midpoint, diagonal, Pi.sub_apply, Pi.add_apply, Pi.zero_apply]; ring1)
      | (refine size_half' h3 fun i => ?_; simp only [midnode, midpoint, diagonal, Pi.sub_apply, Pi.add_apply, Pi.zero_apply]; ring1)
      | (refine size_half h4 fun i => ?_; simp only [midnode, midpoint, diagonal, Pi.sub_apply, Pi.add_apply, Pi.zero_apply]; ring1)
      | (refine size_half' h4 fun i => ?_; simp only [midnode, midpoint, diagonal, Pi.sub_apply, Pi.add_apply, Pi.zero_apply]; ring1)
      | (refine size_half h5 fun i => ?_; simp only [midnode, midpoint, diagonal, Pi.sub_apply, Pi.add_apply, Pi.zero_apply]; ring1)
      | (refine size_half' h5 fun i => ?_; simp only [midnode, midpoint, diagonal, Pi.sub_apply, Pi.add_apply, Pi.zero_apply]; ring1)
      | (refine size_half h6 fun i => ?_; simp only [midnode, midpoint, diagonal, Pi.sub_apply, Pi.add_apply, Pi.zero_apply]; ring1)
      | (refine size_half' h6 fun i => ?_; simp only [midnode, midpoint, diagonal, Pi.sub_apply, Pi.add_apply, Pi.zero_apply]; ring1)
      | (refine size_half hd fun i => ?_; simp only [midnode, midpoint, diagonal, Pi.sub_apply, Pi.add_apply, Pi.zero_apply]; ring1)
      | (refine size_half' hd fun i => ?_; simp only [midnode, midpoint, diagonal, Pi.sub_apply, Pi.add_apply, Pi.zero_apply]; ring1)

/-- the diagonals of the parts are halves of sums of two edges -/
theorem eighthsRec_diagonal (k : Nat) (a b c d : PNode ℝ) (hc : SizeLe p h [a, b, c, d]) :
    ∀ e ∈ eighthsRec k (a, b, c, d), p (diagonal e.1 e.2.1 e.2.2.1 e.2.2.2) ≤ h := by
  simp only [SizeLe, List.pairwise_cons, List.mem_cons, List.not_mem_nil, or_false, forall_eq, false_imp_iff, implies_true,
    List.Pairwise.nil, and_true, eighthsRec, forall_eq_or_imp] at hc ⊢
  obtain ⟨⟨h1, h2, h3⟩, ⟨h4, h5⟩, h6⟩ := hc
  have h0 : 0 ≤ h := (apply_nonneg p _).trans h1
  have hz : p 0 ≤ h := by simpa using h0
  refine ⟨?_, ?_, ?_, ?_, ?_, ?_, ?_, ?_⟩
  · refine size_sum h1 h6 fun i => ?_
    simp only [midnode, midpoint, diagonal, Pi.sub_apply, Pi.add_apply, Pi.zero_apply]; ring1
  · refine size_sub (w := d.pos - a.pos) (v := c.pos - b.pos) h4 h3 fun i => ?_
    simp only [midnode, midpoint, diagonal, Pi.sub_apply, Pi.add_apply, Pi.zero_apply]; ring1
  · refine size_sub (w := b.pos - a.pos) (v := d.pos - c.pos) h6 h1 fun i => ?_
    simp only [midnode, midpoint, diagonal, Pi.sub_apply, Pi.add_apply, Pi.zero_apply]; ring1
  · refine size_sum (w := c.pos - a.pos) (v := d.pos - b.pos) h5 h2 fun i => ?_
    simp only [midnode, midpoint, diagonal, Pi.sub_apply, Pi.add_apply, Pi.zero_apply]; ring1
  · refine size_sub (w := c.pos - a.pos) (v := 0) hz h2 fun i => ?_
    simp only [midnode, midpoint, diagonal, Pi.sub_apply, Pi.add_apply, Pi.zero_apply]; ring1
  · refine size_sum (w := d.pos - b.pos) (v := 0) hz h5 fun i => ?_
    simp only [midnode, midpoint, diagonal, Pi.sub_apply, Pi.add_apply, Pi.zero_apply]; ring1
  · refine size_sub (w := d.pos - c.pos) (v := c.pos - b.pos) h4 h6 fun i => ?_
    simp only [midnode, midpoint, diagonal, Pi.sub_apply, Pi.add_apply, Pi.zero_apply]; ring1
  · refine size_sum (w := c.pos - a.pos) (v := 0) hz h2 fun i => ?_
    simp only [midnode, midpoint, diagonal, Pi.sub_apply, Pi.add_apply, Pi.zero_apply]; ring1

theorem sizeLe_perm {c d : List (PNode ℝ)} (hp : c.Perm d) (hc : SizeLe p h c) : SizeLe p h d :=
  (hp.pairwise_iff fun {a b} hab => by rwa [← map_neg_eq_map, neg_sub]).mp hc

/-- the parts as they are inserted have the same nodes as the parts that are subdivided further -/
theorem eighths_rec {K : Type*} [Field K] (k : Nat) (c : PNode K × PNode K × PNode K × PNode K) :
    ∀ e ∈ eighths k c, ∃ e' ∈ eighthsRec k c, [e'.1, e'.2.1, e'.2.2.1, e'.2.2.2].Perm [e.1, e.2.1, e.2.2.1, e.2.2.2] := by
  simp only [eighths, eighthsRec, List.mem_cons, List.not_mem_nil, or_false, forall_eq_or_imp, forall_eq, exists_eq_or_imp,
    exists_eq_left]
  have h1 : ∀ w x y z : PNode K, [y, w, x, z].Perm [w, x, y, z] := fun w x y z => by
    exact ((List.Perm.swap w y _).trans ((List.Perm.swap x y _).cons _))
  have h2 : ∀ w x y z : PNode K, [y, w, x, z].Perm [w, x, y, z] := h1
  refine ⟨?_, ?_, ?_, ?_, ?_, ?_, ?_, ?_⟩ <;> try simp only [List.Perm.refl, true_or, or_true]
  · exact Or.inr (Or.inr (Or.inr (Or.inl (h1 _ _ _ _))))
  · exact Or.inr (Or.inr (Or.inr (Or.inr (Or.inr (Or.inr (Or.inl (h1 _ _ _ _)))))))

theorem subdivideSegment_size (n : Nat) : ∀ (h : ℝ) (k : Nat) (c : PNode ℝ × PNode ℝ), SizeLe p h [c.1, c.2] →
    ∀ d ∈ (subdivideSegment n k c).2, SizeLe p (h / 2 ^ (n + 1)) d := by
  induction n with
  | zero =>
    intro h k c hc d hd
    rw [subdivideSegment] at hd
    obtain ⟨e, he, rfl⟩ := List.mem_map.mp hd
    simpa using halves_size k c.1 c.2 hc e he
  | succ n ih =>
    intro h k c hc d hd
    rw [subdivideSegment] at hd
    refine each_forall (P := SizeLe p (h / 2 ^ (n + 2))) _ (fun k' x hx d hd => ?_) _ d hd
    have := ih (h / 2) k' x (halves_size k c.1 c.2 hc x hx) d hd
    rwa [div_div, ← pow_succ'] at this

theorem subdivideTriangle_size (n : Nat) : ∀ (h : ℝ) (k : Nat) (c : PNode ℝ × PNode ℝ × PNode ℝ), SizeLe p h [c.1, c.2.1, c.2.2] →
    ∀ d ∈ (subdivideTriangle n k c).2, SizeLe p (h / 2 ^ (n + 1)) d := by
  induction n with
  | zero =>
    intro h k c hc d hd
    rw [subdivideTriangle] at hd
    obtain ⟨e, he, rfl⟩ := List.mem_map.mp hd
    simpa using quarters_size k c.1 c.2.1 c.2.2 hc e he
  | succ n ih =>
    intro h k c hc d hd
    rw [subdivideTriangle] at hd
    refine each_forall (P := SizeLe p (h / 2 ^ (n + 2))) _ (fun k' x hx d hd => ?_) _ d hd
    have := ih (h / 2) k' x (quarters_size k c.1 c.2.1 c.2.2 hc x hx) d hd
    rwa [div_div, ← pow_succ'] at this

theorem sizeLe_double {c : List (PNode ℝ)} (hc : SizeLe p h c) : SizeLe p (2 * h / 2) c := by
  rwa [mul_div_cancel_left₀ _ (two_ne_zero)]

theorem sizeLe_mono {h' : ℝ} {c : List (PNode ℝ)} (hc : SizeLe p h c) (hh : h ≤ h') : SizeLe p h' c :=
  hc.imp fun hab => hab.trans hh

theorem sizeLe_nonneg {a b : PNode ℝ} {l : List (PNode ℝ)} (hc : SizeLe p h (a :: b :: l)) : 0 ≤ h :=
  (apply_nonneg p _).trans ((List.pairwise_cons.mp hc).1 b (List.mem_cons_self ..))

/-- two refinements halve the size; the first of them makes the diagonals at most as long as the edges -/
theorem subdivideTetrahedron_size (n : Nat) : ∀ (h : ℝ) (k : Nat) (a b c d : PNode ℝ), SizeLe p h [a, b, c, d] →
    (∀ e ∈ (subdivideTetrahedron n k (a, b, c, d)).2, SizeLe p (h / 2 ^ ((n + 1) / 2)) e) ∧
    (p (diagonal a b c d) ≤ h → ∀ e ∈ (subdivideTetrahedron n k (a, b, c, d)).2, SizeLe p (h / 2 ^ ((n + 2) / 2)) e) := by
  induction n with
  | zero =>
    intro h k a b c d hc
    have key : ∀ h', SizeLe p h' [a, b, c, d] → p (diagonal a b c d) ≤ h' →
        ∀ e ∈ (subdivideTetrahedron 0 k (a, b, c, d)).2, SizeLe p (h' / 2) e := by
      intro h' hc' hd' e he
      rw [subdivideTetrahedron] at he
      obtain ⟨e', he', rfl⟩ := List.mem_map.mp he
      obtain ⟨e'', h1, h2⟩ := eighths_rec _ _ e' he'
      exact sizeLe_perm h2 (eighthsRec_size k a b c d hc' hd' e'' h1)
    have h0 := sizeLe_nonneg hc
    constructor
    · intro e he
      have := key (2 * h) (sizeLe_mono hc (by linarith)) (size_diagonal hc) e he
      rw [mul_div_cancel_left₀ _ (two_ne_zero)] at this
      simpa using this
    · intro hd e he
      simpa using key h hc hd e he
  | succ n ih =>
    intro h k a b c d hc
    have h0 := sizeLe_nonneg hc
    rw [subdivideTetrahedron]
    constructor
    · refine each_forall (P := SizeLe p (h / 2 ^ ((n + 2) / 2))) _ (fun k' x hx e he => ?_) _
      have h1 := eighthsRec_size k a b c d (sizeLe_mono hc (by linarith : h ≤ 2 * h)) (size_diagonal hc) x hx
      rw [mul_div_cancel_left₀ _ (two_ne_zero)] at h1
      exact (ih h k' x.1 x.2.1 x.2.2.1 x.2.2.2 h1).2 (eighthsRec_diagonal k a b c d hc x hx) e he
    · intro hd
      refine each_forall (P := SizeLe p (h / 2 ^ ((n + 3) / 2))) _ (fun k' x hx e he => ?_) _
      have h1 := eighthsRec_size k a b c d hc hd x hx
      have := (ih (h / 2) k' x.1 x.2.1 x.2.2.1 x.2.2.2 h1).1 e he
      rwa [div_div, ← pow_succ', show (n + 1) / 2 + 1 = (n + 3) / 2 by omega] at this

end Size

section Shape

variable {K : Type*} [Field K]

theorem Scaled.trans {s t : K} {v w : Nat → K} {c d e : List (PNode K)} (h1 : Scaled s v c d) (h2 : Scaled t w d e) :
    Scaled (t * s) (fun i => t * v i + w i) c e := by
  induction h1 generalizing e with
  | nil => cases h2; exact .nil
  | cons hab _ ih =>
    cases h2 with
    | cons hbc h2 =>
      refine .cons (fun i => ?_) (ih h2)
      rw [hbc i, hab i]
      ring

theorem Scaled.perm {s : K} {v : Nat → K} {c d d' : List (PNode K)} (h : Scaled s v c d) (hp : d'.Perm d) :
    ∃ c', c'.Perm c ∧ Scaled s v c' d' := by
  have := (List.perm_comp_forall₂ (r := fun b a : PNode K => ∀ i, b.pos i = s * a.pos i + v i) hp h.flip)
  obtain ⟨c', h1, h2⟩ := this
  exact ⟨c', h2, h1.flip⟩

theorem SimilarTo.trans {m n : Nat} {c d e : List (PNode K)} (h1 : SimilarTo m c d) (h2 : SimilarTo n d e) :
    SimilarTo (m + n) c e := by
  obtain ⟨c', hp, s, v, hs, hc⟩ := h1
  obtain ⟨d', hq, t, w, ht, hd⟩ := h2
  obtain ⟨c'', hr, hc'⟩ := hc.perm hq
  refine ⟨c'', hr.trans hp, t * s, _, ?_, hc'.trans hd⟩
  have e1 : (1 : K) / 2 ^ (m + n) = 1 / 2 ^ n * (1 / 2 ^ m) := by
    rw [pow_add, div_mul_div_comm, one_mul, mul_comm (2 ^ m : K)]
  rcases hs with rfl | rfl <;> rcases ht with rfl | rfl <;> rw [e1]
  · exact Or.inl rfl
  · exact Or.inr (by ring)
  · exact Or.inr (by ring)
  · exact Or.inl (by ring)

theorem SimilarTo.refl (c : List (PNode K)) : SimilarTo 0 c c :=
  ⟨c, .refl _, 1, 0, Or.inl (by simp), by
    unfold Scaled
    induction c with
    | nil => exact .nil
    | cons a c ih => exact .cons (fun i => by simp) ih⟩

theorem halves_similar (h2 : (2 : K) ≠ 0) (k : Nat) (a b : PNode K) :
    ∀ d ∈ halves k (a, b), SimilarTo 1 [a, b] [d.1, d.2] := by
  simp only [halves, List.mem_cons, List.not_mem_nil, or_false, forall_eq_or_imp, forall_eq]
  refine ⟨⟨[a, b], .refl _, 1 / 2, fun i => 1 / 2 * a.pos i, Or.inl (by simp), .cons (fun i => ?_) (.cons (fun i => ?_) .nil)⟩,
    ⟨[a, b], .refl _, 1 / 2, fun i => 1 / 2 * b.pos i, Or.inl (by simp), .cons (fun i => ?_) (.cons (fun i => ?_) .nil)⟩⟩ <;>
    simp only [midnode, midpoint] <;> field_simp <;> ring

theorem quarters_similar (h2 : (2 : K) ≠ 0) (k : Nat) (a b c : PNode K) :
    ∀ d ∈ quarters k (a, b, c), SimilarTo 1 [a, b, c] [d.1, d.2.1, d.2.2] := by
  simp only [quarters, List.mem_cons, List.not_mem_nil, or_false, forall_eq_or_imp, forall_eq]
  have hp : [b, c, a].Perm [a, b, c] := (((List.Perm.swap a c []).cons b).trans (List.Perm.swap a b [c]))
  refine ⟨⟨[a, b, c], .refl _, 1 / 2, fun i => 1 / 2 * a.pos i, Or.inl (by simp), ?_⟩,
    ⟨[a, b, c], .refl _, 1 / 2, fun i => 1 / 2 * b.pos i, Or.inl (by simp), ?_⟩,
    ⟨[b, c, a], hp, 1 / 2, fun i => 1 / 2 * c.pos i, Or.inl (by simp), ?_⟩,
    ⟨[b, c, a], hp, -(1 / 2), fun i => 1 / 2 * (a.pos i + b.pos i + c.pos i), Or.inr (by simp), ?_⟩⟩ <;>
    refine .cons (fun i => ?_) (.cons (fun i => ?_) (.cons (fun i => ?_) .nil)) <;>
    simp only [midnode, midpoint] <;> field_simp <;> ring

theorem corners_similar (h2 : (2 : K) ≠ 0) (k : Nat) (a b c d : PNode K) :
    ∀ e ∈ (eighths k (a, b, c, d)).take 4, SimilarTo 1 [a, b, c, d] [e.1, e.2.1, e.2.2.1, e.2.2.2] := by
  simp only [eighths, List.take_succ_cons, List.take_zero, List.mem_cons, List.not_mem_nil, or_false, forall_eq_or_imp, forall_eq]
  refine ⟨⟨[a, b, c, d], .refl _, 1 / 2, fun i => 1 / 2 * a.pos i, Or.inl (by simp), ?_⟩,
    ⟨[b, a, d, c], (List.Perm.swap a b _).trans (((List.Perm.swap c d []).cons b).cons a), 1 / 2, fun i => 1 / 2 * b.pos i,
      Or.inl (by simp), ?_⟩,
    ⟨[c, a, b, d], (List.Perm.swap a c _).trans ((List.Perm.swap b c _).cons a), 1 / 2, fun i => 1 / 2 * c.pos i,
      Or.inl (by simp), ?_⟩,
    ⟨[d, b, a, c], ?_, 1 / 2, fun i => 1 / 2 * d.pos i, Or.inl (by simp), ?_⟩⟩
  rotate_left 3
  · exact ((List.Perm.swap b d _).trans ((List.Perm.swap a d _).cons b)).trans ((List.Perm.swap a b _).trans
      (((List.Perm.swap c d _).cons b).cons a))
  all_goals
    refine .cons (fun i => ?_) (.cons (fun i => ?_) (.cons (fun i => ?_) (.cons (fun i => ?_) .nil))) <;>
      simp only [midnode, midpoint] <;> field_simp <;> ring

theorem subdivideSegment_similar (h2 : (2 : K) ≠ 0) (n : Nat) : ∀ (k : Nat) (c : PNode K × PNode K),
    ∀ d ∈ (subdivideSegment n k c).2, SimilarTo (n + 1) [c.1, c.2] d := by
  induction n with
  | zero =>
    intro k c d hd
    rw [subdivideSegment] at hd
    obtain ⟨e, he, rfl⟩ := List.mem_map.mp hd
    exact halves_similar h2 k c.1 c.2 e he
  | succ n ih =>
    intro k c d hd
    rw [subdivideSegment] at hd
    refine each_forall (P := SimilarTo (n + 2) [c.1, c.2]) _ (fun k' x hx d hd => ?_) _ d hd
    have := (halves_similar h2 k c.1 c.2 x hx).trans (ih k' x d hd)
    rwa [show 1 + (n + 1) = n + 2 by omega] at this

theorem subdivideTriangle_similar (h2 : (2 : K) ≠ 0) (n : Nat) : ∀ (k : Nat) (c : PNode K × PNode K × PNode K),
    ∀ d ∈ (subdivideTriangle n k c).2, SimilarTo (n + 1) [c.1, c.2.1, c.2.2] d := by
  induction n with
  | zero =>
    intro k c d hd
    rw [subdivideTriangle] at hd
    obtain ⟨e, he, rfl⟩ := List.mem_map.mp hd
    exact quarters_similar h2 k c.1 c.2.1 c.2.2 e he
  | succ n ih =>
    intro k c d hd
    rw [subdivideTriangle] at hd
    refine each_forall (P := SimilarTo (n + 2) [c.1, c.2.1, c.2.2]) _ (fun k' x hx d hd => ?_) _ d hd
    have := (quarters_similar h2 k c.1 c.2.1 c.2.2 x hx).trans (ih k' x d hd)
    rwa [show 1 + (n + 1) = n + 2 by omega] at this

/-- one of the tetrahedra after `3 m + 1` refinements -/
theorem subdivideTetrahedron_fib (h2 : (2 : K) ≠ 0) (m : Nat) : ∀ (k : Nat) (a b c d : PNode K),
    ∃ t ∈ (subdivideTetrahedron (3 * m) k (a, b, c, d)).2, ∃ q ∈ t, ∃ r ∈ t, ∀ i,
      2 * 8 ^ m * (r.pos i - q.pos i) = Nat.fib (m + 1) * (b.pos i - a.pos i) - Nat.fib m * (c.pos i - a.pos i) := by
  induction m with
  | zero =>
    intro k a b c d
    refine ⟨[a, midnode k a b, midnode (k + 1) a c, midnode (k + 2) a d], ?_, a, by simp, midnode k a b, by simp, fun i => ?_⟩
    · simp [subdivideTetrahedron, eighths]
    · simp only [midnode, midpoint, zero_add, Nat.fib_one, Nat.fib_zero]
      push_cast
      field_simp
      ring
  | succ m ih =>
    intro k a b c d
    rw [show 3 * (m + 1) = 3 * m + 1 + 1 + 1 by ring]
    -- the fifth part
    rw [subdivideTetrahedron]
    refine each_mem (P := fun t => ∃ q ∈ t, ∃ r ∈ t, ∀ i, 2 * 8 ^ (m + 1) * (r.pos i - q.pos i) =
      Nat.fib (m + 1 + 1) * (b.pos i - a.pos i) - Nat.fib (m + 1) * (c.pos i - a.pos i)) _ _ (by
        unfold eighthsRec
        exact List.mem_cons_of_mem _ (List.mem_cons_of_mem _ (List.mem_cons_of_mem _ (List.mem_cons_of_mem _ (List.mem_cons_self ..))))) (fun k1 => ?_) _
    -- the third part
    rw [subdivideTetrahedron]
    refine each_mem _ _ (by
        unfold eighthsRec
        exact List.mem_cons_of_mem _ (List.mem_cons_of_mem _ (List.mem_cons_self ..))) (fun k2 => ?_) _
    -- the seventh part
    rw [subdivideTetrahedron]
    refine each_mem _ _ (by
        unfold eighthsRec
        exact List.mem_cons_of_mem _ (List.mem_cons_of_mem _ (List.mem_cons_of_mem _ (List.mem_cons_of_mem _ (List.mem_cons_of_mem _ (List.mem_cons_of_mem _ (List.mem_cons_self ..))))))) (fun k3 => ?_) _
    obtain ⟨t, ht, q, hq, r, hr, e⟩ := ih k3 _ _ _ _
    refine ⟨t, ht, q, hq, r, hr, fun i => ?_⟩
    have e' := e i
    simp only [midnode, midpoint] at e'
    rw [pow_succ, show (2 : K) * (8 ^ m * 8) * (r.pos i - q.pos i) = 8 * (2 * 8 ^ m * (r.pos i - q.pos i)) by ring, e',
      Nat.fib_add_two (n := m)]
    push_cast
    field_simp
    ring

end Shape

end Mito.Refine
