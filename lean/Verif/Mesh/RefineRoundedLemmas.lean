import Verif.Mesh.RefineRounded
import Verif.Math.RoundingLemmas

/-! # Lemmas on refinement with rounding -/

namespace Mito.Refine

/-! ## Without rounding -/

theorem subdivideSegmentWith_midpoint (n k : Nat) (c : PNode ℝ × PNode ℝ) : subdivideSegmentWith midpoint n k c = subdivideSegment n k c := by
  induction n generalizing k c with
  | zero => rfl
  | succ n ih =>
    have : subdivideSegmentWith midpoint n = subdivideSegment n := by funext k c; exact ih k c
    rw [subdivideSegmentWith, this]
    rfl

theorem subdivideTriangleWith_midpoint (n k : Nat) (c : PNode ℝ × PNode ℝ × PNode ℝ) :
    subdivideTriangleWith midpoint n k c = subdivideTriangle n k c := by
  induction n generalizing k c with
  | zero => rfl
  | succ n ih =>
    have : subdivideTriangleWith midpoint n = subdivideTriangle n := by funext k c; exact ih k c
    rw [subdivideTriangleWith, this]
    rfl

theorem subdivideTetrahedronWith_midpoint (n k : Nat) (c : PNode ℝ × PNode ℝ × PNode ℝ × PNode ℝ) :
    subdivideTetrahedronWith midpoint n k c = subdivideTetrahedron n k c := by
  induction n generalizing k c with
  | zero => rfl
  | succ n ih =>
    have : subdivideTetrahedronWith midpoint n = subdivideTetrahedron n := by funext k c; exact ih k c
    rw [subdivideTetrahedronWith, this]
    rfl

/-! ## Nodes with a bounded error -/

/-- `a'` is `a` with an error in its coordinates, which are bounded by `R` -/
def Near (R ρ : ℝ) (a a' : PNode ℝ) : Prop := a'.id = a.id ∧ ∀ i, Within ρ (a'.pos i) (a.pos i) R

theorem Near.mono {R ρ σ : ℝ} {a a' : PNode ℝ} (h : Near R ρ a a') (hσ : ρ ≤ σ) : Near R σ a a' := ⟨h.1, fun i => (h.2 i).mono hσ⟩

theorem near_midnode {u R ρ : ℝ} {fl : ℝ → ℝ} (hfl : Rounds u fl) (hu : 0 ≤ u) (k : Nat) {a a' b b' : PNode ℝ} (ha : Near R ρ a a')
    (hb : Near R ρ b b') : Near R (ρ * (1 + u) ^ 4) (midnode k a b) (midnodeWith (flMidpoint fl) k a' b') := by
  refine ⟨rfl, fun i => ?_⟩
  have h1 := ha.2 i
  have h2 := hb.2 i
  have hρ := h1.one_le
  have hR := h1.nonneg
  show Within _ (fl (a'.pos i + fl (1 / 2 * fl (b'.pos i - a'.pos i)))) (a.pos i + 1 / 2 * (b.pos i - a.pos i)) R
  set x := a.pos i
  set y := b.pos i
  set x' := a'.pos i
  set y' := b'.pos i
  have s1 := h1.size
  have s2 := h2.size
  have e1 := h1.error
  have e2 := h2.error
  have b1 := h1.bound
  have b2 := h2.bound
  rw [abs_le] at s1 s2 e1 e2 b1 b2
  have hA : 0 ≤ ρ * R := mul_nonneg (by linarith) hR
  have f1 := (Within.mk (le_refl (1 : ℝ)) (by simp) (abs_le.mpr ⟨by linarith, by linarith⟩) : Within 1 (y' - x') (y' - x') (2 * (ρ * R))).round hfl hu
  have f2 := f1.half.round hfl hu
  have hq : (1 + u) ≤ 1 * (1 + u) * (1 + u) := by nlinarith
  have f3 : |x' + fl (1 / 2 * fl (y' - x')) - (x' + 1 / 2 * (y' - x'))| ≤ ((1 + u) ^ 2 - 1) * (ρ * R) := by
    have := f2.error
    have e : x' + fl (1 / 2 * fl (y' - x')) - (x' + 1 / 2 * (y' - x')) = fl (1 / 2 * fl (y' - x')) - 1 / 2 * (y' - x') := by ring
    rw [e]
    refine this.trans (le_of_eq (by ring))
  have f4 : |x' + 1 / 2 * (y' - x')| ≤ ρ * R := abs_le.mpr ⟨by linarith, by linarith⟩
  have f5 : Within ((1 + u) ^ 2) (x' + fl (1 / 2 * fl (y' - x'))) (x' + 1 / 2 * (y' - x')) (ρ * R) := ⟨by nlinarith, f3, f4⟩
  have f6 := f5.round hfl hu
  refine ⟨?_, ?_, abs_le.mpr ⟨by linarith, by linarith⟩⟩
  · have : 1 ≤ (1 + u) ^ 4 := one_le_pow₀ (by linarith)
    nlinarith
  · have f7 := f6.error
    have f8 : |x' + 1 / 2 * (y' - x') - (x + 1 / 2 * (y - x))| ≤ (ρ - 1) * R := abs_le.mpr ⟨by linarith, by linarith⟩
    have f9 : |fl (x' + fl (1 / 2 * fl (y' - x'))) - (x + 1 / 2 * (y - x))| ≤
        |fl (x' + fl (1 / 2 * fl (y' - x'))) - (x' + 1 / 2 * (y' - x'))| + |x' + 1 / 2 * (y' - x') - (x + 1 / 2 * (y - x))| := abs_sub_le _ _ _
    have f10 : (1 + u) ^ 2 * (1 + u) ≤ (1 + u) ^ 4 := by
      have : (1 + u) ^ 2 * (1 + u) = (1 + u) ^ 3 := by ring
      rw [this]
      exact pow_le_pow_right₀ (by linarith) (by norm_num)
    have f11 := mul_le_mul_of_nonneg_right f10 hA
    nlinarith

/-! ## Lists of cells -/

/-- the results of two subdivisions: the same identities, cells that are near -/
def NearCells (R ρ : ℝ) (r r' : Nat × List (List (PNode ℝ))) : Prop := r'.1 = r.1 ∧ List.Forall₂ (List.Forall₂ (Near R ρ)) r.2 r'.2

theorem each_near {β : Type*} {R ρ : ℝ} {rel : β → β → Prop} {f f' : Nat → β → Nat × List (List (PNode ℝ))}
    (hf : ∀ k x x', rel x x' → NearCells R ρ (f k x) (f' k x')) {l l' : List β} (h : List.Forall₂ rel l l') (k : Nat) :
    NearCells R ρ (each f k l) (each f' k l') := by
  induction h generalizing k with
  | nil => exact ⟨rfl, .nil⟩
  | cons hx _ ih =>
    obtain ⟨h1, h2⟩ := hf k _ _ hx
    simp only [each]
    rw [h1]
    obtain ⟨h3, h4⟩ := ih (f k _).1
    exact ⟨h3, List.rel_append h2 h4⟩

variable {u R : ℝ} {fl : ℝ → ℝ}

/-- pairs, triples and quadruples of near nodes -/
def near2 (R ρ : ℝ) (c c' : PNode ℝ × PNode ℝ) : Prop := Near R ρ c.1 c'.1 ∧ Near R ρ c.2 c'.2

def near3 (R ρ : ℝ) (c c' : PNode ℝ × PNode ℝ × PNode ℝ) : Prop := Near R ρ c.1 c'.1 ∧ near2 R ρ c.2 c'.2

def near4 (R ρ : ℝ) (c c' : PNode ℝ × PNode ℝ × PNode ℝ × PNode ℝ) : Prop := Near R ρ c.1 c'.1 ∧ near3 R ρ c.2 c'.2

theorem step_le (hu : 0 ≤ u) {ρ : ℝ} (hρ : 1 ≤ ρ) : ρ ≤ ρ * (1 + u) ^ 4 := by
  have : 1 ≤ (1 + u) ^ 4 := one_le_pow₀ (by linarith)
  nlinarith

theorem pow_step (ρ : ℝ) (n : Nat) : ρ * (1 + u) ^ 4 * (1 + u) ^ (4 * (n + 1)) = ρ * (1 + u) ^ (4 * (n + 1 + 1)) := by
  rw [mul_assoc, ← pow_add]
  congr 2
  ring

theorem halves_near (hfl : Rounds u fl) (hu : 0 ≤ u) {ρ : ℝ} (k : Nat) {c c' : PNode ℝ × PNode ℝ} (h : near2 R ρ c c') :
    List.Forall₂ (near2 R (ρ * (1 + u) ^ 4)) (halves k c) (halvesWith (flMidpoint fl) k c') := by
  obtain ⟨h0, h1⟩ := h
  have hs := step_le hu (h0.2 0).one_le
  have m := near_midnode hfl hu k h0 h1
  exact .cons ⟨h0.mono hs, m⟩ (.cons ⟨m, h1.mono hs⟩ .nil)

theorem quarters_near (hfl : Rounds u fl) (hu : 0 ≤ u) {ρ : ℝ} (k : Nat) {c c' : PNode ℝ × PNode ℝ × PNode ℝ} (h : near3 R ρ c c') :
    List.Forall₂ (near3 R (ρ * (1 + u) ^ 4)) (quarters k c) (quartersWith (flMidpoint fl) k c') := by
  obtain ⟨h0, h1, h2⟩ := h
  have hs := step_le hu (h0.2 0).one_le
  have m01 := near_midnode hfl hu k h0 h1
  have m12 := near_midnode hfl hu (k + 1) h1 h2
  have m20 := near_midnode hfl hu (k + 2) h2 h0
  have h0 := h0.mono hs
  have h1 := h1.mono hs
  have h2 := h2.mono hs
  exact .cons ⟨h0, m01, m20⟩ (.cons ⟨m01, h1, m12⟩ (.cons ⟨m12, h2, m20⟩ (.cons ⟨m20, m01, m12⟩ .nil)))

theorem eighths_near (hfl : Rounds u fl) (hu : 0 ≤ u) {ρ : ℝ} (k : Nat) {c c' : PNode ℝ × PNode ℝ × PNode ℝ × PNode ℝ} (h : near4 R ρ c c') :
    List.Forall₂ (near4 R (ρ * (1 + u) ^ 4)) (eighths k c) (eighthsWith (flMidpoint fl) k c') ∧
      List.Forall₂ (near4 R (ρ * (1 + u) ^ 4)) (eighthsRec k c) (eighthsRecWith (flMidpoint fl) k c') := by
  obtain ⟨h0, h1, h2, h3⟩ := h
  have hs := step_le hu (h0.2 0).one_le
  have m01 := near_midnode hfl hu k h0 h1
  have m02 := near_midnode hfl hu (k + 1) h0 h2
  have m03 := near_midnode hfl hu (k + 2) h0 h3
  have m12 := near_midnode hfl hu (k + 3) h1 h2
  have m13 := near_midnode hfl hu (k + 4) h1 h3
  have m23 := near_midnode hfl hu (k + 5) h2 h3
  have h0 := h0.mono hs
  have h1 := h1.mono hs
  have h2 := h2.mono hs
  have h3 := h3.mono hs
  refine ⟨.cons ⟨h0, m01, m02, m03⟩ (.cons ⟨h1, m01, m13, m12⟩ (.cons ⟨h2, m02, m12, m23⟩ (.cons ⟨h3, m13, m03, m23⟩
    (.cons ⟨m02, m01, m13, m03⟩ (.cons ⟨m02, m03, m13, m23⟩ (.cons ⟨m02, m13, m01, m12⟩ (.cons ⟨m02, m23, m13, m12⟩ .nil))))))), ?_⟩
  exact .cons ⟨h0, m01, m02, m03⟩ (.cons ⟨h1, m01, m13, m12⟩ (.cons ⟨h2, m02, m12, m23⟩ (.cons ⟨m03, h3, m13, m23⟩
    (.cons ⟨m02, m01, m13, m03⟩ (.cons ⟨m02, m03, m13, m23⟩ (.cons ⟨m01, m02, m13, m12⟩ (.cons ⟨m02, m23, m13, m12⟩ .nil)))))))

theorem segment_near (hfl : Rounds u fl) (hu : 0 ≤ u) (n : Nat) {ρ : ℝ} (k : Nat) {c c' : PNode ℝ × PNode ℝ} (h : near2 R ρ c c') :
    NearCells R (ρ * (1 + u) ^ (4 * (n + 1))) (subdivideSegment n k c) (subdivideSegmentWith (flMidpoint fl) n k c') := by
  induction n generalizing ρ k c c' with
  | zero =>
    refine ⟨rfl, ?_⟩
    simp only [subdivideSegment, subdivideSegmentWith]
    rw [List.forall₂_map_left_iff, List.forall₂_map_right_iff]
    exact (halves_near hfl hu k h).imp fun d d' hd => .cons hd.1 (.cons hd.2 .nil)
  | succ n ih =>
    rw [← pow_step]
    exact each_near (rel := near2 R (ρ * (1 + u) ^ 4)) (fun k x x' hx => ih k hx) (halves_near hfl hu k h) (k + 1)

theorem triangle_near (hfl : Rounds u fl) (hu : 0 ≤ u) (n : Nat) {ρ : ℝ} (k : Nat) {c c' : PNode ℝ × PNode ℝ × PNode ℝ} (h : near3 R ρ c c') :
    NearCells R (ρ * (1 + u) ^ (4 * (n + 1))) (subdivideTriangle n k c) (subdivideTriangleWith (flMidpoint fl) n k c') := by
  induction n generalizing ρ k c c' with
  | zero =>
    refine ⟨rfl, ?_⟩
    simp only [subdivideTriangle, subdivideTriangleWith]
    rw [List.forall₂_map_left_iff, List.forall₂_map_right_iff]
    exact (quarters_near hfl hu k h).imp fun d d' hd => .cons hd.1 (.cons hd.2.1 (.cons hd.2.2 .nil))
  | succ n ih =>
    rw [← pow_step]
    exact each_near (rel := near3 R (ρ * (1 + u) ^ 4)) (fun k x x' hx => ih k hx) (quarters_near hfl hu k h) (k + 3)

theorem tetrahedron_near (hfl : Rounds u fl) (hu : 0 ≤ u) (n : Nat) {ρ : ℝ} (k : Nat) {c c' : PNode ℝ × PNode ℝ × PNode ℝ × PNode ℝ}
    (h : near4 R ρ c c') :
    NearCells R (ρ * (1 + u) ^ (4 * (n + 1))) (subdivideTetrahedron n k c) (subdivideTetrahedronWith (flMidpoint fl) n k c') := by
  induction n generalizing ρ k c c' with
  | zero =>
    refine ⟨rfl, ?_⟩
    simp only [subdivideTetrahedron, subdivideTetrahedronWith]
    rw [List.forall₂_map_left_iff, List.forall₂_map_right_iff]
    exact (eighths_near hfl hu k h).1.imp fun d d' hd => .cons hd.1 (.cons hd.2.1 (.cons hd.2.2.1 (.cons hd.2.2.2 .nil)))
  | succ n ih =>
    rw [← pow_step]
    exact each_near (rel := near4 R (ρ * (1 + u) ^ 4)) (fun k x x' hx => ih k hx) (eighths_near hfl hu k h).2 (k + 6)

theorem cell_near (hfl : Rounds u fl) (hu : 0 ≤ u) (n : Nat) {ρ : ℝ} (k : Nat) {c c' : List (PNode ℝ)} (h : List.Forall₂ (Near R ρ) c c') :
    NearCells R (ρ * (1 + u) ^ (4 * (n + 1))) (subdivideCell n k c) (subdivideCellWith (flMidpoint fl) n k c') := by
  rcases h with _ | ⟨h0, _ | ⟨h1, _ | ⟨h2, _ | ⟨h3, _ | ⟨h4, h5⟩⟩⟩⟩⟩
  · exact ⟨rfl, .nil⟩
  · exact ⟨rfl, .nil⟩
  · exact segment_near hfl hu n k ⟨h0, h1⟩
  · exact triangle_near hfl hu n k ⟨h0, h1, h2⟩
  · exact tetrahedron_near hfl hu n k ⟨h0, h1, h2, h3⟩
  · exact ⟨rfl, .nil⟩

end Mito.Refine
