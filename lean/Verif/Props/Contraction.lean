import Verif.Tensor.ContractionLemmas
import Verif.Props.Forms

/-! # C125: forms called with placeholders -/

namespace Mito.Tensor

variable {d : Nat}

/-- A call with placeholders that compiles returns what it should: the form of the remaining vectors, whose values are those of the original form with the vectors in the places of
the placeholders; or a number if there is no placeholder. -/
theorem contraction_correct (F : Tree d) (h : F.WellTyped) (args : List (Arg d)) (hl : args.length = F.arity) {v : Value d} (hc : F.call args = some v) : v.Contracts F args := by
  by_cases ha : F.Accepts args
  · obtain ⟨w, hw, hC⟩ := (call_returns F h args hl ha).contracts
    rw [hc] at hw
    cases hw
    exact hC
  · rw [call_rejected F h args hl ha] at hc
    cases hc

/-- The calls that compile: everything except three-forms with placeholders only, and the wedge of a one-form and a two-form with one of its first two vectors missing. -/
theorem contraction_compiles_iff (F : Tree d) (h : F.WellTyped) (args : List (Arg d)) (hl : args.length = F.arity) : (F.call args).isSome ↔ F.Accepts args := by
  refine ⟨fun hs => by_contra fun ha => ?_, fun ha => ?_⟩
  · rw [call_rejected F h args hl ha] at hs
    cases hs
  · obtain ⟨w, hw, -⟩ := call_returns F h args hl ha
    rw [hw]
    rfl

/-- One- and two-forms can be called with any arguments. -/
theorem contraction_small (F : Tree d) (h : F.WellTyped) (h2 : F.arity ≤ 2) (args : List (Arg d)) (hl : args.length = F.arity) : ∃ v, F.call args = some v ∧ v.Contracts F args :=
  (call_returns F h args hl (accepts_small F h h2 args)).contracts

/-- With all vectors given the value is that of the form, and it always compiles. -/
theorem call_all (F : Tree d) (h : F.WellTyped) (vs : List (Vec d)) (hl : vs.length = F.arity) : F.call (vs.map some) = some (.number (F.meaning vs)) := by
  have hf : ∀ vs ws : List (Vec d), fill (vs.map some) ws = vs := by
    intro vs ws
    induction vs with
    | nil => rfl
    | cons v vs ih => simp only [List.map_cons, fill, ih]
  have ho : ∀ vs : List (Vec d), opens (vs.map some) = 0 := fun vs => by simp [opens, List.countP_eq_zero]
  have hA : F.Accepts (vs.map some) := by
    induction F with
    | one f => trivial
    | tensor2 a b => trivial
    | add f g hf hg => exact ⟨hf h.1 hl, hg h.2.1 (by rw [h.2.2]; exact hl)⟩
    | scale s f hf => exact hf h hl
    | tensor3 a b c =>
      match vs, hl with
      | [x, y, z], _ => simp [Tree.Accepts]
    | wedge3 a b c =>
      match vs, hl with
      | [x, y, z], _ => simp [Tree.Accepts]
    | wedge12 b a =>
      match vs, hl with
      | [x, y, z], _ => exact ⟨x, y, some z, rfl⟩
  obtain ⟨w, hw, hC⟩ := (call_returns F h (vs.map some) (by simpa using hl) hA).contracts
  cases w with
  | number r => rw [hw, hC.2, hf]
  | form f => exact absurd hC.2.2.1 (by rw [ho]; exact lt_irrefl 0)

/-- The forms of C44 and C45 are these forms called with all vectors. -/
theorem call_forms (a b c : Form1 d) (f : Tree d) (hf : f.WellTyped) (h2 : f.arity = 2) (x y z : Vec d) :
    (Tree.tensor2 (.one a) (.one b)).call [some x, some y] = some (.number (tensor2 a b x y)) ∧
    (Tree.tensor3 (.one a) (.one b) (.one c)).call [some x, some y, some z] = some (.number (tensor3 a b c x y z)) ∧
    (Tree.wedge2 (.one a) (.one b)).call [some x, some y] = some (.number (wedge2 a b x y)) ∧
    (Tree.wedge3 (.one a) (.one b) (.one c)).call [some x, some y, some z] = some (.number (wedge3 a b c x y z)) ∧
    (Tree.wedge12 (.one a) f).call [some x, some y, some z] = some (.number (wedge12 a (fun u v => f.meaning [u, v]) x y z)) := by
  have o : ∀ g : Form1 d, (Tree.one g).WellTyped ∧ (Tree.one g).arity = 1 := fun g => ⟨trivial, rfl⟩
  refine ⟨?_, ?_, ?_, ?_, ?_⟩
  · rw [show [some x, some y] = [x, y].map some from rfl, call_all (.tensor2 (.one a) (.one b)) ⟨o a, o b⟩ _ rfl]
    rfl
  · rw [show [some x, some y, some z] = [x, y, z].map some from rfl, call_all (.tensor3 (.one a) (.one b) (.one c)) ⟨o a, o b, o c⟩ _ rfl]
    rfl
  · rw [show [some x, some y] = [x, y].map some from rfl, call_all (.wedge2 (.one a) (.one b)) ⟨⟨o a, o b⟩, ⟨o b, o a⟩, rfl⟩ _ rfl]
    rfl
  · rw [show [some x, some y, some z] = [x, y, z].map some from rfl, call_all (.wedge3 (.one a) (.one b) (.one c)) ⟨o a, o b, o c⟩ _ rfl]
    congr 2
    simp [Tree.meaning, Matrix.det_fin_three, wedge3, wedge2_eq]
    ring
  · rw [show [some x, some y, some z] = [x, y, z].map some from rfl, call_all (.wedge12 (.one a) f) ⟨o a, hf, h2⟩ _ rfl]
    congr 2
    rw [wedge12_eq]
    rfl

/-- Missing vectors may be given in several steps: what a contraction returns can be contracted again, and the value does not depend on the steps. -/
theorem contraction_steps (F : Tree d) (h : F.WellTyped) (args : List (Arg d)) (hl : args.length = F.arity) {G : Tree d} (hc : F.call args = some (.form G)) (vs : List (Vec d))
    (hv : vs.length = opens args) : G.call (vs.map some) = some (.number (F.meaning (fill args vs))) := by
  obtain ⟨hG, hn, -, hm⟩ := contraction_correct F h args hl hc
  rw [call_all G hG vs (by rw [hv, hn]), hm vs hv]

/-- the tests tests/mito.lib/tensor/contractions.cc:11-78, for all forms and vectors -/
theorem contraction_tests (a b c : Form1 d) (x y z : Vec d) :
    let ab := Tree.tensor2 (.one a) (.one b)
    let w := Tree.wedge3 (.one a) (.one b) (.one c)
    (∃ f, ab.call [some x, none] = some (.form f) ∧ f.call [some y] = ab.call [some x, some y]) ∧
    (∃ f, ab.call [none, some y] = some (.form f) ∧ f.call [some x] = ab.call [some x, some y]) ∧
    (∃ f, w.call [some x, none, none] = some (.form f) ∧ f.call [some y, some z] = w.call [some x, some y, some z]) ∧
    (∃ f, w.call [none, some y, none] = some (.form f) ∧ f.call [some x, some z] = w.call [some x, some y, some z]) ∧
    (∃ f, w.call [none, none, some z] = some (.form f) ∧ f.call [some x, some y] = w.call [some x, some y, some z]) := by
  intro ab w
  have o : ∀ g : Form1 d, (Tree.one g).WellTyped ∧ (Tree.one g).arity = 1 := fun g => ⟨trivial, rfl⟩
  have hab : ab.WellTyped := ⟨o a, o b⟩
  have hw : w.WellTyped := ⟨o a, o b, o c⟩
  have key : ∀ (F : Tree d) (args : List (Arg d)) (vs : List (Vec d)), F.WellTyped → args.length = F.arity → F.Accepts args → vs.length = opens args → 0 < opens args →
      (fill args vs).length = F.arity → ∃ f, F.call args = some (.form f) ∧ f.call (vs.map some) = F.call ((fill args vs).map some) := by
    intro F args vs hF hl hA hv hpos hfl
    obtain ⟨v, hc, hC⟩ := (call_returns F hF args hl hA).contracts
    cases v with
    | number r => exact absurd hC.1 (by omega)
    | form f => exact ⟨f, hc, by rw [contraction_steps F hF args hl hc vs hv, call_all F hF _ hfl]⟩
  refine ⟨?_, ?_, ?_, ?_, ?_⟩
  · exact key ab [some x, none] [y] hab rfl trivial rfl (by simp [opens]) rfl
  · exact key ab [none, some y] [x] hab rfl trivial rfl (by simp [opens]) rfl
  · exact key w [some x, none, none] [y, z] hw rfl (by simp [w, Tree.Accepts]) rfl (by simp [opens]) rfl
  · exact key w [none, some y, none] [x, z] hw rfl (by simp [w, Tree.Accepts]) rfl (by simp [opens]) rfl
  · exact key w [none, none, some z] [x, y] hw rfl (by simp [w, Tree.Accepts]) rfl (by simp [opens]) rfl

/-- Not every contraction compiles: the wedge of a one-form and a two-form cannot be contracted in its last vectors while the first is missing, and the tensor and the wedge product of
three one-forms cannot be called with placeholders only. -/
theorem contraction_fails (a b c : Form1 d) (y z : Vec d) :
    (Tree.wedge12 (.one a) (.wedge2 (.one b) (.one c))).call [none, some y, some z] = none ∧
    (Tree.tensor3 (.one a) (.one b) (.one c)).call [none, none, none] = none ∧ (Tree.wedge3 (.one a) (.one b) (.one c)).call [none, none, none] = none := by
  have o : ∀ g : Form1 d, (Tree.one g).WellTyped ∧ (Tree.one g).arity = 1 := fun g => ⟨trivial, rfl⟩
  refine ⟨call_rejected (.wedge12 (.one a) (.wedge2 (.one b) (.one c))) ⟨o a, ⟨⟨o b, o c⟩, ⟨o c, o b⟩, rfl⟩, rfl⟩ _ rfl ?_,
    call_rejected (.tensor3 (.one a) (.one b) (.one c)) ⟨o a, o b, o c⟩ _ rfl ?_, call_rejected (.wedge3 (.one a) (.one b) (.one c)) ⟨o a, o b, o c⟩ _ rfl ?_⟩
  · rintro ⟨x, y, z, h⟩
    simp at h
  · simp [Tree.Accepts]
  · simp [Tree.Accepts]

/-- Contracting the volume form of three one-forms that are dual to the unit vectors in its first vector gives the flux through the parallelogram of the others. -/
theorem volume_contraction (x y z : Vec 3) :
    ∃ f, (Tree.wedge3 (.one fun v : Vec 3 => v 0) (.one fun v => v 1) (.one fun v => v 2)).call [some x, none, none] = some (.form f) ∧
      f.call [some y, some z] = some (.number (x ⬝ᵥ ![y 1 * z 2 - y 2 * z 1, y 2 * z 0 - y 0 * z 2, y 0 * z 1 - y 1 * z 0])) := by
  obtain ⟨-, -, ⟨f, h1, h2⟩, -, -⟩ := contraction_tests (fun v : Vec 3 => v 0) (fun v => v 1) (fun v => v 2) x y z
  refine ⟨f, h1, h2.trans ?_⟩
  rw [(call_forms (fun v : Vec 3 => v 0) (fun v => v 1) (fun v => v 2) (.tensor2 (.one fun v => v 0) (.one fun v => v 0)) ⟨⟨trivial, rfl⟩, trivial, rfl⟩ rfl x y z).2.2.2.1]
  congr 2
  simp only [wedge3, wedge2_eq, dotProduct, Fin.sum_univ_three, Matrix.cons_val]

/-! ## The hypotheses can be satisfied -/

example (a b c : Form1 3) : (Tree.wedge12 (.one a) (.wedge2 (.one b) (.one c))).WellTyped ∧ (Tree.wedge12 (.one a) (.wedge2 (.one b) (.one c))).arity = 3 :=
  ⟨⟨⟨trivial, rfl⟩, ⟨⟨⟨trivial, rfl⟩, trivial, rfl⟩, ⟨⟨trivial, rfl⟩, trivial, rfl⟩, rfl⟩, rfl⟩, rfl⟩

example (a b c : Form1 3) (x y : Vec 3) : (Tree.wedge12 (.one a) (.wedge2 (.one b) (.one c))).Accepts [some x, some y, none] := ⟨x, y, none, rfl⟩

end Mito.Tensor
