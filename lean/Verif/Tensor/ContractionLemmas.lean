import Verif.Spec.Contraction
import Mathlib.Tactic.Ring
import Mathlib.Tactic.LinearCombination
import Mathlib.Tactic.NormNum
import Mathlib.Tactic.Linarith

/-! # Lemmas on the contraction of forms -/

namespace Mito.Tensor

open Value

variable {d : Nat}

/-- the meaning of a value, with the vectors that are still missing -/
noncomputable def Value.at : Value d → List (Vec d) → ℝ
  | .number r, _ => r
  | .form f, vs => f.meaning vs

/-- the number of vectors that are still missing -/
def Value.missing : Value d → Nat
  | .number _ => 0
  | .form f => f.arity

def Value.Good : Value d → Prop
  | .number _ => True
  | .form f => f.WellTyped

theorem arity_pos (F : Tree d) : 0 < F.arity := by
  induction F <;> simp_all [Tree.arity]

/-- a call with `n` missing vectors that means `m` -/
def Returns (v : Option (Value d)) (n : Nat) (m : List (Vec d) → ℝ) : Prop :=
  ∃ w, v = some w ∧ w.Good ∧ w.missing = n ∧ ∀ vs, vs.length = n → w.at vs = m vs

theorem Returns.congr {v : Option (Value d)} {n : Nat} {m m' : List (Vec d) → ℝ} (h : Returns v n m) (e : ∀ vs, vs.length = n → m vs = m' vs) : Returns v n m' := by
  obtain ⟨w, h1, h2, h3, h4⟩ := h
  exact ⟨w, h1, h2, h3, fun vs hv => (h4 vs hv).trans (e vs hv)⟩

theorem Returns.add {u v : Option (Value d)} {n : Nat} {m k : List (Vec d) → ℝ} (hu : Returns u n m) (hv : Returns v n k) :
    Returns (add? u v) n fun vs => m vs + k vs := by
  obtain ⟨u, rfl, gu, nu, mu⟩ := hu
  obtain ⟨v, rfl, gv, nv, mv⟩ := hv
  cases u with
  | number r =>
    cases v with
    | number s => exact ⟨.number (r + s), rfl, trivial, nu, fun vs h => by beta_reduce; rw [← mu vs h, ← mv vs h]; rfl⟩
    | form g => have := arity_pos g; simp only [missing] at nu nv; omega
  | form f =>
    cases v with
    | number s => have := arity_pos f; simp only [missing] at nu nv; omega
    | form g =>
      simp only [missing] at nu nv
      have e : g.arity = f.arity := by omega
      refine ⟨.form (.add f g), ?_, ⟨gu, gv, e⟩, nu, fun vs h => ?_⟩
      · simp [add?, Value.add, e]
      · beta_reduce; rw [← mu vs h, ← mv vs h]
        simp [Value.at, Tree.meaning]

theorem Returns.mul_left {v : Option (Value d)} {n : Nat} {r : ℝ} {m k : List (Vec d) → ℝ} {u : Option (Value d)} (hu : Returns u 0 m) (e : m [] = r) (hv : Returns v n k) :
    Returns (mul? u v) n fun vs => r * k vs := by
  obtain ⟨u, rfl, gu, nu, mu⟩ := hu
  obtain ⟨v, rfl, gv, nv, mv⟩ := hv
  cases u with
  | form f => have := arity_pos f; simp only [missing] at nu; omega
  | number s =>
    have : s = r := by rw [← e, ← mu [] rfl]; rfl
    subst this
    cases v with
    | number t => exact ⟨.number (s * t), rfl, trivial, nv, fun vs h => by beta_reduce; rw [← mv vs h]; rfl⟩
    | form g => exact ⟨.form (.scale s g), rfl, gv, nv, fun vs h => by beta_reduce; rw [← mv vs h]; simp [Value.at, Tree.meaning]⟩

theorem Returns.mul_right {v : Option (Value d)} {n : Nat} {r : ℝ} {m k : List (Vec d) → ℝ} {u : Option (Value d)} (hu : Returns u n k) (hv : Returns v 0 m) (e : m [] = r) :
    Returns (mul? u v) n fun vs => k vs * r := by
  obtain ⟨u, rfl, gu, nu, mu⟩ := hu
  obtain ⟨v, rfl, gv, nv, mv⟩ := hv
  cases v with
  | form f => have := arity_pos f; simp only [missing] at nv; omega
  | number s =>
    have : s = r := by rw [← e, ← mv [] rfl]; rfl
    subst this
    cases u with
    | number t => exact ⟨.number (t * s), rfl, trivial, nu, fun vs h => by beta_reduce; rw [← mu vs h]; rfl⟩
    | form g => exact ⟨.form (.scale s g), rfl, gu, nu, fun vs h => by beta_reduce; rw [← mu vs h]; simp [Value.at, Tree.meaning, mul_comm]⟩

theorem Returns.mul_one {u v : Option (Value d)} {m k : List (Vec d) → ℝ} (hu : Returns u 1 m) (hv : Returns v 1 k) :
    Returns (mul? u v) 2 fun vs => m (vs.take 1) * k (vs.drop 1) := by
  obtain ⟨u, rfl, gu, nu, mu⟩ := hu
  obtain ⟨v, rfl, gv, nv, mv⟩ := hv
  cases u with
  | number r => simp [missing] at nu
  | form f =>
    cases v with
    | number s => simp [missing] at nv
    | form g =>
      simp only [missing] at nu nv
      refine ⟨.form (.tensor2 f g), ?_, ⟨⟨gu, nu⟩, gv, nv⟩, rfl, fun vs h => ?_⟩
      · simp [mul?, Value.mul, nu, nv]
      · match vs, h with
        | [x, y], _ =>
          have h1 := mu [x] rfl
          have h2 := mv [y] rfl
          simp only [Value.at] at h1 h2
          simp [Value.at, Tree.meaning, h1, h2]

/-- there is no product of forms with more than two vectors together -/
theorem mul_none {u v : Value d} (h : 2 < u.missing + v.missing) (hu : 0 < u.missing) (hv : 0 < v.missing) : Value.mul u v = none := by
  cases u with
  | number r => simp [missing] at hu
  | form f =>
    cases v with
    | number s => simp [missing] at hv
    | form g =>
      simp only [missing] at h
      simp only [Value.mul]
      rw [if_neg]
      omega

theorem Returns.contracts {F : Tree d} {args : List (Arg d)} {v : Option (Value d)} (h : Returns v (opens args) fun vs => F.meaning (fill args vs)) :
    ∃ w, v = some w ∧ w.Contracts F args := by
  obtain ⟨w, h1, h2, h3, h4⟩ := h
  refine ⟨w, h1, ?_⟩
  cases w with
  | number r => exact ⟨h3.symm, h4 [] h3⟩
  | form f => exact ⟨h2, h3, h3 ▸ arity_pos f, h4⟩

/-- forms of one or two vectors accept everything -/
theorem accepts_small (F : Tree d) (h : F.WellTyped) (h2 : F.arity ≤ 2) (args : List (Arg d)) : F.Accepts args := by
  induction F with
  | one f => trivial
  | tensor2 a b => trivial
  | tensor3 a b c => simp [Tree.arity] at h2
  | add f g hf hg => exact ⟨hf h.1 h2, hg h.2.1 (by rw [h.2.2]; exact h2)⟩
  | scale s f hf => exact hf h h2
  | wedge3 a b c => simp [Tree.arity] at h2
  | wedge12 b a => simp [Tree.arity] at h2

/-- a one-form: what its calls return -/
def One (a : Tree d) : Prop := (∀ v, Returns (a.call [some v]) 0 fun _ => a.meaning [v]) ∧ Returns (a.call [none]) 1 a.meaning

theorem wedgeCall_00 {b c : Tree d} (hb : One b) (hc : One c) (y z : Vec d) :
    Returns (wedgeCall (b.call [some y]) (c.call [some z]) (c.call [some y]) (b.call [some z])) 0
      fun _ => b.meaning [y] * c.meaning [z] - c.meaning [y] * b.meaning [z] :=
  ((Returns.mul_left (hb.1 y) rfl (hc.1 z)).add (Returns.mul_left ⟨.number (-1.0), rfl, trivial, rfl, fun _ _ => rfl⟩ rfl (Returns.mul_left (hc.1 y) rfl (hb.1 z)))).congr
    fun _ _ => by norm_num [Value.at]; ring

theorem wedgeCall_01 {b c : Tree d} (hb : One b) (hc : One c) (y : Vec d) :
    Returns (wedgeCall (b.call [some y]) (c.call [none]) (c.call [some y]) (b.call [none])) 1
      fun vs => b.meaning [y] * c.meaning vs - c.meaning [y] * b.meaning vs :=
  ((Returns.mul_left (hb.1 y) rfl hc.2).add (Returns.mul_left ⟨.number (-1.0), rfl, trivial, rfl, fun _ _ => rfl⟩ rfl (Returns.mul_left (hc.1 y) rfl hb.2))).congr
    fun _ _ => by norm_num [Value.at]; ring

theorem wedgeCall_10 {b c : Tree d} (hb : One b) (hc : One c) (z : Vec d) :
    Returns (wedgeCall (b.call [none]) (c.call [some z]) (c.call [none]) (b.call [some z])) 1
      fun vs => b.meaning vs * c.meaning [z] - c.meaning vs * b.meaning [z] :=
  ((Returns.mul_right hb.2 (hc.1 z) rfl).add (Returns.mul_left ⟨.number (-1.0), rfl, trivial, rfl, fun _ _ => rfl⟩ rfl (Returns.mul_right hc.2 (hb.1 z) rfl))).congr
    fun _ _ => by norm_num [Value.at]; ring

theorem wedgeCall_11 {b c : Tree d} (hb : One b) (hc : One c) :
    Returns (wedgeCall (b.call [none]) (c.call [none]) (c.call [none]) (b.call [none])) 2
      fun vs => b.meaning (vs.take 1) * c.meaning (vs.drop 1) - c.meaning (vs.take 1) * b.meaning (vs.drop 1) :=
  ((Returns.mul_one hb.2 hc.2).add (Returns.mul_left ⟨.number (-1.0), rfl, trivial, rfl, fun _ _ => rfl⟩ rfl (Returns.mul_one hc.2 hb.2))).congr
    fun _ _ => by norm_num [Value.at]; ring

theorem one_of {a : Tree d} (ha : a.WellTyped) (h1 : a.arity = 1)
    (ih : a.WellTyped → ∀ args : List (Arg d), args.length = a.arity → a.Accepts args → Returns (a.call args) (opens args) fun vs => a.meaning (fill args vs)) : One a := by
  have acc := accepts_small a ha (by omega)
  refine ⟨fun v => (ih ha [some v] h1.symm (acc _)).congr fun vs _ => rfl, (ih ha [none] h1.symm (acc _)).congr fun vs hv => ?_⟩
  match vs, hv with
  | [v], _ => rfl

theorem call_returns (F : Tree d) (h : F.WellTyped) (args : List (Arg d)) (hl : args.length = F.arity) (ha : F.Accepts args) :
    Returns (F.call args) (opens args) fun vs => F.meaning (fill args vs) := by
  induction F generalizing args with
  | one f =>
    match args, hl with
    | [some v], _ => exact ⟨_, rfl, trivial, rfl, fun _ _ => rfl⟩
    | [none], _ =>
      refine ⟨_, rfl, trivial, rfl, fun vs hv => ?_⟩
      match vs, hv with
      | [v], _ => rfl
  | add f g hf hg =>
    by_cases e : args = [none]
    · subst e
      refine ⟨.form (.add f g), by simp [Tree.call], h, hl.symm, fun vs hv => ?_⟩
      match vs, hv with
      | [v], _ => rfl
    · have := (hf h.1 args hl ha.1).add (hg h.2.1 args (by rw [h.2.2]; exact hl) ha.2)
      rw [Tree.call, if_neg e]
      exact this.congr fun vs _ => by simp [Tree.meaning]
  | scale s f hf =>
    by_cases e : args = [none]
    · subst e
      refine ⟨.form (.scale s f), by simp [Tree.call], h, hl.symm, fun vs hv => ?_⟩
      match vs, hv with
      | [v], _ => rfl
    · have := Returns.mul_left (r := s) (u := some (.number s)) ⟨.number s, rfl, trivial, rfl, fun _ _ => rfl⟩ rfl (hf h args hl ha)
      rw [Tree.call, if_neg e]
      exact this.congr fun vs _ => by simp [Tree.meaning]
  | tensor2 a b ia ib =>
    have oa := one_of h.1.1 h.1.2 ia
    have ob := one_of h.2.1 h.2.2 ib
    match args, hl with
    | [some x, some y], _ => exact (Returns.mul_left (oa.1 x) rfl (ob.1 y)).congr fun vs hv => by simp [fill, Tree.meaning]
    | [some x, none], _ =>
      refine (Returns.mul_left (oa.1 x) rfl ob.2).congr fun vs hv => ?_
      match vs, hv with
      | [v], _ => simp [fill, Tree.meaning]
    | [none, some y], _ =>
      refine (Returns.mul_right oa.2 (ob.1 y) rfl).congr fun vs hv => ?_
      match vs, hv with
      | [v], _ => simp [fill, Tree.meaning]
    | [none, none], _ =>
      refine (Returns.mul_one oa.2 ob.2).congr fun vs hv => ?_
      match vs, hv with
      | [v, w], _ => simp [fill, Tree.meaning]
  | tensor3 a b c ia ib ic =>
    have oa := one_of h.1.1 h.1.2 ia
    have ob := one_of h.2.1.1 h.2.1.2 ib
    have oc := one_of h.2.2.1 h.2.2.2 ic
    match args, hl with
    | [some x, some y, some z], _ =>
      exact (Returns.mul_left (Returns.mul_left (oa.1 x) rfl (ob.1 y)) rfl (oc.1 z)).congr fun vs hv => by simp [fill, Tree.meaning]
    | [some x, some y, none], _ =>
      refine (Returns.mul_left (Returns.mul_left (oa.1 x) rfl (ob.1 y)) rfl oc.2).congr fun vs hv => ?_
      match vs, hv with
      | [v], _ => simp [fill, Tree.meaning]
    | [some x, none, some z], _ =>
      refine (Returns.mul_right (Returns.mul_left (oa.1 x) rfl ob.2) (oc.1 z) rfl).congr fun vs hv => ?_
      match vs, hv with
      | [v], _ => simp [fill, Tree.meaning]
    | [none, some y, some z], _ =>
      refine (Returns.mul_right (Returns.mul_right oa.2 (ob.1 y) rfl) (oc.1 z) rfl).congr fun vs hv => ?_
      match vs, hv with
      | [v], _ => simp [fill, Tree.meaning]
    | [some x, none, none], _ =>
      refine (Returns.mul_one (Returns.mul_left (oa.1 x) rfl ob.2) oc.2).congr fun vs hv => ?_
      match vs, hv with
      | [v, w], _ => simp [fill, Tree.meaning]
    | [none, some y, none], _ =>
      refine (Returns.mul_one (Returns.mul_right oa.2 (ob.1 y) rfl) oc.2).congr fun vs hv => ?_
      match vs, hv with
      | [v, w], _ => simp [fill, Tree.meaning]
    | [none, none, some z], _ =>
      refine (Returns.mul_right (Returns.mul_one oa.2 ob.2) (oc.1 z) rfl).congr fun vs hv => ?_
      match vs, hv with
      | [v, w], _ => simp [fill, Tree.meaning]
    | [none, none, none], _ => exact absurd rfl ha
  | wedge3 a b c ia ib ic =>
    have oa := one_of h.1.1 h.1.2 ia
    have ob := one_of h.2.1.1 h.2.1.2 ib
    have oc := one_of h.2.2.1 h.2.2.2 ic
    match args, hl with
    | [some x, some y, some z], _ =>
      refine (((Returns.mul_left (oa.1 x) rfl (wedgeCall_00 ob oc y z)).add (Returns.mul_left (ob.1 x) rfl (wedgeCall_00 oc oa y z))).add
        (Returns.mul_left (oc.1 x) rfl (wedgeCall_00 oa ob y z))).congr fun vs hv => ?_
      simp [fill, Tree.meaning, Matrix.det_fin_three]; ring
    | [some x, some y, none], _ =>
      refine (((Returns.mul_left (oa.1 x) rfl (wedgeCall_01 ob oc y)).add (Returns.mul_left (ob.1 x) rfl (wedgeCall_01 oc oa y))).add
        (Returns.mul_left (oc.1 x) rfl (wedgeCall_01 oa ob y))).congr fun vs hv => ?_
      match vs, hv with
      | [v], _ => simp [fill, Tree.meaning, Matrix.det_fin_three]; ring
    | [some x, none, some z], _ =>
      refine (((Returns.mul_left (oa.1 x) rfl (wedgeCall_10 ob oc z)).add (Returns.mul_left (ob.1 x) rfl (wedgeCall_10 oc oa z))).add
        (Returns.mul_left (oc.1 x) rfl (wedgeCall_10 oa ob z))).congr fun vs hv => ?_
      match vs, hv with
      | [v], _ => simp [fill, Tree.meaning, Matrix.det_fin_three]; ring
    | [none, some y, some z], _ =>
      refine (((Returns.mul_right oa.2 (wedgeCall_00 ob oc y z) rfl).add (Returns.mul_right ob.2 (wedgeCall_00 oc oa y z) rfl)).add
        (Returns.mul_right oc.2 (wedgeCall_00 oa ob y z) rfl)).congr fun vs hv => ?_
      match vs, hv with
      | [v], _ => simp [fill, Tree.meaning, Matrix.det_fin_three]; ring
    | [some x, none, none], _ =>
      refine (((Returns.mul_left (oa.1 x) rfl (wedgeCall_11 ob oc)).add (Returns.mul_left (ob.1 x) rfl (wedgeCall_11 oc oa))).add
        (Returns.mul_left (oc.1 x) rfl (wedgeCall_11 oa ob))).congr fun vs hv => ?_
      match vs, hv with
      | [v, w], _ => simp [fill, Tree.meaning, Matrix.det_fin_three]; ring
    | [none, some y, none], _ =>
      refine (((Returns.mul_one oa.2 (wedgeCall_01 ob oc y)).add (Returns.mul_one ob.2 (wedgeCall_01 oc oa y))).add
        (Returns.mul_one oc.2 (wedgeCall_01 oa ob y))).congr fun vs hv => ?_
      match vs, hv with
      | [v, w], _ => simp [fill, Tree.meaning, Matrix.det_fin_three]; ring
    | [none, none, some z], _ =>
      refine (((Returns.mul_one oa.2 (wedgeCall_10 ob oc z)).add (Returns.mul_one ob.2 (wedgeCall_10 oc oa z))).add
        (Returns.mul_one oc.2 (wedgeCall_10 oa ob z))).congr fun vs hv => ?_
      match vs, hv with
      | [v, w], _ => simp [fill, Tree.meaning, Matrix.det_fin_three]; ring
    | [none, none, none], _ => exact absurd rfl ha
  | wedge12 b a ib ia =>
    have ob := one_of h.1.1 h.1.2 ib
    obtain ⟨x, y, z, rfl⟩ := ha
    have sa : ∀ args : List (Arg d), args.length = 2 → Returns (a.call args) (opens args) fun vs => a.meaning (fill args vs) :=
      fun args hl => ia h.2.1 args (by rw [h.2.2]; exact hl) (accepts_small a h.2.1 (by rw [h.2.2]) args)
    have hxy := sa [some x, some y] rfl
    have hyz := sa [some y, z] rfl
    obtain ⟨u, hu, gu, nu, mu⟩ := ob.1 x
    obtain ⟨v, hv, gv, nv, mv⟩ := hxy
    have nv' : v.missing = 0 := nv
    cases u with
    | form f => have := arity_pos f; simp only [missing] at nu; omega
    | number r =>
    cases v with
    | form f => have := arity_pos f; simp only [missing] at nv'; omega
    | number s =>
    have er : r = b.meaning [x] := mu [] rfl
    have es : s = a.meaning [x, y] := mv [] rfl
    have num : ∀ r : ℝ, Returns (d := d) (some (.number r)) 0 fun _ => r := fun r => ⟨.number r, rfl, trivial, rfl, fun _ _ => rfl⟩
    simp only [Tree.call, hu, hv]
    have first := Returns.mul_left (num r) rfl hyz
    cases z with
    | some z =>
      have second := Returns.mul_left (num (sign 1)) rfl (Returns.mul_left (num s) rfl (ob.1 z))
      rw [if_neg (by simp)]
      refine (first.add second).congr fun vs hv => ?_
      simp [fill, Tree.meaning, er, es, sign]
    | none =>
      have second : Returns (mul? (some (.number (sign 1))) (some (.form (.scale s b)))) 1 fun vs => sign 1 * (s * b.meaning vs) :=
        Returns.mul_left (num (sign 1)) rfl ⟨.form (.scale s b), rfl, h.1.1, h.1.2, fun _ _ => by simp [Value.at, Tree.meaning]⟩
      rw [if_pos rfl]
      refine (first.add second).congr fun vs hv => ?_
      match vs, hv with
      | [v], _ => simp [fill, Tree.meaning, er, es, sign]

theorem one_call {a : Tree d} (ha : a.WellTyped) (h1 : a.arity = 1) : One a :=
  one_of ha h1 fun h args hl hA => call_returns a h args hl hA

theorem add?_none (u : Option (Value d)) : add? u none = none := by cases u <;> rfl

theorem mul?_none (u : Option (Value d)) : mul? u none = none := by cases u <;> rfl

theorem Returns.mul_none {u v : Option (Value d)} {n k : Nat} {m l : List (Vec d) → ℝ} (hu : Returns u n m) (hv : Returns v k l) (h : 2 < n + k) (hn : 0 < n) (hk : 0 < k) :
    mul? u v = none := by
  obtain ⟨u, rfl, -, nu, -⟩ := hu
  obtain ⟨v, rfl, -, nv, -⟩ := hv
  exact Tensor.mul_none (by omega) (by omega) (by omega)

/-- the other calls do not compile -/
theorem call_rejected (F : Tree d) (h : F.WellTyped) (args : List (Arg d)) (hl : args.length = F.arity) (ha : ¬ F.Accepts args) : F.call args = none := by
  induction F generalizing args with
  | one f => exact absurd trivial ha
  | tensor2 a b => exact absurd trivial ha
  | add f g hf hg =>
    have e : args ≠ [none] := by
      rintro rfl
      exact ha (accepts_small (.add f g) h (by rw [← hl]; simp) _)
    rw [Tree.call, if_neg e]
    by_cases hA : f.Accepts args
    · rw [hg h.2.1 args (by rw [h.2.2]; exact hl) fun hB => ha ⟨hA, hB⟩, add?_none]
    · rw [hf h.1 args hl hA]
      rfl
  | scale s f hf =>
    have e : args ≠ [none] := by
      rintro rfl
      exact ha (accepts_small (.scale s f) h (by rw [← hl]; simp) _)
    rw [Tree.call, if_neg e, hf h args hl ha, mul?_none]
  | tensor3 a b c =>
    have e : args = [none, none, none] := not_not.mp ha
    subst e
    have oa := one_call h.1.1 h.1.2
    have ob := one_call h.2.1.1 h.2.1.2
    have oc := one_call h.2.2.1 h.2.2.2
    exact Returns.mul_none (Returns.mul_one oa.2 ob.2) oc.2 (by norm_num) (by norm_num) (by norm_num)
  | wedge3 a b c =>
    have e : args = [none, none, none] := not_not.mp ha
    subst e
    have oa := one_call h.1.1 h.1.2
    have ob := one_call h.2.1.1 h.2.1.2
    have oc := one_call h.2.2.1 h.2.2.2
    have : mul? (a.call [none]) (wedgeCall (b.call [none]) (c.call [none]) (c.call [none]) (b.call [none])) = none :=
      Returns.mul_none oa.2 (wedgeCall_11 ob oc) (by norm_num) (by norm_num) (by norm_num)
    rw [Tree.call, this]
    rfl
  | wedge12 b a =>
    have ob := one_call h.1.1 h.1.2
    match args, hl with
    | [none, y, z], _ =>
      obtain ⟨u, hu, -, nu, -⟩ := ob.2
      cases u with
      | number r => simp [missing] at nu
      | form f =>
        simp only [Tree.call, hu]
        rfl
    | [some x, none, z], _ =>
      have hxy := call_returns a h.2.1 [some x, none] (by rw [h.2.2]; rfl) (accepts_small a h.2.1 (by rw [h.2.2]) _)
      obtain ⟨u, hu, -, nu, -⟩ := hxy
      cases u with
      | number r => simp [missing, opens] at nu
      | form f => simp only [Tree.call, hu, mul?_none, add?_none]
    | [some x, some y, z], _ => exact absurd ⟨x, y, z, rfl⟩ ha

end Mito.Tensor
