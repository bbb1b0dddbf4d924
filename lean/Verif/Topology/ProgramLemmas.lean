import Verif.Topology.RenamingEraseLemmas
import Verif.Topology.HandlesLemmas
import Verif.Topology.ArrangementLemmas

/-! # Helper lemmas: programs do not depend on the addresses -/

set_option linter.unusedSimpArgs false
set_option linter.unusedVariables false

namespace Mito.Topology

open Combinatorics

variable {φ ω φ' ω' : Nat → Id → Id} {t t' : Topo} {N : Nat}

/-- a renamed operation -/
def renOp (φ ω : Nat → Id → Id) : Op → Op
  | .vertex => .vertex
  | .oriented N f s => .oriented N (φ N f) s
  | .simplex N c => .simplex N (c.map (ω N))
  | .segment a b => .segment (φ 0 a) (φ 0 b)
  | .triangle a b c => .triangle (φ 0 a) (φ 0 b) (φ 0 c)
  | .tetrahedron a b c d => .tetrahedron (φ 0 a) (φ 0 b) (φ 0 c) (φ 0 d)
  | .flip N o => .flip N (ω N o)
  | .hold N o => .hold N (ω N o)
  | .drop N o => .drop N (ω N o)
  | .holdF N f => .holdF N (φ N f)
  | .dropF N f => .dropF N (φ N f)
  | .erase N o => .erase N (ω N o)

/-- the second run of an operation -/
structure StepMatches (φ ω : Nat → Id → Id) (t t1 t' : Topo) (op op' : Op) : Prop where
  iso : ∀ t1', step t' op' = some t1' → ∃ φ' ω', Ext t φ ω φ' ω' ∧ Iso φ' ω' t1 t1' ∧
    result t' op' = (result t op).map (Val.rename φ' ω')
  succeeds : ∀ k, Fresh t' (k + 58) → ∃ t1', step t' op' = some t1' ∧ Fresh t1' k

theorem Fresh.of_lvl {u : Topo} {k : Nat} (h : Fresh t k) (hs : u.supply = t.supply) (hl : u.lvl = t.lvl) :
    Fresh u k := by
  refine ⟨by rw [hs]; exact h.len, by rw [hs]; exact h.nodup, ?_⟩
  rw [hs, hl]; exact h.fresh

theorem keep_some {r : Option (Topo × Id)} {t1 : Topo} (h : keep N r = some t1) :
    ∃ u o, r = some (u, o) ∧ t1 = u.hold N o := by
  cases r with
  | none => simp [keep] at h
  | some p => exact ⟨p.1, p.2, rfl, by simpa [keep] using h.symm⟩

/-- calls that return an oriented simplex -/
theorem keep_matches {n : Nat} (hn : n ≤ 58) {u : Topo} {o : Id} {r r' : Option (Topo × Id)} {op op' : Op}
    (hm : Matches n N φ ω t u o t' r') (ho : o ∈ (u.lvl N).ors) (hr : r = some (u, o))
    (h1 : result t op = r.map fun p => .or N p.2) (h2 : result t' op' = r'.map fun p => .or N p.2)
    (h3 : step t' op' = keep N r') : StepMatches φ ω t (u.hold N o) t' op op' := by
  constructor
  · intro t1' h
    rw [h3] at h
    obtain ⟨u', o', rfl, rfl⟩ := keep_some h
    obtain ⟨_, φ', ω', e, i, rfl⟩ := hm.iso u' o' rfl
    refine ⟨φ', ω', e, i.hold ho, ?_⟩
    rw [h1, h2, hr]
    simp [Val.rename]
  · intro k hk
    obtain ⟨u', o', rfl, fr⟩ := hm.succeeds k (hk.mono (by omega))
    exact ⟨u'.hold N o', by rw [h3]; rfl, fr.of_lvl rfl rfl⟩

theorem step_matches (h : Iso φ ω t t') (hi : Ok t) (hi' : Ok t') {op : Op} {t1 : Topo}
    (h1 : step t op = some t1) : StepMatches φ ω t t1 t' op (renOp φ ω op) := by
  cases op with
  | vertex =>
    simp only [step] at h1
    split at h1
    · simp at h1
    · rename_i u v hv
      simp at h1
      subst h1
      have hvl := (vertex_ok hi hv).2.2.1
      constructor
      · intro t1' h2
        simp only [renOp, step] at h2
        split at h2
        · simp at h2
        · rename_i u' v' hv'
          simp at h2
          subst h2
          obtain ⟨φ', e, i, rfl⟩ := vertex_iso h hi.inv hi'.inv hv hv'
          refine ⟨φ', ω, e, ?_, by simp [renOp, result, hv, hv', Val.rename]⟩
          rw [i.extF 0 v hvl]
          exact i.setExtF hvl _
      · intro k hk
        cases hs : t'.supply with
        | nil => have := hk.len; rw [hs] at this; simp at this
        | cons i rest =>
          have hf := (hk.fresh i (by rw [hs]; simp) 0).1
          have hfr : Fresh t' (k + 1) := hk.mono (by omega)
          have hv' : ∃ u', t'.vertex = some (u', i) ∧ Fresh u' k := by
            refine ⟨_, by simp [Topo.vertex, Topo.emplaceF, hs, hf]; rfl, ?_⟩
            apply hfr.next hs rfl
            · intro M x hx
              by_cases e : M = 0
              · subst e; simp [Topo.setLvl] at hx; tauto
              · left; simpa [Topo.setLvl, e] using hx
            · intro M x hx
              by_cases e : M = 0
              · subst e; left; simpa [Topo.setLvl] using hx
              · left; simpa [Topo.setLvl, e] using hx
          obtain ⟨u', e, fr⟩ := hv'
          exact ⟨u'.setExtF 0 i (u'.extF 0 i + 1), by simp only [renOp, step, e], fr.of_lvl rfl rfl⟩
  | oriented N f s =>
    simp only [step] at h1
    split at h1
    · rename_i hc
      obtain ⟨u, o, hr, rfl⟩ := keep_some h1
      have ho := (orientedF_ok hi hc.1 hc.2 hr).2.2.1
      refine keep_matches (by omega) (orientedF_matches h hi hi' hc.1 hc.2 hr) ho hr ?_ ?_ ?_
      · simp [result, returned, Function.comp_def]
      · simp [renOp, result, returned, Function.comp_def]
      · simp only [renOp, step]; rw [if_pos ⟨h.memF hc.1, hc.2⟩]
    · simp at h1
  | simplex N c =>
    simp only [step] at h1
    split at h1
    · rename_i hc
      obtain ⟨u, o, hr, rfl⟩ := keep_some h1
      have ho := (simplex_spec hi.inv hc.1 hc.2.1 hc.2.2 hr).2.2.1
      refine keep_matches (by omega) (simplex_matches h hi hi' hc.1 hc.2.1 hc.2.2 hr) ho hr ?_ ?_ ?_
      · simp [result, returned, Function.comp_def]
      · simp [renOp, result, returned, Function.comp_def]
      · simp only [renOp, step]
        rw [if_pos]
        refine ⟨?_, by simpa using hc.2.1, hc.2.2.map_on fun x hx y hy e => h.injO N (hc.1 x hx) (hc.1 y hy) e⟩
        intro x hx
        obtain ⟨y, hy, rfl⟩ := List.mem_map.mp hx
        exact h.memO (hc.1 y hy)
    · simp at h1
  | segment a b =>
    simp only [step] at h1
    split at h1
    · rename_i hc
      obtain ⟨u, o, hr, rfl⟩ := keep_some h1
      have ho := (segment_ok hi hc.1 hc.2 hr).2.2.1
      refine keep_matches (by omega) (segment_matches h hi hi' hc.1 hc.2 hr) ho hr ?_ ?_ ?_
      · simp [result, returned, Function.comp_def]
      · simp [renOp, result, returned, Function.comp_def]
      · simp only [renOp, step]; rw [if_pos ⟨h.memF hc.1, h.memF hc.2⟩]
    · simp at h1
  | triangle a b c =>
    simp only [step] at h1
    split at h1
    · rename_i hc
      obtain ⟨u, o, hr, rfl⟩ := keep_some h1
      have ho := (triangle_ok hi hc.1 hc.2.1 hc.2.2 hr).2.2.1
      refine keep_matches (by omega) (triangle_matches h hi hi' hc.1 hc.2.1 hc.2.2 hr) ho hr ?_ ?_ ?_
      · simp [result, returned, Function.comp_def]
      · simp [renOp, result, returned, Function.comp_def]
      · simp only [renOp, step]; rw [if_pos ⟨h.memF hc.1, h.memF hc.2.1, h.memF hc.2.2⟩]
    · simp at h1
  | tetrahedron a b c d =>
    simp only [step] at h1
    split at h1
    · rename_i hc
      obtain ⟨u, o, hr, rfl⟩ := keep_some h1
      have ho := (tetrahedron_ok hi hc.1 hc.2.1 hc.2.2.1 hc.2.2.2 hr).2.2
      refine keep_matches le_rfl (tetrahedron_matches h hi hi' hc.1 hc.2.1 hc.2.2.1 hc.2.2.2 hr) ho hr ?_ ?_ ?_
      · simp [result, returned, Function.comp_def]
      · simp [renOp, result, returned, Function.comp_def]
      · simp only [renOp, step]
        rw [if_pos ⟨h.memF hc.1, h.memF hc.2.1, h.memF hc.2.2.1, h.memF hc.2.2.2⟩]
    · simp at h1
  | flip N o =>
    simp only [step] at h1
    split at h1
    · rename_i hc
      obtain ⟨u, o', hr, rfl⟩ := keep_some h1
      have hsg : -t.sg N o = 1 ∨ -t.sg N o = -1 := by have := hi.inv.sg N o hc; omega
      have hf := hi.inv.fp_live N o hc
      have ho := (orientedF_ok hi hf hsg hr).2.2.1
      have he : t'.flip N (ω N o) = t'.orientedF N (φ N (t.fp N o)) (-t.sg N o) := by
        unfold Topo.flip
        rw [h.fp N o hc, h.sg N o hc]
      refine keep_matches (r' := t'.flip N (ω N o)) (by omega : 1 ≤ 58) ?_ ho hr ?_ ?_ ?_
      · rw [he]; exact orientedF_matches h hi hi' hf hsg hr
      · simp [result, returned, Function.comp_def]
      · simp [renOp, result, returned, Function.comp_def]
      · simp only [renOp, step]; rw [if_pos (h.memO hc)]
    · simp at h1
  | hold N o =>
    simp only [step] at h1
    split at h1
    · rename_i hc
      simp at h1; subst h1
      have ho := live_of_refs hi.inv hc
      have hst : step t' (renOp φ ω (.hold N o)) = some (t'.hold N (ω N o)) := by
        simp only [renOp, step]; rw [if_pos]; rw [h.refs hi.inv ho]; exact hc
      refine ⟨fun t1' h2 => ?_, fun k hk => ⟨_, hst, (hk.mono (by omega)).of_lvl rfl rfl⟩⟩
      rw [hst] at h2; simp at h2; subst h2
      exact ⟨φ, ω, Ext.refl _ _ _, h.hold ho, rfl⟩
    · simp at h1
  | drop N o =>
    simp only [step] at h1
    split at h1
    · rename_i hc
      simp at h1; subst h1
      have ho := hi.inv.ext_live N o hc
      have hst : step t' (renOp φ ω (.drop N o)) = some (t'.drop N (ω N o)) := by
        simp only [renOp, step]; rw [if_pos]; rw [h.ext N o ho]; exact hc
      refine ⟨fun t1' h2 => ?_, fun k hk => ⟨_, hst, (hk.mono (by omega)).of_lvl rfl rfl⟩⟩
      rw [hst] at h2; simp at h2; subst h2
      exact ⟨φ, ω, Ext.refl _ _ _, h.drop ho, rfl⟩
    · simp at h1
  | holdF N f =>
    simp only [step] at h1
    split at h1
    · rename_i hc
      simp at h1; subst h1
      have hf := live_of_refsF hi.inv hc
      have hst : step t' (renOp φ ω (.holdF N f)) = some (t'.setExtF N (φ N f) (t.extF N f + 1)) := by
        simp only [renOp, step]; rw [if_pos, h.extF N f hf]; rw [h.refsF hi.inv hf]; exact hc
      refine ⟨fun t1' h2 => ?_, fun k hk => ⟨_, hst, (hk.mono (by omega)).of_lvl rfl rfl⟩⟩
      rw [hst] at h2; simp at h2; subst h2
      exact ⟨φ, ω, Ext.refl _ _ _, h.setExtF hf _, rfl⟩
    · simp at h1
  | dropF N f =>
    simp only [step] at h1
    split at h1
    · rename_i hc
      simp at h1; subst h1
      have hf := hi.inv.extF_live N f hc
      have hst : step t' (renOp φ ω (.dropF N f)) = some (t'.setExtF N (φ N f) (t.extF N f - 1)) := by
        simp only [renOp, step]; rw [if_pos, h.extF N f hf]; rw [h.extF N f hf]; exact hc
      refine ⟨fun t1' h2 => ?_, fun k hk => ⟨_, hst, (hk.mono (by omega)).of_lvl rfl rfl⟩⟩
      rw [hst] at h2; simp at h2; subst h2
      exact ⟨φ, ω, Ext.refl _ _ _, h.setExtF hf _, rfl⟩
    · simp at h1
  | erase N o =>
    simp only [step] at h1
    split at h1
    · rename_i hc
      simp at h1; subst h1
      have ho := hi.inv.ext_live N o hc
      have hc' : 0 < t'.ext N (ω N o) := by rw [h.ext N o ho]; exact hc
      have hst : step t' (renOp φ ω (.erase N o)) = some (Topo.erase N t' (ω N o)).1 := by
        simp only [renOp, step]; rw [if_pos hc']
      constructor
      · intro t1' h2
        rw [hst] at h2; simp at h2; subst h2
        exact ⟨φ, ω, Ext.refl _ _ _, (erase_iso N t t' o hi.inv hi'.inv h hc).1, rfl⟩
      · intro k hk
        have hs := (erase_spec N t' (ω N o) hi'.inv hc').shr
        have hk : Fresh t' k := hk.mono (by omega)
        refine ⟨_, hst, by rw [hs.supply]; exact hk.len, by rw [hs.supply]; exact hk.nodup, ?_⟩
        rw [hs.supply]
        intro i hi2 M
        have := hk.fresh i hi2 M
        exact ⟨fun hm => this.1 (hs.fps M hm), fun hm => this.2 (hs.ors M hm)⟩
    · simp at h1

/-! ### variables -/

/-- the variables are handles that are counted -/
structure Good (σ : Machine) : Prop where
  ok : Ok σ.topo
  or : ∀ N o, σ.env.count (some (.or N o)) ≤ σ.topo.ext N o
  fp : ∀ N f, σ.env.count (some (.fp N f)) ≤ σ.topo.extF N f

theorem look_mem {env : Env} {v : Nat} {x : Val} (h : look env v = some x) : some x ∈ env := by
  unfold look at h
  cases e : env[v]? with
  | none => simp [e] at h
  | some y =>
    simp [e] at h
    subst h
    exact List.mem_of_getElem? e

theorem look_get {env : Env} {v : Nat} {x : Val} (h : look env v = some x) : env[v]? = some (some x) := by
  unfold look at h
  cases e : env[v]? with
  | none => simp [e] at h
  | some y => simp [e] at h; rw [h]

theorem Good.extO {σ : Machine} (h : Good σ) {v N : Nat} {o : Id} (hv : look σ.env v = some (.or N o)) :
    0 < σ.topo.ext N o :=
  lt_of_lt_of_le (List.count_pos_iff.mpr (look_mem hv)) (h.or N o)

theorem Good.liveO {σ : Machine} (h : Good σ) {v N : Nat} {o : Id} (hv : look σ.env v = some (.or N o)) :
    o ∈ (σ.topo.lvl N).ors := h.ok.inv.ext_live N o (h.extO hv)

theorem Good.liveF {σ : Machine} (h : Good σ) {v N : Nat} {f : Id} (hv : look σ.env v = some (.fp N f)) :
    f ∈ (σ.topo.lvl N).fps :=
  h.ok.inv.extF_live N f (lt_of_lt_of_le (List.count_pos_iff.mpr (look_mem hv)) (h.fp N f))

theorem lookO_iff {env : Env} {v N : Nat} {o : Id} : lookO env v = some (N, o) ↔ look env v = some (.or N o) := by
  unfold lookO
  split
  · rename_i M x e
    rw [e]; simp
  · rename_i h
    constructor
    · intro hh; simp at hh
    · intro hh; exact absurd hh (h N o)

theorem lookV_iff {env : Env} {v : Nat} {f : Id} : lookV env v = some f ↔ look env v = some (.fp 0 f) := by
  unfold lookV
  split
  · rename_i x e
    rw [e]; simp
  · rename_i h
    constructor
    · intro hh; simp at hh
    · intro hh; exact absurd hh (h f)

theorem look_rename (φ ω : Nat → Id → Id) (env : Env) (v : Nat) :
    look (rename φ ω env) v = (look env v).map (Val.rename φ ω) := by
  unfold look rename
  rw [List.getElem?_map]
  cases env[v]? with
  | none => rfl
  | some x => cases x <;> rfl

theorem lookO_rename (φ ω : Nat → Id → Id) (env : Env) (v : Nat) :
    lookO (rename φ ω env) v = (lookO env v).map fun p => (p.1, ω p.1 p.2) := by
  unfold lookO
  rw [look_rename]
  cases look env v with
  | none => rfl
  | some x => cases x <;> rfl

theorem lookV_rename (φ ω : Nat → Id → Id) (env : Env) (v : Nat) :
    lookV (rename φ ω env) v = (lookV env v).map (φ 0) := by
  unfold lookV
  rw [look_rename]
  cases look env v with
  | none => rfl
  | some x =>
    cases x with
    | or N o => rfl
    | fp N f => cases N <;> rfl

theorem mapM_lookO_rename (φ ω : Nat → Id → Id) (env : Env) (vs : List Nat) :
    vs.mapM (lookO (rename φ ω env)) = (vs.mapM (lookO env)).map (List.map fun p => (p.1, ω p.1 p.2)) := by
  induction vs with
  | nil => rfl
  | cons v vs ih =>
    rw [List.mapM_cons, List.mapM_cons, ih, lookO_rename]
    cases lookO env v with
    | none => rfl
    | some p =>
      cases List.mapM (lookO env) vs <;> rfl

theorem lookC_rename (φ ω : Nat → Id → Id) (env : Env) (vs : List Nat) :
    lookC (rename φ ω env) vs = (lookC env vs).map fun p => (p.1, p.2.map (ω p.1)) := by
  unfold lookC
  rw [mapM_lookO_rename]
  cases List.mapM (lookO env) vs with
  | none => rfl
  | some l =>
    cases l with
    | nil => rfl
    | cons p l =>
      simp only [Option.map_some, List.map_cons]
      by_cases e : ∀ q ∈ l, q.1 = p.1
      · rw [if_pos (by
          intro q hq
          obtain ⟨r, hr, rfl⟩ := List.mem_map.mp hq
          exact e r hr), if_pos e]
        simp only [Option.map_some, List.map_cons, List.map_map]
        congr 3
        apply List.map_congr_left
        intro q hq
        simp [e q hq]
      · rw [if_neg fun hh => e fun q hq => hh (q.1, ω q.1 q.2) (List.mem_map.mpr ⟨q, hq, rfl⟩), if_neg e]; rfl

theorem mapM_mem {α β : Type*} {g : α → Option β} {vs : List α} {l : List β} (h : vs.mapM g = some l) :
    ∀ y ∈ l, ∃ v ∈ vs, g v = some y := by
  induction vs generalizing l with
  | nil => simp at h; subst h; simp
  | cons v vs ih =>
    rw [List.mapM_cons] at h
    cases e : g v with
    | none => simp [e] at h
    | some x =>
      cases e' : List.mapM g vs with
      | none => simp [e, e'] at h
      | some l' =>
        simp [e, e'] at h
        subst h
        intro y hy
        rcases List.mem_cons.mp hy with rfl | hy
        · exact ⟨v, by simp, e⟩
        · obtain ⟨w, hw, e2⟩ := ih e' y hy
          exact ⟨w, by simp [hw], e2⟩

theorem Good.liveC {σ : Machine} (h : Good σ) {vs : List Nat} {N : Nat} {c : List Id}
    (hc : lookC σ.env vs = some (N, c)) : ∀ x ∈ c, x ∈ (σ.topo.lvl N).ors := by
  unfold lookC at hc
  split at hc
  · rename_i p l hl
    split at hc
    · rename_i he
      simp only [Option.some.injEq, Prod.mk.injEq] at hc
      obtain ⟨rfl, rfl⟩ := hc
      intro x hx
      obtain ⟨q, hq, rfl⟩ := List.mem_map.mp hx
      obtain ⟨v, _, hv⟩ := mapM_mem hl q hq
      have hq1 : q.1 = p.1 := by
        rcases List.mem_cons.mp hq with rfl | hq
        · rfl
        · exact he q hq
      rw [← hq1]
      exact h.liveO (lookO_iff.mp hv)
    · simp at hc
  · simp at hc

theorem rename_congr {σ : Machine} (hg : Good σ) (he : Ext σ.topo φ ω φ' ω') :
    rename φ' ω' σ.env = rename φ ω σ.env := by
  unfold rename
  apply List.map_congr_left
  intro x hx
  cases x with
  | none => rfl
  | some y =>
    cases y with
    | fp N f =>
      have : f ∈ (σ.topo.lvl N).fps :=
        hg.ok.inv.extF_live N f (lt_of_lt_of_le (List.count_pos_iff.mpr hx) (hg.fp N f))
      simp [Val.rename, he.f N f this]
    | or N o =>
      have : o ∈ (σ.topo.lvl N).ors :=
        hg.ok.inv.ext_live N o (lt_of_lt_of_le (List.count_pos_iff.mpr hx) (hg.or N o))
      simp [Val.rename, he.o N o this]

/-! ### calls -/

theorem op_rename {σ : Machine} (hg : Good σ) (h : Iso φ ω σ.topo t') (c : Cmd) :
    c.op t' (rename φ ω σ.env) = (c.op σ.topo σ.env).map (renOp φ ω) := by
  cases c with
  | vertex => rfl
  | oriented v s =>
    simp only [Cmd.op]
    rw [look_rename]
    cases look σ.env v with
    | none => rfl
    | some x => cases x <;> rfl
  | simplex vs =>
    simp only [Cmd.op]
    rw [lookC_rename]
    cases lookC σ.env vs <;> rfl
  | segment a b =>
    simp only [Cmd.op]
    rw [lookV_rename, lookV_rename]
    cases lookV σ.env a <;> cases lookV σ.env b <;> rfl
  | triangle a b c =>
    simp only [Cmd.op]
    rw [lookV_rename, lookV_rename, lookV_rename]
    cases lookV σ.env a <;> cases lookV σ.env b <;> cases lookV σ.env c <;> rfl
  | tetrahedron a b c d =>
    simp only [Cmd.op]
    rw [lookV_rename, lookV_rename, lookV_rename, lookV_rename]
    cases lookV σ.env a <;> cases lookV σ.env b <;> cases lookV σ.env c <;> cases lookV σ.env d <;> rfl
  | flip v =>
    simp only [Cmd.op]
    rw [lookO_rename]
    cases lookO σ.env v <;> rfl
  | copy v =>
    simp only [Cmd.op]
    rw [look_rename]
    cases look σ.env v with
    | none => rfl
    | some x => cases x <;> rfl
  | footprint v =>
    simp only [Cmd.op]
    rw [lookO_rename]
    cases e : lookO σ.env v with
    | none => rfl
    | some p =>
      have := h.fp p.1 p.2 (hg.liveO (lookO_iff.mp e))
      simp [renOp, this]
  | sub v i =>
    simp only [Cmd.op]
    rw [lookO_rename]
    cases e : lookO σ.env v with
    | none => rfl
    | some p =>
      obtain ⟨M, o⟩ := p
      cases M with
      | zero => rfl
      | succ M =>
        have hol := hg.liveO (lookO_iff.mp e)
        simp only [Option.map_some]
        rw [h.composition hg.ok.inv hol, List.getElem?_map]
        cases (σ.topo.composition (M + 1) o)[i]? <;> rfl
  | drop v =>
    simp only [Cmd.op]
    rw [look_rename]
    cases look σ.env v with
    | none => rfl
    | some x => cases x <;> rfl
  | erase v =>
    simp only [Cmd.op]
    rw [lookO_rename]
    cases lookO σ.env v <;> rfl

theorem left_rename {σ : Machine} (hg : Good σ) (hi' : Ok t') (h : Iso φ ω σ.topo t') (c : Cmd) :
    c.left t' (rename φ ω σ.env) = rename φ ω (c.left σ.topo σ.env) := by
  have hset : ∀ v, (rename φ ω σ.env).set v none = rename φ ω (σ.env.set v none) := by
    intro v
    unfold rename
    rw [List.map_set]; rfl
  cases c with
  | drop v => exact hset v
  | erase v =>
    simp only [Cmd.left]
    rw [lookO_rename]
    cases e : lookO σ.env v with
    | none => rfl
    | some p =>
      have := (erase_iso p.1 σ.topo t' p.2 hg.ok.inv hi'.inv h (hg.extO (lookO_iff.mp e))).2
      simp only [Option.map_some]
      rw [this, hset]
      split <;> rfl
  | _ => rfl

theorem idle_rename (φ ω : Nat → Id → Id) (env : Env) (c : Cmd) : c.idle (rename φ ω env) = c.idle env := by
  cases c with
  | erase v =>
    simp only [Cmd.idle, rename]
    rw [List.getElem?_map]
    cases env[v]? with
    | none => rfl
    | some x => cases x <;> rfl
  | _ => rfl

theorem count_append_result (env : Env) (r : Option Val) (x : Val) :
    (env ++ r.toList.map some).count (some x) = env.count (some x) + if r = some x then 1 else 0 := by
  rw [List.count_append]
  congr 1
  cases r with
  | none => simp
  | some y =>
    by_cases e : y = x
    · simp [e]
    · simp [e]

theorem count_set_none {env : Env} {v : Nat} {x : Val} (h : env[v]? = some (some x)) (y : Val) :
    (env.set v none).count (some y) + (if x = y then 1 else 0) = env.count (some y) := by
  induction env generalizing v with
  | nil => simp at h
  | cons z env ih =>
    cases v with
    | zero =>
      simp at h
      subst h
      simp only [List.set_cons_zero, List.count_cons]
      by_cases e : x = y
      · simp [e]
      · simp [e]
    | succ v =>
      simp at h
      have := ih h
      simp only [List.set_cons_succ, List.count_cons]
      omega

theorem left_of_op {c : Cmd} {env : Env} {op : Op} (h : c.op t env = some op)
    (h1 : ∀ N o, op ≠ .drop N o) (h2 : ∀ N f, op ≠ .dropF N f) (h3 : ∀ N o, op ≠ .erase N o) :
    c.left t env = env := by
  cases c with
  | drop v =>
    simp only [Cmd.op] at h
    split at h
    · simp at h; exact absurd h.symm (h2 _ _)
    · simp at h; exact absurd h.symm (h1 _ _)
    · simp at h
  | erase v =>
    simp only [Cmd.op] at h
    split at h
    · simp at h; exact absurd h.symm (h3 _ _)
    · simp at h
  | _ => rfl

/-- where an operation that gives up a handle comes from -/
theorem op_cases {c : Cmd} {env : Env} {op : Op} (h : c.op t env = some op) :
    (∃ v N o, c = .drop v ∧ look env v = some (.or N o) ∧ op = .drop N o) ∨
    (∃ v N f, c = .drop v ∧ look env v = some (.fp N f) ∧ op = .dropF N f) ∨
    (∃ v N o, c = .erase v ∧ look env v = some (.or N o) ∧ op = .erase N o) ∨
    ((∀ N o, op ≠ .drop N o) ∧ (∀ N f, op ≠ .dropF N f) ∧ ∀ N o, op ≠ .erase N o) := by
  cases c with
  | drop v =>
    simp only [Cmd.op] at h
    split at h
    · rename_i N f e
      simp at h; exact Or.inr (Or.inl ⟨v, N, f, rfl, e, h.symm⟩)
    · rename_i N o e
      simp at h; exact Or.inl ⟨v, N, o, rfl, e, h.symm⟩
    · simp at h
  | erase v =>
    simp only [Cmd.op] at h
    split at h
    · rename_i N o e
      simp at h; exact Or.inr (Or.inr (Or.inl ⟨v, N, o, rfl, lookO_iff.mp e, h.symm⟩))
    · simp at h
  | vertex => simp [Cmd.op] at h; subst h; simp
  | _ =>
    refine Or.inr (Or.inr (Or.inr ?_))
    simp only [Cmd.op] at h
    repeat' split at h
    all_goals first
      | (simp at h; done)
      | (simp at h; subst h; simp)

theorem result_or (t : Topo) (op : Op) (M : Nat) (x : Id) : result t op ≠ some (.or M x) ∨
    returned t op = some (M, x) ∨ op = .hold M x := by
  by_cases h : result t op = some (.or M x)
  · right
    cases op with
    | vertex =>
      simp only [result] at h
      cases e : t.vertex <;> simp [e] at h
    | hold K y => simp [result] at h; simp [h]
    | holdF K y => simp [result] at h
    | _ =>
      left
      simp only [result, Option.map_eq_some_iff] at h
      obtain ⟨p, hp, e⟩ := h
      simp only [Val.or.injEq] at e
      rw [hp, ← e.1, ← e.2]
  · exact Or.inl h

theorem result_fp (t : Topo) (op : Op) (M : Nat) (x : Id) : result t op ≠ some (.fp M x) ∨
    op = .holdF M x ∨ (op = .vertex ∧ M = 0 ∧ t.vertex.map Prod.snd = some x) := by
  by_cases h : result t op = some (.fp M x)
  · right
    cases op with
    | vertex =>
      simp only [result] at h
      cases e : t.vertex with
      | none => simp [e] at h
      | some p => simp [e] at h; simp [h]
    | hold K y => simp [result] at h
    | holdF K y => simp [result] at h; simp [h]
    | _ =>
      simp only [result, Option.map_eq_some_iff] at h
      obtain ⟨p, hp, e⟩ := h
      simp at e
  · exact Or.inl h

theorem exec_good {σ σ1 : Machine} (hg : Good σ) {c : Cmd} (h : exec σ c = some σ1) : Good σ1 := by
  unfold exec at h
  split at h
  · split at h
    · simp at h; subst h; exact hg
    · simp at h
  · rename_i op hop
    split at h
    · simp at h
    · rename_i t1 ht1
      simp at h
      subst h
      have hok := step_ok hg.ok ht1
      rcases op_cases hop with ⟨v, N, o, rfl, hv, rfl⟩ | ⟨v, N, f, rfl, hv, rfl⟩ | ⟨v, N, o, rfl, hv, rfl⟩ | hn
      · -- drop
        simp only [step] at ht1
        split at ht1
        · simp at ht1
          subst ht1
          refine ⟨hok, fun M x => ?_, fun M x => ?_⟩
          · simp only [Cmd.left, result, returned, Option.map_none, Option.toList_none, List.map_nil,
              List.append_nil]
            have h1 := count_set_none (look_get hv) (.or M x)
            have h2 := hg.or M x
            rw [drop_ext]
            by_cases e : M = N ∧ x = o
            · obtain ⟨rfl, rfl⟩ := e; simp at h1 ⊢; omega
            · have : ¬ (Val.or N o = Val.or M x) := by
                simp only [Val.or.injEq, not_and]; intro a b; exact e ⟨a.symm, b.symm⟩
              rw [if_neg this] at h1; rw [if_neg e]; omega
          · simp only [Cmd.left, result, returned, Option.map_none, Option.toList_none, List.map_nil,
              List.append_nil]
            have h1 := count_set_none (look_get hv) (.fp M x)
            have h2 := hg.fp M x
            simp at h1
            show _ ≤ σ.topo.extF M x
            omega
        · simp at ht1
      · -- drop a footprint
        simp only [step] at ht1
        split at ht1
        · simp at ht1
          subst ht1
          refine ⟨hok, fun M x => ?_, fun M x => ?_⟩
          · simp only [Cmd.left, result, returned, Option.map_none, Option.toList_none, List.map_nil,
              List.append_nil]
            have h1 := count_set_none (look_get hv) (.or M x)
            have h2 := hg.or M x
            simp at h1
            show _ ≤ σ.topo.ext M x
            omega
          · simp only [Cmd.left, result, returned, Option.map_none, Option.toList_none, List.map_nil,
              List.append_nil]
            have h1 := count_set_none (look_get hv) (.fp M x)
            have h2 := hg.fp M x
            rw [setExtF_extF]
            by_cases e : M = N ∧ x = f
            · obtain ⟨rfl, rfl⟩ := e; simp at h1 ⊢; omega
            · have : ¬ (Val.fp N f = Val.fp M x) := by
                simp only [Val.fp.injEq, not_and]; intro a b; exact e ⟨a.symm, b.symm⟩
              rw [if_neg this] at h1; rw [if_neg e]; omega
        · simp at ht1
      · -- erase
        simp only [step] at ht1
        split at ht1
        · rename_i hpos
          simp at ht1
          subst ht1
          have hs := erase_spec N σ.topo o hg.ok.inv hpos
          have hext : ∀ M x, (Topo.erase N σ.topo o).1.ext M x =
              if (Topo.erase N σ.topo o).2 = true ∧ M = N ∧ x = o then σ.topo.ext M x - 1 else σ.topo.ext M x := by
            intro M x
            by_cases e : M = N
            · subst e; rw [hs.ext]; simp
            · rw [hs.shr.ext_ne M e]; simp [e]
          refine ⟨hok, fun M x => ?_, fun M x => ?_⟩
          · simp only [Cmd.left, lookO_iff.mpr hv, result, returned, Option.map_none, Option.toList_none,
              List.map_nil, List.append_nil]
            rw [hext]
            have h1 := count_set_none (look_get hv) (.or M x)
            have h2 := hg.or M x
            by_cases eb : (Topo.erase N σ.topo o).2 = true
            · rw [if_pos eb]
              by_cases e : M = N ∧ x = o
              · obtain ⟨rfl, rfl⟩ := e; simp [eb] at h1 ⊢; omega
              · have : ¬ (Val.or N o = Val.or M x) := by
                  simp only [Val.or.injEq, not_and]; intro a b; exact e ⟨a.symm, b.symm⟩
                rw [if_neg this] at h1; rw [if_neg fun hh => e hh.2]; omega
            · rw [if_neg eb, if_neg fun hh => eb hh.1]; exact h2
          · simp only [Cmd.left, lookO_iff.mpr hv, result, returned, Option.map_none, Option.toList_none,
              List.map_nil, List.append_nil]
            rw [hs.shr.extF]
            have h1 := count_set_none (look_get hv) (.fp M x)
            have h2 := hg.fp M x
            simp at h1
            split <;> omega
        · simp at ht1
      · -- everything else
        obtain ⟨n1, n2, n3⟩ := hn
        rw [left_of_op hop n1 n2 n3]
        obtain ⟨u, _, _, e1, e2⟩ := step_le hg.ok op n3 ht1
        refine ⟨hok, fun M x => ?_, fun M x => ?_⟩
        · rw [count_append_result]
          have h1 := e1 M x
          have h2 := hg.or M x
          have hz : givesUp σ.topo M x op = 0 := by
            cases op <;> first | rfl | exact absurd rfl (n1 _ _) | exact absurd rfl (n3 _ _)
          have h3 : (if result σ.topo op = some (.or M x) then 1 else 0) ≤
              (if returned σ.topo op = some (M, x) then 1 else 0) + (if op = .hold M x then 1 else 0) := by
            rcases result_or σ.topo op M x with hh | hh | hh
            · rw [if_neg hh]; omega
            · rw [if_pos hh]; split <;> omega
            · subst hh; simp; split <;> omega
          show _ ≤ t1.ext M x
          omega
        · rw [count_append_result]
          have h1 := e2 M x
          have h2 := hg.fp M x
          have hz : givesUpF M x op = false := by
            cases op <;> first | rfl | exact absurd rfl (n2 _ _)
          rw [hz] at h1
          simp only [Bool.false_eq_true, if_false] at h1
          have h3 : (if result σ.topo op = some (.fp M x) then 1 else 0) ≤
              (if op = .holdF M x then 1 else 0) +
              (if op = .vertex ∧ M = 0 ∧ σ.topo.vertex.map Prod.snd = some x then 1 else 0) := by
            rcases result_fp σ.topo op M x with hh | hh | hh
            · rw [if_neg hh]; omega
            · subst hh; simp; split <;> omega
            · rw [if_pos hh]; split <;> omega
          show _ ≤ t1.extF M x
          omega

/-- the second run of a call -/
theorem exec_matches {σ σ' σ1 : Machine} (hg : Good σ) (hg' : Good σ') (h : SameUpToAddresses σ σ') {c : Cmd}
    (h1 : exec σ c = some σ1) :
    (∀ σ1', exec σ' c = some σ1' → SameUpToAddresses σ1 σ1') ∧
    (∀ k, Fresh σ'.topo (k + 58) → ∃ σ1', exec σ' c = some σ1' ∧ Fresh σ1'.topo k) := by
  obtain ⟨φ, ω, hiso, henv⟩ := h
  have hop := op_rename hg hiso c
  have hleft := left_rename hg hg'.ok hiso c
  unfold exec at h1 ⊢
  rw [henv, hop]
  cases e : c.op σ.topo σ.env with
  | none =>
    rw [e] at h1
    simp only [Option.map_none] at h1 ⊢
    rw [idle_rename]
    split at h1
    · rename_i hid
      simp at h1
      subst h1
      rw [if_pos hid]
      refine ⟨fun σ1' h2 => ?_, fun k hk => ⟨σ', rfl, hk.mono (by omega)⟩⟩
      simp at h2; subst h2
      exact ⟨φ, ω, hiso, henv⟩
    · simp at h1
  | some op =>
    rw [e] at h1
    simp only [Option.map_some] at h1 ⊢
    cases et : step σ.topo op with
    | none => rw [et] at h1; simp at h1
    | some t1 =>
      rw [et] at h1
      simp at h1
      subst h1
      have hm := step_matches hiso hg.ok hg'.ok et
      constructor
      · intro σ1' h2
        cases et' : step σ'.topo (renOp φ ω op) with
        | none => rw [et'] at h2; simp at h2
        | some t1' =>
          rw [et'] at h2
          simp at h2
          subst h2
          obtain ⟨φ', ω', hE, hI, hR⟩ := hm.iso t1' et'
          refine ⟨φ', ω', hI, ?_⟩
          simp only
          rw [hleft, hR]
          have hl : rename φ ω (c.left σ.topo σ.env) = rename φ' ω' (c.left σ.topo σ.env) := by
            have h0 := rename_congr hg hE
            have hset : ∀ v, rename φ ω (σ.env.set v none) = rename φ' ω' (σ.env.set v none) := by
              intro v
              unfold rename at h0 ⊢
              rw [List.map_set, List.map_set, h0]; rfl
            cases c with
            | drop v => exact hset v
            | erase v =>
              simp only [Cmd.left]
              split
              · split
                · exact hset v
                · exact h0.symm
              · exact h0.symm
            | _ => exact h0.symm
          rw [hl]
          unfold rename
          rw [List.map_append]
          congr 1
          cases result σ.topo op <;> rfl
      · intro k hk
        obtain ⟨t1', et', fr⟩ := hm.succeeds k hk
        rw [et']
        exact ⟨_, rfl, fr⟩

/-! ### questions -/

theorem ofBool_beq {a b c d : Id} (h : a = b ↔ c = d) : ofBool (a == b) = ofBool (c == d) := by
  have : (a == b) = (c == d) := by rw [Bool.eq_iff_iff]; simp [h]
  rw [this]

theorem mapM_lookV_rename (env : Env) (vs : List Nat) :
    vs.mapM (lookV (rename φ ω env)) = (vs.mapM (lookV env)).map (List.map (φ 0)) := by
  induction vs with
  | nil => rfl
  | cons v vs ih =>
    rw [List.mapM_cons, List.mapM_cons, ih, lookV_rename]
    cases lookV env v with
    | none => rfl
    | some x => cases vs.mapM (lookV env) <;> rfl

theorem mapM_lookV_mem {env : Env} {vs : List Nat} {l : List Id} (h : vs.mapM (lookV env) = some l) :
    ∀ x ∈ l, ∃ v ∈ vs, lookV env v = some x := by
  induction vs generalizing l with
  | nil => simp at h; subst h; simp
  | cons v vs ih =>
    rw [List.mapM_cons] at h
    cases e : lookV env v with
    | none => rw [e] at h; simp at h
    | some y =>
      cases e2 : vs.mapM (lookV env) with
      | none => rw [e, e2] at h; simp at h
      | some m =>
        rw [e, e2] at h
        simp at h
        subst h
        intro x hx
        rw [List.mem_cons] at hx
        rcases hx with rfl | hx
        · exact ⟨v, by simp, e⟩
        · obtain ⟨w, hw, ew⟩ := ih e2 x hx
          exact ⟨w, by simp [hw], ew⟩

theorem ask_same {σ σ' : Machine} (hg : Good σ) (hi' : Ok σ'.topo) (h : SameUpToAddresses σ σ') (q : Query) :
    ask σ' q = ask σ q := by
  obtain ⟨φ, ω, hiso, henv⟩ := h
  have hi := hg.ok.inv
  have hor := fun v => lookO_rename φ ω σ.env v
  have hvr := fun v => lookV_rename φ ω σ.env v
  have hlr := fun v => look_rename φ ω σ.env v
  cases q with
  | isNull v =>
    simp only [ask]
    rw [henv, hlr]
    cases look σ.env v <;> rfl
  | same v w =>
    simp only [ask]
    rw [henv, hlr, hlr]
    cases ev : look σ.env v with
    | none => cases look σ.env w <;> rfl
    | some x =>
      cases ew : look σ.env w with
      | none => rfl
      | some y =>
        simp only [Option.map_some]
        have : (Val.rename φ ω x == Val.rename φ ω y) = (x == y) := by
          rw [Bool.eq_iff_iff, beq_iff_eq, beq_iff_eq]
          constructor
          · intro e
            cases x with
            | fp N f =>
              cases y with
              | fp M g =>
                simp only [Val.rename, Val.fp.injEq] at e
                obtain ⟨rfl, e⟩ := e
                rw [hiso.injF N (hg.liveF ev) (hg.liveF ew) e]
              | or M g => simp [Val.rename] at e
            | or N f =>
              cases y with
              | fp M g => simp [Val.rename] at e
              | or M g =>
                simp only [Val.rename, Val.or.injEq] at e
                obtain ⟨rfl, e⟩ := e
                rw [hiso.injO N (hg.liveO ev) (hg.liveO ew) e]
          · intro e; rw [e]
        rw [this]
  | count N => simp only [ask]; rw [hiso.nSimplices]
  | references v =>
    simp only [ask]
    rw [henv, hlr]
    cases ev : look σ.env v with
    | none => rfl
    | some x =>
      cases x with
      | fp N f => simp only [Option.map_some, Val.rename]; rw [hiso.refsF hi (hg.liveF ev)]
      | or N o => simp only [Option.map_some, Val.rename]; rw [hiso.refs hi (hg.liveO ev)]
  | orientation v =>
    simp only [ask]
    rw [henv, hor]
    cases ev : lookO σ.env v with
    | none => rfl
    | some p => simp only [Option.map_some]; rw [hiso.sg _ _ (hg.liveO (lookO_iff.mp ev))]
  | existsFlipped v =>
    simp only [ask]
    rw [henv, hor]
    cases ev : lookO σ.env v with
    | none => rfl
    | some p => simp only [Option.map_some]; rw [hiso.existsFlipped hi hi'.inv (hg.liveO (lookO_iff.mp ev))]
  | existsSegment a b =>
    simp only [ask]
    rw [henv, hvr, hvr]
    cases ea : lookV σ.env a with
    | none => cases lookV σ.env b <;> rfl
    | some x =>
      cases eb : lookV σ.env b with
      | none => rfl
      | some y =>
        simp only [Option.map_some]
        rw [hiso.existsSegment hi hi'.inv (hg.liveF (lookV_iff.mp ea)) (hg.liveF (lookV_iff.mp eb))]
  | existsComp vs =>
    simp only [ask]
    rw [henv, lookC_rename]
    cases ev : lookC σ.env vs with
    | none => rfl
    | some p => simp only [Option.map_some]; rw [hiso.existsComp hi hi'.inv (hg.liveC ev)]
  | sanityCheck v =>
    simp only [ask]
    rw [henv, hor]
    cases ev : lookO σ.env v with
    | none => rfl
    | some p => simp only [Option.map_some]; rw [hiso.sanityCheck hi _ _ (hg.liveO (lookO_iff.mp ev))]
  | tail v w =>
    simp only [ask]
    rw [henv, hor, hvr]
    cases ev : lookO σ.env v with
    | none => cases lookV σ.env w <;> rfl
    | some p =>
      obtain ⟨M, o⟩ := p
      cases ew : lookV σ.env w with
      | none => simp
      | some x =>
        simp only [Option.map_some]
        split
        · rename_i e1 e2
          simp only [Option.some.injEq, Prod.mk.injEq] at e1 e2
          obtain ⟨rfl, rfl⟩ := e1
          subst e2
          have ho := hg.liveO (lookO_iff.mp ev)
          have hx := hg.liveF (lookV_iff.mp ew)
          unfold Topo.tail
          rw [hiso.composition hi ho, List.getElem?_map]
          cases ec : (σ.topo.composition (0 + 1) o)[0]? with
          | none => simp [ec]
          | some y =>
            have hy := composition_live hi ho y (List.mem_of_getElem? ec)
            simp only [Nat.zero_add] at ec
            simp only [ec, Option.map_some]
            rw [hiso.fp 0 y hy]
            congr 1
            exact ofBool_beq ⟨fun e => hiso.injF 0 (hi.fp_live 0 y hy) hx e, fun e => by rw [e]⟩
        · rename_i hn
          split
          · rename_i e1 e2
            simp only [Option.some.injEq, Prod.mk.injEq] at e1 e2
            obtain ⟨rfl, rfl⟩ := e1
            exact absurd rfl (hn _ _ rfl)
          · rfl
  | head v w =>
    simp only [ask]
    rw [henv, hor, hvr]
    cases ev : lookO σ.env v with
    | none => cases lookV σ.env w <;> rfl
    | some p =>
      obtain ⟨M, o⟩ := p
      cases ew : lookV σ.env w with
      | none => simp
      | some x =>
        simp only [Option.map_some]
        split
        · rename_i e1 e2
          simp only [Option.some.injEq, Prod.mk.injEq] at e1 e2
          obtain ⟨rfl, rfl⟩ := e1
          subst e2
          have ho := hg.liveO (lookO_iff.mp ev)
          have hx := hg.liveF (lookV_iff.mp ew)
          unfold Topo.head
          rw [hiso.composition hi ho, List.getElem?_map]
          cases ec : (σ.topo.composition (0 + 1) o)[1]? with
          | none => simp [ec]
          | some y =>
            have hy := composition_live hi ho y (List.mem_of_getElem? ec)
            simp only [Nat.zero_add] at ec
            simp only [ec, Option.map_some]
            rw [hiso.fp 0 y hy]
            congr 1
            exact ofBool_beq ⟨fun e => hiso.injF 0 (hi.fp_live 0 y hy) hx e, fun e => by rw [e]⟩
        · rename_i hn
          split
          · rename_i e1 e2
            simp only [Option.some.injEq, Prod.mk.injEq] at e1 e2
            obtain ⟨rfl, rfl⟩ := e1
            exact absurd rfl (hn _ _ rfl)
          · rfl
  | sub v i w =>
    simp only [ask]
    rw [henv, hor, hor]
    cases ev : lookO σ.env v with
    | none => cases lookO σ.env w <;> rfl
    | some p =>
      obtain ⟨M, o⟩ := p
      cases ew : lookO σ.env w with
      | none => cases M <;> rfl
      | some r =>
        obtain ⟨K, x⟩ := r
        cases M with
        | zero => rfl
        | succ M =>
          have ho := hg.liveO (lookO_iff.mp ev)
          have hx := hg.liveO (lookO_iff.mp ew)
          simp only [Option.map_some]
          rw [hiso.composition hi ho, List.getElem?_map]
          cases ec : (σ.topo.composition (M + 1) o)[i]? with
          | none => rfl
          | some y =>
            have hy := composition_live hi ho y (List.mem_of_getElem? ec)
            simp only [Option.map_some]
            congr 1
            by_cases e : M = K
            · subst e
              simp only [beq_self_eq_true, Bool.true_and]
              exact ofBool_beq ⟨fun e => hiso.injO M hy hx e, fun e => by rw [e]⟩
            · have : (M == K) = false := by simpa using e
              rw [this]; rfl
  | footprint v w =>
    simp only [ask]
    rw [henv, hor, hlr]
    cases ev : lookO σ.env v with
    | none => cases look σ.env w <;> rfl
    | some p =>
      obtain ⟨M, o⟩ := p
      cases ew : look σ.env w with
      | none => rfl
      | some y =>
        cases y with
        | or K x => rfl
        | fp K f =>
          have ho := hg.liveO (lookO_iff.mp ev)
          have hf := hg.liveF ew
          simp only [Option.map_some, Val.rename]
          rw [hiso.fp M o ho]
          congr 1
          by_cases e : M = K
          · subst e
            simp only [beq_self_eq_true, Bool.true_and]
            exact ofBool_beq ⟨fun e => hiso.injF M (hi.fp_live M o ho) hf e, fun e => by rw [e]⟩
          · have : (M == K) = false := by simpa using e
            rw [this]; rfl
  | vertices v w =>
    simp only [ask]
    rw [henv, hor, hvr]
    cases ev : lookO σ.env v with
    | none => rfl
    | some p =>
      obtain ⟨M, o⟩ := p
      have ho := hg.liveO (lookO_iff.mp ev)
      have hf := hi.fp_live M o ho
      have hp := hiso.vertexSet hi M _ hf
      simp only [Option.map_some]
      rw [hiso.fp M o ho]
      cases ew : lookV σ.env w with
      | none => simp only [Option.map_none]; rw [hp.length_eq, List.length_map]
      | some x =>
        have hx := hg.liveF (lookV_iff.mp ew)
        simp only [Option.map_some]
        congr 2
        rw [Bool.eq_iff_iff, List.contains_iff_mem, List.contains_iff_mem, hp.mem_iff, List.mem_map]
        constructor
        · rintro ⟨y, hy, e⟩
          rw [← hiso.injF 0 (vertexSet_alive hi M _ hf y hy) hx e]; exact hy
        · exact fun hm => ⟨x, hm, rfl⟩
  | arranged v vs =>
    simp only [ask]
    rw [henv, hor, mapM_lookV_rename]
    cases ev : lookO σ.env v with
    | none => rfl
    | some p =>
      obtain ⟨M, o⟩ := p
      have ho := hg.liveO (lookO_iff.mp ev)
      cases ew : vs.mapM (lookV σ.env) with
      | none => rfl
      | some l =>
        simp only [Option.map_some]
        rw [hiso.arrangement hi M o ho]
        cases em : σ.topo.arrangement M o with
        | none => rfl
        | some m =>
          simp only [Option.map_some]
          refine permutationSign_map_injOn _ _ (hiso.injF 0) (arrangement_live hi M o ho m em) fun x hx => ?_
          obtain ⟨w, _, hw⟩ := mapM_lookV_mem ew x hx
          exact hg.liveF (lookV_iff.mp hw)
  | edges v w =>
    simp only [ask]
    rw [henv, hor, hor]
    cases ev : lookO σ.env v with
    | none => rfl
    | some p =>
      obtain ⟨M, o⟩ := p
      have ho := hg.liveO (lookO_iff.mp ev)
      have hlive := edges_alive hi ho
      simp only [Option.map_some]
      rw [hiso.edges hi ho]
      have hd : ((σ.topo.edges M o).map (ω 1)).dedup.length = (σ.topo.edges M o).dedup.length := by
        rw [dedup_map_injOn _ _ fun x hx y hy e => hiso.injO 1 (hlive x hx) (hlive y hy) e, List.length_map]
      cases ew : lookO σ.env w with
      | none => simp only [Option.map_none]; rw [hd]
      | some r =>
        obtain ⟨K, x⟩ := r
        have hx := hg.liveO (lookO_iff.mp ew)
        simp only [Option.map_some]
        match K, hx with
        | 0, _ => simp only [hd]
        | 1, hx =>
          simp only
          congr 2
          rw [Bool.eq_iff_iff, List.contains_iff_mem, List.contains_iff_mem, List.mem_map]
          constructor
          · rintro ⟨y, hy, e⟩
            rw [← hiso.injO 1 (hlive y hy) hx e]; exact hy
          · exact fun hm => ⟨x, hm, rfl⟩
        | K + 2, _ => simp only [hd]

/-! ### programs -/

theorem Good.start (s : List Id) : Good (start s) := by
  refine ⟨Ok.init s, fun N o => ?_, fun N f => ?_⟩ <;> simp [Topology.start]

theorem start_same (s s' : List Id) : SameUpToAddresses (start s) (start s') := by
  refine ⟨fun _ x => x, fun _ x => x, ?_, rfl⟩
  constructor <;> simp [start, Topo.init, Level.empty]

theorem run_good {p : Prog} {σ σ1 : Machine} {n : Int} (hg : Good σ) (h : p.run σ = some (σ1, n)) : Good σ1 := by
  induction p generalizing σ with
  | done m => simp [Prog.run] at h; rw [← h.1]; exact hg
  | call c p ih =>
    simp only [Prog.run] at h
    split at h
    · simp at h
    · rename_i σ2 h2
      exact ih (exec_good hg h2) h
  | ask q k ih => exact ih _ hg h

theorem run_same {p : Prog} {σ σ' σ1 σ1' : Machine} {n n' : Int} (hg : Good σ) (hg' : Good σ')
    (hs : SameUpToAddresses σ σ') (h : p.run σ = some (σ1, n)) (h' : p.run σ' = some (σ1', n')) :
    SameUpToAddresses σ1 σ1' ∧ n' = n := by
  induction p generalizing σ σ' with
  | done m =>
    simp [Prog.run] at h h'
    rw [← h.1, ← h'.1, ← h.2, ← h'.2]
    exact ⟨hs, rfl⟩
  | call c p ih =>
    simp only [Prog.run] at h h'
    split at h
    · simp at h
    · rename_i σ2 h2
      split at h'
      · simp at h'
      · rename_i σ2' h2'
        exact ih (exec_good hg h2) (exec_good hg' h2') ((exec_matches hg hg' hs h2).1 σ2' h2') h h'
  | ask q k ih =>
    simp only [Prog.run] at h h'
    rw [ask_same hg hg'.ok hs] at h'
    exact ih _ hg hg' hs h h'

theorem run_succeeds {p : Prog} {σ σ' σ1 : Machine} {n : Int} (hg : Good σ) (hg' : Good σ')
    (hs : SameUpToAddresses σ σ') (h : p.run σ = some (σ1, n)) (k : Nat)
    (hf : Fresh σ'.topo (k + 58 * p.calls σ)) : ∃ σ1', p.run σ' = some (σ1', n) ∧ Fresh σ1'.topo k := by
  induction p generalizing σ σ' with
  | done m =>
    simp [Prog.run] at h
    exact ⟨σ', by simp [Prog.run, h.2], hf.mono (by omega)⟩
  | call c p ih =>
    simp only [Prog.run] at h ⊢
    simp only [Prog.calls] at hf
    split at h
    · simp at h
    · rename_i σ2 h2
      rw [h2] at hf
      simp only at hf
      obtain ⟨e1, e2⟩ := exec_matches hg hg' hs h2
      obtain ⟨σ2', h2', fr⟩ := e2 (k + 58 * p.calls σ2) (hf.mono (by omega))
      rw [h2']
      exact ih (exec_good hg h2) (exec_good hg' h2') (e1 σ2' h2') h fr
  | ask q c ih =>
    simp only [Prog.run, Prog.calls] at h hf ⊢
    rw [ask_same hg hg'.ok hs]
    exact ih _ hg hg' hs h hf

end Mito.Topology
