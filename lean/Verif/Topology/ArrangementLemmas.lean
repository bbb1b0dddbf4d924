import Verif.Topology.AddressLemmas

/-! # The vertices in their order, and the edges, of simplices at other addresses -/

namespace Mito.Topology

open Combinatorics

variable {t t' : Topo} {φ ω : Nat → Id → Id}

theorem arrangement_verticesOf : ∀ (N : Nat) (o : Id) (l : List Id),
    t.arrangement N o = some l → t.verticesOf N o = some l ∧ l.length = N + 1 := by
  intro N
  induction N using Nat.strong_induction_on with
  | _ N ih =>
    intro o l h
    match N with
    | 0 =>
      simp only [Topo.arrangement, Option.some.injEq] at h
      subst h
      exact ⟨rfl, rfl⟩
    | 1 =>
      simp only [Topo.arrangement] at h
      refine ⟨h, ?_⟩
      simp only [Topo.verticesOf] at h
      split at h
      · simp only [Option.some.injEq] at h
        subst h
        split <;> rfl
      · simp at h
    | N + 2 =>
      simp only [Topo.arrangement] at h
      simp only [Topo.verticesOf]
      split at h
      · rename_i x y r e
        rw [e]
        split at h
        · simp at h
        · rename_i m hm
          obtain ⟨h1, h2⟩ := ih (N + 1) (by omega) x m hm
          simp only [h1]
          split at h
          · rename_i hl
            simp only [Option.some.injEq] at h
            subst h
            refine ⟨rfl, ?_⟩
            split
            · rw [← hl]
              cases m ++ (t.vertexSet (N + 1) (t.fp (N + 1) y)).filter (· ∉ m) with
              | nil => rfl
              | cons a l => cases l <;> rfl
            · exact hl
          · simp at h
      · simp at h

theorem swap01_mem {α : Type*} {l : List α} {x : α} : x ∈ swap01 l ↔ x ∈ l := by
  match l with
  | [] => rfl
  | [_] => rfl
  | a :: b :: r => simp [swap01]; tauto

theorem arrangement_live (hi : Inv t) : ∀ (N : Nat), ∀ o ∈ (t.lvl N).ors, ∀ l,
    t.arrangement N o = some l → ∀ v ∈ l, v ∈ (t.lvl 0).fps := by
  intro N
  induction N using Nat.strong_induction_on with
  | _ N ih =>
    intro o ho l h v hv
    match N with
    | 0 =>
      simp only [Topo.arrangement, Option.some.injEq] at h
      subst h
      simp at hv
      rw [hv]; exact hi.fp_live 0 o ho
    | 1 =>
      simp only [Topo.arrangement, Topo.verticesOf] at h
      have hc := hi.comp_live 0 _ (hi.fp_live 1 o ho)
      split at h
      · rename_i x y r e
        simp only [Option.some.injEq] at h
        subst h
        rw [e] at hc
        have : v ∈ [t.fp 0 x, t.fp 0 y] := by
          split at hv
          · exact swap01_mem.mp hv
          · exact hv
        simp at this
        rcases this with rfl | rfl
        · exact hi.fp_live 0 _ (hc _ (by simp))
        · exact hi.fp_live 0 _ (hc _ (by simp))
      · simp at h
    | N + 2 =>
      simp only [Topo.arrangement] at h
      have hc := hi.comp_live (N + 1) _ (hi.fp_live (N + 2) o ho)
      split at h
      · rename_i x y r e
        rw [e] at hc
        split at h
        · simp at h
        · rename_i m hm
          split at h
          · simp only [Option.some.injEq] at h
            subst h
            have : v ∈ m ++ (t.vertexSet (N + 1) (t.fp (N + 1) y)).filter (· ∉ m) := by
              split at hv
              · exact swap01_mem.mp hv
              · exact hv
            rw [List.mem_append, List.mem_filter] at this
            rcases this with hv | ⟨hv, _⟩
            · exact ih (N + 1) (by omega) x (hc _ (by simp)) m hm v hv
            · exact vertexSet_alive hi _ _ (hi.fp_live _ _ (hc _ (by simp))) v hv
          · simp at h
      · simp at h

theorem Iso.arrangement (h : Iso φ ω t t') (hi : Inv t) : ∀ (N : Nat), ∀ o ∈ (t.lvl N).ors,
    t'.arrangement N (ω N o) = (t.arrangement N o).map (List.map (φ 0)) := by
  intro N
  induction N using Nat.strong_induction_on with
  | _ N ih =>
    intro o ho
    match N with
    | 0 =>
      simp only [Topo.arrangement, h.fp 0 o ho, Option.map_some, List.map_cons, List.map_nil]
    | 1 =>
      have hf := hi.fp_live 1 o ho
      have hc := hi.comp_live 0 _ hf
      simp only [Topo.arrangement, Topo.verticesOf]
      rw [h.fp 1 o ho, h.comp 0 _ hf, h.sg 1 o ho]
      match e : t.compF 1 (t.fp 1 o) with
      | [] => simp
      | [_] => simp
      | x :: y :: r =>
        rw [e] at hc
        simp only [List.map_cons, Option.map_some]
        rw [h.fp 0 x (hc _ (by simp)), h.fp 0 y (hc _ (by simp))]
        split <;> rfl
    | N + 2 =>
      have hf := hi.fp_live (N + 2) o ho
      have hc := hi.comp_live (N + 1) _ hf
      simp only [Topo.arrangement]
      rw [h.fp (N + 2) o ho, h.comp (N + 1) _ hf, h.sg (N + 2) o ho]
      match e : t.compF (N + 2) (t.fp (N + 2) o) with
      | [] => simp
      | [_] => simp
      | x :: y :: r =>
        rw [e] at hc
        have hx := hc x (by simp)
        have hy := hc y (by simp)
        have hyf := hi.fp_live _ y hy
        simp only [List.map_cons]
        rw [ih (N + 1) (by omega) x hx, h.fp (N + 1) y hy]
        cases em : t.arrangement (N + 1) x with
        | none => rfl
        | some m =>
          simp only [Option.map_some]
          obtain ⟨-, hlen⟩ := arrangement_verticesOf _ _ _ em
          have hml := arrangement_live hi _ x hx m em
          have hp : ((t'.vertexSet (N + 1) (φ (N + 1) (t.fp (N + 1) y))).filter (· ∉ m.map (φ 0))).Perm
              (((t.vertexSet (N + 1) (t.fp (N + 1) y)).filter (· ∉ m)).map (φ 0)) := by
            refine ((h.vertexSet hi _ _ hyf).filter _).trans ?_
            rw [List.filter_map]
            refine List.Perm.of_eq (congrArg _ (List.filter_congr fun v hv => ?_))
            have hvl := vertexSet_alive hi _ _ hyf v hv
            simp only [Function.comp_apply, decide_eq_decide, not_iff_not, List.mem_map]
            constructor
            · rintro ⟨w, hw, e⟩
              rw [← h.injF 0 (hml w hw) hvl e]; exact hw
            · exact fun hm => ⟨v, hm, rfl⟩
          have hl := hp.length_eq
          rw [List.length_map] at hl
          simp only [List.length_append, List.length_map, hl]
          split
          · rename_i h3
            have h1 : ((t.vertexSet (N + 1) (t.fp (N + 1) y)).filter (· ∉ m)).length = 1 := by omega
            obtain ⟨a, ha⟩ := List.length_eq_one_iff.mp h1
            rw [ha] at hp ⊢
            rw [List.map_cons, List.map_nil, List.perm_singleton] at hp
            rw [hp]
            simp only [Option.map_some, Option.some.injEq]
            have e2 : m.map (φ 0) ++ [φ 0 a] = (m ++ [a]).map (φ 0) := by simp
            rw [e2]
            split
            · exact swap01_map _ _
            · rfl
          · rfl

theorem edgesF_live (hi : Inv t) : ∀ (N : Nat), ∀ f ∈ (t.lvl N).fps, ∀ x ∈ t.edgesF N f, x ∈ (t.lvl 1).ors := by
  intro N
  induction N using Nat.strong_induction_on with
  | _ N ih =>
    intro f hf x hx
    match N with
    | 0 => simp [Topo.edgesF] at hx
    | 1 => simp [Topo.edgesF] at hx
    | 2 => exact hi.comp_live 1 f hf x hx
    | N + 3 =>
      simp only [Topo.edgesF, List.mem_flatMap] at hx
      obtain ⟨o, ho, hx⟩ := hx
      exact ih (N + 2) (by omega) _ (hi.fp_live _ _ (hi.comp_live (N + 2) f hf o ho)) x hx

theorem Iso.edgesF (h : Iso φ ω t t') (hi : Inv t) : ∀ (N : Nat), ∀ f ∈ (t.lvl N).fps,
    t'.edgesF N (φ N f) = (t.edgesF N f).map (ω 1) := by
  intro N
  induction N using Nat.strong_induction_on with
  | _ N ih =>
    intro f hf
    match N with
    | 0 => rfl
    | 1 => rfl
    | 2 => exact h.comp 1 f hf
    | N + 3 =>
      simp only [Topo.edgesF]
      rw [h.comp (N + 2) f hf, List.flatMap_map, List.map_flatMap]
      refine List.flatMap_congr fun o ho => ?_
      have hol := hi.comp_live (N + 2) f hf o ho
      rw [h.fp _ o hol]
      exact ih (N + 2) (by omega) _ (hi.fp_live _ _ hol)

theorem edges_alive (hi : Inv t) {N : Nat} {o : Id} (ho : o ∈ (t.lvl N).ors) : ∀ x ∈ t.edges N o, x ∈ (t.lvl 1).ors :=
  edgesF_live hi N _ (hi.fp_live N o ho)

theorem Iso.edges (h : Iso φ ω t t') (hi : Inv t) {N : Nat} {o : Id} (ho : o ∈ (t.lvl N).ors) :
    t'.edges N (ω N o) = (t.edges N o).map (ω 1) := by
  unfold Topo.edges
  rw [h.fp N o ho]
  exact h.edgesF hi N _ (hi.fp_live N o ho)

end Mito.Topology
