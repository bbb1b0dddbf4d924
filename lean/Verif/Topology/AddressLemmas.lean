import Verif.Spec.Addresses
import Verif.Topology.ValidLemmas
import Verif.Topology.ReachLemmas

/-! # Helper lemmas: what happens does not depend on the addresses -/

set_option linter.unusedSimpArgs false
set_option linter.unusedVariables false

namespace Mito.Topology

open Mito.Combinatorics

variable {φ ω φ' ω' : Nat → Id → Id} {t t' : Topo} {N : Nat}

/-! ### lists -/

theorem count_map_injOn {α β : Type*} [DecidableEq α] [DecidableEq β] (f : α → β) (l : List α) (a : α)
    (h : ∀ x ∈ l, f x = f a → x = a) : (l.map f).count (f a) = l.count a := by
  induction l with
  | nil => simp
  | cons x l ih =>
    have hx := h x (by simp)
    have := ih fun y hy => h y (by simp [hy])
    rw [List.map_cons, List.count_cons, List.count_cons, this]
    by_cases e : x = a
    · simp [e]
    · have : f x ≠ f a := fun e' => e (hx e')
      simp [e, this]

theorem perm_map_injOn {α β : Type*} (f : α → β) {l l' : List α} (s : Set α) (hf : Set.InjOn f s)
    (hl : ∀ x ∈ l, x ∈ s) (hl' : ∀ x ∈ l', x ∈ s) : (l.map f).Perm (l'.map f) ↔ l.Perm l' := by
  classical
  constructor
  · intro h
    rw [List.perm_iff_count]
    intro a
    by_cases ha : a ∈ s
    · have := h.count (f a)
      rwa [count_map_injOn f l a fun x hx e => hf (hl x hx) ha e,
        count_map_injOn f l' a fun x hx e => hf (hl' x hx) ha e] at this
    · rw [List.count_eq_zero_of_not_mem fun hm => ha (hl a hm),
        List.count_eq_zero_of_not_mem fun hm => ha (hl' a hm)]
  · exact fun h => h.map f

theorem putBack_map {α β : Type*} [DecidableEq α] [DecidableEq β] (f : α → β) (x r : α) (l : List α)
    (h : ∀ y ∈ l, f r = f y → r = y) :
    putBack (f x) (f r) (l.map f) = (putBack x r l).map (List.map f) := by
  induction l with
  | nil => rfl
  | cons y l ih =>
    simp only [List.map_cons, putBack]
    by_cases e : r = y
    · simp [e]
    · have : f r ≠ f y := fun e' => e (h y (by simp) e')
      rw [if_neg this, if_neg e, ih fun z hz => h z (by simp [hz])]
      cases putBack x r l <;> simp

theorem putBack_mem {α : Type*} [DecidableEq α] {x r : α} {l l' : List α} (h : putBack x r l = some l') :
    ∀ y ∈ l', y = x ∨ y ∈ l := by
  induction l generalizing l' with
  | nil => simp [putBack] at h
  | cons z l ih =>
    simp only [putBack] at h
    split at h
    · simp at h; subst h; intro y hy; simp at hy ⊢; tauto
    · cases e : putBack x r l with
      | none => simp [e] at h
      | some l1 =>
        simp [e] at h; subst h
        intro y hy
        simp at hy ⊢
        have := ih e y
        tauto

theorem swapSort_map {α β : Type*} [DecidableEq α] [DecidableEq β] (f : α → β) (s : Set α)
    (hf : Set.InjOn f s) (b : List α) : ∀ a : List α, (∀ x ∈ a, x ∈ s) → (∀ x ∈ b, x ∈ s) →
      swapSort (a.map f) (b.map f) = swapSort a b := by
  induction b with
  | nil =>
    intro a _ _
    match a with
    | [] => rfl
    | [_] => rfl
    | _ :: _ :: _ => rfl
  | cons r rs ih =>
    intro a ha hb
    match a with
    | [] => rfl
    | [_] => rfl
    | x :: y :: l =>
      have hr := hb r (by simp)
      have hx := ha x (by simp)
      simp only [List.map_cons, swapSort]
      by_cases e : r = x
      · rw [if_pos e, if_pos (by rw [e])]
        exact ih (y :: l) (fun z hz => ha z (by simp at hz ⊢; tauto)) fun z hz => hb z (by simp [hz])
      · rw [if_neg e, if_neg fun e' => e (hf hr hx e')]
        have := putBack_map f x r (y :: l) fun z hz e' => hf hr (ha z (by simp at hz ⊢; tauto)) e'
        rw [List.map_cons] at this
        rw [this]
        cases hp : putBack x r (y :: l) with
        | none => rfl
        | some l' =>
          simp only [Option.map_some]
          rw [ih l' _ fun z hz => hb z (by simp [hz])]
          intro z hz
          rcases putBack_mem hp z hz with rfl | hz
          · exact hx
          · exact ha z (by simp at hz ⊢; tauto)

theorem permutationSign_map_injOn {α β : Type*} [DecidableEq α] [DecidableEq β] (f : α → β) (s : Set α)
    (hf : Set.InjOn f s) {a b : List α} (ha : ∀ x ∈ a, x ∈ s) (hb : ∀ x ∈ b, x ∈ s) :
    permutationSign (a.map f) (b.map f) = permutationSign a b := by
  have h1 : sameElements (a.map f) (b.map f) = sameElements a b := by
    unfold sameElements
    rw [Bool.eq_iff_iff, List.isPerm_iff, List.isPerm_iff]
    exact perm_map_injOn f s hf ha hb
  unfold permutationSign
  rw [h1, swapSort_map f s hf b a ha hb]

theorem swap01_map {α β : Type*} (f : α → β) (l : List α) : swap01 (l.map f) = (swap01 l).map f := by
  match l with
  | [] => rfl
  | [_] => rfl
  | _ :: _ :: _ => rfl

/-! ### looking at two topologies with different addresses -/

theorem Iso.memF (h : Iso φ ω t t') {f : Id} (hf : f ∈ (t.lvl N).fps) : φ N f ∈ (t'.lvl N).fps := by
  rw [h.fps]; exact Finset.mem_image_of_mem _ hf

theorem Iso.memO (h : Iso φ ω t t') {o : Id} (ho : o ∈ (t.lvl N).ors) : ω N o ∈ (t'.lvl N).ors := by
  rw [h.ors]; exact Finset.mem_image_of_mem _ ho

theorem Iso.memF' (h : Iso φ ω t t') {f : Id} (hf : f ∈ (t'.lvl N).fps) :
    ∃ g ∈ (t.lvl N).fps, φ N g = f := by
  rw [h.fps] at hf; simpa using hf

theorem Iso.memO' (h : Iso φ ω t t') {o : Id} (ho : o ∈ (t'.lvl N).ors) :
    ∃ g ∈ (t.lvl N).ors, ω N g = o := by
  rw [h.ors] at ho; simpa using ho

theorem Iso.map_fp (h : Iso φ ω t t') {c : List Id} (hc : ∀ x ∈ c, x ∈ (t.lvl N).ors) :
    (c.map (ω N)).map (t'.fp N) = (c.map (t.fp N)).map (φ N) := by
  rw [List.map_map, List.map_map]
  exact List.map_congr_left fun x hx => h.fp N x (hc x hx)

theorem fp_mem (hi : Inv t) {c : List Id} (hc : ∀ x ∈ c, x ∈ (t.lvl N).ors) :
    ∀ f ∈ c.map (t.fp N), f ∈ ((t.lvl N).fps : Set Id) := by
  intro f hf
  obtain ⟨x, hx, rfl⟩ := List.mem_map.mp hf
  exact hi.fp_live N x (hc x hx)

theorem Iso.composition (h : Iso φ ω t t') (hi : Inv t) {o : Id} (ho : o ∈ (t.lvl (N + 1)).ors) :
    t'.composition (N + 1) (ω (N + 1) o) = (t.composition (N + 1) o).map (ω N) := by
  unfold Topo.composition
  rw [h.sg _ o ho, h.fp _ o ho, h.comp N _ (hi.fp_live _ o ho), swap01_map]
  split <;> rfl

theorem Iso.refs (h : Iso φ ω t t') (hi : Inv t) {o : Id} (ho : o ∈ (t.lvl N).ors) :
    t'.refs N (ω N o) = t.refs N o := by
  unfold Topo.refs
  rw [h.ext N o ho, h.fps, Finset.sum_image fun a ha b hb e => h.injF (N + 1) ha hb e]
  congr 1
  apply Finset.sum_congr rfl
  intro f hf
  rw [h.comp N f hf]
  exact count_map_injOn _ _ _ fun x hx e => h.injO N (hi.comp_live N f hf x hx) ho e

theorem Iso.refsF_of (h : Iso φ ω t t') (hi : ∀ o ∈ (t.lvl N).ors, t.fp N o ∈ (t.lvl N).fps) {f : Id}
    (hf : f ∈ (t.lvl N).fps) : t'.refsF N (φ N f) = t.refsF N f := by
  unfold Topo.refsF
  rw [h.extF N f hf]
  congr 1
  have : (t'.lvl N).ors.filter (fun o => (t'.lvl N).ofp o = φ N f) =
      ((t.lvl N).ors.filter fun o => (t.lvl N).ofp o = f).image (ω N) := by
    ext x
    simp only [Finset.mem_filter, Finset.mem_image]
    constructor
    · rintro ⟨hx, e⟩
      obtain ⟨y, hy, rfl⟩ := h.memO' hx
      refine ⟨y, ⟨hy, ?_⟩, rfl⟩
      have := h.fp N y hy
      unfold Topo.fp at this
      rw [e] at this
      exact (h.injF N hf (hi y hy) this).symm
    · rintro ⟨y, ⟨hy, e⟩, rfl⟩
      refine ⟨h.memO hy, ?_⟩
      have := h.fp N y hy
      unfold Topo.fp at this
      rw [this, e]
  rw [this, Finset.card_image_of_injOn]
  intro a ha b hb e
  simp at ha hb
  exact h.injO N ha.1 hb.1 e

theorem Iso.refsF (h : Iso φ ω t t') (hi : Inv t) {f : Id} (hf : f ∈ (t.lvl N).fps) :
    t'.refsF N (φ N f) = t.refsF N f := h.refsF_of (hi.fp_live N) hf

theorem Iso.orients (h : Iso φ ω t t') (hi : Inv t) (hi' : Inv t') {f : Id} (hf : f ∈ (t.lvl N).fps)
    (s : Int) : (t'.lvl N).orients (φ N f, s) = ((t.lvl N).orients (f, s)).map (ω N) := by
  cases e : (t.lvl N).orients (f, s) with
  | some o =>
    obtain ⟨ho, rfl, rfl⟩ := (hi.orients N f s o).1 e
    exact (hi'.orients N _ _ _).2 ⟨h.memO ho, h.fp N o ho, h.sg N o ho⟩
  | none =>
    cases e' : (t'.lvl N).orients (φ N f, s) with
    | none => rfl
    | some o' =>
      obtain ⟨ho', h1, h2⟩ := (hi'.orients N _ _ _).1 e'
      obtain ⟨o, ho, rfl⟩ := h.memO' ho'
      rw [h.fp N o ho] at h1
      rw [h.sg N o ho] at h2
      have := (hi.orients N f s o).2 ⟨ho, h.injF N (hi.fp_live N o ho) hf h1, h2⟩
      rw [e] at this; simp at this

theorem Iso.comps (h : Iso φ ω t t') (hi : Inv t) (hi' : Inv t') {c : List Id}
    (hc : ∀ x ∈ c, x ∈ (t.lvl N).ors) :
    (t'.lvl (N + 1)).comps (t'.representative N (c.map (ω N))) =
      ((t.lvl (N + 1)).comps (t.representative N c)).map (φ (N + 1)) := by
  have key : ∀ f ∈ (t.lvl (N + 1)).fps,
      t'.representative N (t'.compF (N + 1) (φ (N + 1) f)) = t'.representative N (c.map (ω N)) ↔
      t.representative N (t.compF (N + 1) f) = t.representative N c := by
    intro f hf
    rw [representative_eq_iff, representative_eq_iff, h.comp N f hf, h.map_fp (hi.comp_live N f hf),
      h.map_fp hc]
    exact perm_map_injOn _ _ (h.injF N) (fp_mem hi (hi.comp_live N f hf)) (fp_mem hi hc)
  cases e : (t.lvl (N + 1)).comps (t.representative N c) with
  | some f =>
    obtain ⟨hf, hr⟩ := (hi.comps N _ f).1 e
    exact (hi'.comps N _ _).2 ⟨h.memF hf, (key f hf).2 hr⟩
  | none =>
    cases e' : (t'.lvl (N + 1)).comps (t'.representative N (c.map (ω N))) with
    | none => rfl
    | some f' =>
      obtain ⟨hf', hr⟩ := (hi'.comps N _ _).1 e'
      obtain ⟨f, hf, rfl⟩ := h.memF' hf'
      have := (hi.comps N _ f).2 ⟨hf, (key f hf).1 hr⟩
      rw [e] at this; simp at this

theorem Iso.orientation (h : Iso φ ω t t') (hi : Inv t) {c : List Id}
    (hc : ∀ x ∈ c, x ∈ (t.lvl N).ors) {f : Id} (hf : f ∈ (t.lvl (N + 1)).fps) :
    t'.orientation N (c.map (ω N)) (φ (N + 1) f) = t.orientation N c f := by
  unfold Topo.orientation
  rw [h.comp N f hf, h.map_fp hc, h.map_fp (hi.comp_live N f hf)]
  exact permutationSign_map_injOn _ _ (h.injF N) (fp_mem hi hc) (fp_mem hi (hi.comp_live N f hf))

theorem dedup_map_injOn {α β : Type*} [DecidableEq α] [DecidableEq β] (f : α → β) (l : List α)
    (h : ∀ x ∈ l, ∀ y ∈ l, f x = f y → x = y) : (l.map f).dedup = l.dedup.map f := by
  induction l with
  | nil => rfl
  | cons x l ih =>
    have ih := ih fun a ha b hb => h a (by simp [ha]) b (by simp [hb])
    by_cases e : x ∈ l
    · rw [List.dedup_cons_of_mem e, List.map_cons, List.dedup_cons_of_mem (List.mem_map_of_mem e), ih]
    · rw [List.dedup_cons_of_notMem e, List.map_cons, List.dedup_cons_of_notMem, ih, List.map_cons]
      intro hm
      obtain ⟨y, hy, e'⟩ := List.mem_map.mp hm
      exact e (h y (by simp [hy]) x (by simp) e' ▸ hy)

theorem checkPairs_map (f : Id → Id) (l : List (Id × Int)) (s : Set Id) (hf : Set.InjOn f s)
    (hl : ∀ p ∈ l, p.1 ∈ s) (n : Nat) :
    checkPairs n (l.map fun p => (f p.1, p.2)) = checkPairs n l := by
  have h1 : ((l.map fun p => (f p.1, p.2)).map (·.1)).dedup = ((l.map (·.1)).dedup).map f := by
    rw [← dedup_map_injOn, List.map_map, List.map_map]
    · rfl
    · intro x hx y hy e
      obtain ⟨p, hp, rfl⟩ := List.mem_map.mp hx
      obtain ⟨q, hq, rfl⟩ := List.mem_map.mp hy
      exact hf (hl p hp) (hl q hq) e
  have h2 : ∀ k ∈ s, net (l.map fun p => (f p.1, p.2)) (f k) = net l k := by
    intro k hk
    unfold net
    rw [List.filter_map, List.map_map]
    have : (l.filter ((fun p : Id × Int => decide (p.1 = f k)) ∘ fun p : Id × Int => (f p.1, p.2))) =
        l.filter fun p => decide (p.1 = k) := by
      apply List.filter_congr
      intro p hp
      simp only [Function.comp_apply, decide_eq_decide]
      exact ⟨fun e => hf (hl p hp) hk e, fun e => by rw [e]⟩
    rw [this]; rfl
  unfold checkPairs
  rw [h1, List.length_map, List.all_map]
  have : ((l.map (·.1)).dedup).all ((fun k => net (l.map fun p => (f p.1, p.2)) k == 0) ∘ f) =
      ((l.map (·.1)).dedup).all fun k => net l k == 0 := by
    rw [Bool.eq_iff_iff, List.all_eq_true, List.all_eq_true]
    apply forall₂_congr
    intro k hk
    rw [List.mem_dedup] at hk
    obtain ⟨p, hp, rfl⟩ := List.mem_map.mp hk
    simp only [Function.comp_apply]
    rw [h2 _ (hl p hp)]
  rw [this]

theorem Iso.isValid (h : Iso φ ω t t') (hi : Inv t) {c : List Id}
    (hc : ∀ x ∈ c, x ∈ (t.lvl N).ors) :
    t'.isValid (N + 1) (c.map (ω N)) = t.isValid (N + 1) c := by
  cases N with
  | zero =>
    match c with
    | [] => rfl
    | [_] => rfl
    | [x, y] =>
      have hx := hc x (by simp)
      have hy := hc y (by simp)
      simp only [List.map_cons, List.map_nil, Topo.isValid]
      rw [h.fp 0 x hx, h.fp 0 y hy, h.sg 0 x hx, h.sg 0 y hy]
      have : (φ 0 (t.fp 0 x) != φ 0 (t.fp 0 y)) = (t.fp 0 x != t.fp 0 y) := by
        rw [Bool.eq_iff_iff]
        simp only [bne_iff_ne, ne_eq, not_iff_not]
        exact ⟨fun e => h.injF 0 (hi.fp_live 0 x hx) (hi.fp_live 0 y hy) e, fun e => by rw [e]⟩
      rw [this]
    | _ :: _ :: _ :: _ => rfl
  | succ M =>
    rw [isValid_eq, isValid_eq]
    have hp : t'.netPairs M (c.map (ω (M + 1))) = (t.netPairs M c).map fun p => (φ M p.1, p.2) := by
      unfold Topo.netPairs
      rw [List.flatMap_map, List.map_flatMap]
      apply List.flatMap_congr
      intro s hs
      rw [h.composition hi (hc s hs), List.map_map, List.map_map]
      apply List.map_congr_left
      intro x hx
      have hx := composition_live hi (hc s hs) x hx
      simp only [Function.comp_apply]
      rw [h.fp M x hx, h.sg M x hx, h.sg _ s (hc s hs)]
    rw [hp]
    apply checkPairs_map _ _ _ (h.injF M)
    intro p hp
    unfold Topo.netPairs at hp
    obtain ⟨s, hs, hp⟩ := List.mem_flatMap.mp hp
    obtain ⟨x, hx, rfl⟩ := List.mem_map.mp hp
    exact hi.fp_live M x (composition_live hi (hc s hs) x hx)

/-- the vertices of a footprint alive are alive -/
theorem vertexSet_alive (hi : Inv t) : ∀ N, ∀ f ∈ (t.lvl N).fps, ∀ v ∈ t.vertexSet N f, v ∈ (t.lvl 0).fps := by
  intro N
  induction N with
  | zero => intro f hf v hv; simp [Topo.vertexSet] at hv; subst hv; exact hf
  | succ N ih =>
    intro f hf v hv
    simp only [Topo.vertexSet, List.mem_insertionSort, List.mem_dedup, List.mem_flatMap] at hv
    obtain ⟨o, ho, hv⟩ := hv
    exact ih _ (hi.fp_live N o (hi.comp_live N f hf o ho)) v hv

/-- the vertices are the same up to the order, which is that of the addresses -/
theorem Iso.vertexSet (h : Iso φ ω t t') (hi : Inv t) : ∀ N, ∀ f ∈ (t.lvl N).fps,
    (t'.vertexSet N (φ N f)).Perm ((t.vertexSet N f).map (φ 0)) := by
  intro N
  induction N with
  | zero => intro f hf; simp [Topo.vertexSet]
  | succ N ih =>
    intro f hf
    have hinj : ∀ v ∈ t.vertexSet (N + 1) f, ∀ w ∈ t.vertexSet (N + 1) f, φ 0 v = φ 0 w → v = w :=
      fun v hv w hw e => h.injF 0 (vertexSet_alive hi _ f hf v hv) (vertexSet_alive hi _ f hf w hw) e
    rw [List.perm_ext_iff_of_nodup (vertexSet_nodup _ _ _) ((vertexSet_nodup t _ f).map_on hinj)]
    intro v
    simp only [Topo.vertexSet, List.mem_insertionSort, List.mem_dedup, List.mem_flatMap, List.mem_map]
    rw [h.comp N f hf]
    constructor
    · rintro ⟨o', ho', hv⟩
      obtain ⟨o, ho, rfl⟩ := List.mem_map.mp ho'
      have hol := hi.comp_live N f hf o ho
      rw [h.fp N o hol] at hv
      obtain ⟨w, hw, e⟩ := List.mem_map.mp ((ih _ (hi.fp_live N o hol)).mem_iff.mp hv)
      exact ⟨w, ⟨o, ho, hw⟩, e⟩
    · rintro ⟨w, ⟨o, ho, hw⟩, rfl⟩
      have hol := hi.comp_live N f hf o ho
      refine ⟨ω N o, List.mem_map_of_mem ho, ?_⟩
      rw [h.fp N o hol]
      exact (ih _ (hi.fp_live N o hol)).mem_iff.mpr (List.mem_map_of_mem hw)

theorem Iso.sanityCheck (h : Iso φ ω t t') (hi : Inv t) : ∀ N, ∀ o ∈ (t.lvl N).ors,
    t'.sanityCheck N (ω N o) = t.sanityCheck N o := by
  intro N
  induction N with
  | zero => intro o ho; rfl
  | succ N ih =>
    intro o ho
    have hf := hi.fp_live _ o ho
    simp only [Topo.sanityCheck]
    rw [h.fp _ o ho, h.comp N _ hf, (h.vertexSet hi _ _ hf).length_eq, List.length_map, List.all_map]
    congr 1
    rw [Bool.eq_iff_iff, List.all_eq_true, List.all_eq_true]
    apply forall₂_congr
    intro x hx
    simp only [Function.comp_apply]
    rw [ih x (hi.comp_live N _ hf x hx)]

theorem Iso.existsComp (h : Iso φ ω t t') (hi : Inv t) (hi' : Inv t') {c : List Id}
    (hc : ∀ x ∈ c, x ∈ (t.lvl N).ors) : t'.existsComp N (c.map (ω N)) = t.existsComp N c := by
  unfold Topo.existsComp Topo.findSimplex Topo.findOriented
  rw [h.comps hi hi' hc]
  cases e : (t.lvl (N + 1)).comps (t.representative N c) with
  | none => rfl
  | some f =>
    have hf := ((hi.comps N _ f).1 e).1
    simp only [Option.map_some]
    rw [h.orientation hi hc hf]
    cases e' : t.orientation N c f with
    | none => rfl
    | some s =>
      simp only
      rw [h.orients hi hi' hf]
      simp

theorem Iso.existsSegment (h : Iso φ ω t t') (hi : Inv t) (hi' : Inv t') {a b : Id}
    (ha : a ∈ (t.lvl 0).fps) (hb : b ∈ (t.lvl 0).fps) :
    t'.existsSegment (φ 0 a) (φ 0 b) = t.existsSegment a b := by
  unfold Topo.existsSegment Topo.findOriented
  rw [h.orients hi hi' ha, h.orients hi hi' hb]
  cases e : (t.lvl 0).orients (a, -1) with
  | none => rfl
  | some x =>
    cases e' : (t.lvl 0).orients (b, 1) with
    | none => rfl
    | some y =>
      have hx := ((hi.orients 0 _ _ _).1 e).1
      have hy := ((hi.orients 0 _ _ _).1 e').1
      exact h.existsComp hi hi' (c := [x, y]) (by simp [hx, hy])

theorem Iso.existsFlipped (h : Iso φ ω t t') (hi : Inv t) (hi' : Inv t') {o : Id}
    (ho : o ∈ (t.lvl N).ors) : t'.existsFlipped N (ω N o) = t.existsFlipped N o := by
  unfold Topo.existsFlipped Topo.findOriented
  rw [h.fp N o ho, h.sg N o ho, h.orients hi hi' (hi.fp_live N o ho)]
  simp

theorem Iso.nSimplices (h : Iso φ ω t t') (N : Nat) : t'.nSimplices N = t.nSimplices N := by
  unfold Topo.nSimplices
  rw [h.ors, Finset.card_image_of_injOn (h.injO N)]

end Mito.Topology
