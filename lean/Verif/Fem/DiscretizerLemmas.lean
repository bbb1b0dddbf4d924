import Verif.Spec.Discretizer
import Verif.Utilities.NumberingLemmas

/-! # Helpers about discretizers -/

namespace Mito.Discretizer

open Mito.Numbering

variable {κ : Type} [DecidableEq κ]

theorem lookup_append (m m' : Map κ) (k : κ) :
    lookup (m ++ m') k = (lookup m k).or (lookup m' k) := by
  simp only [lookup, List.find?_append]
  exact Option.map_or

theorem lookup_mem {m : Map κ} {k : κ} {v : Nat} (h : lookup m k = some v) : (k, v) ∈ m := by
  simp only [lookup, Option.map_eq_some_iff] at h
  obtain ⟨⟨k', v'⟩, h1, rfl⟩ := h
  have := List.mem_of_find?_eq_some h1
  have h2 := List.find?_some h1
  simp only [decide_eq_true_eq] at h2
  rw [← h2]; exact this

theorem lookup_mem_values {m : Map κ} {k : κ} {v : Nat} (h : lookup m k = some v) : v ∈ values m :=
  List.mem_map.mpr ⟨_, lookup_mem h, rfl⟩

theorem lookup_inj {m : Map κ} (hv : (values m).Nodup) {k k' : κ} {v : Nat} (h : lookup m k = some v)
    (h' : lookup m k' = some v) : k = k' := by
  have := List.inj_on_of_nodup_map hv (lookup_mem h) (lookup_mem h') rfl
  exact congrArg Prod.fst this

/-- the second map has all that the first has -/
def Extends (m m' : Map κ) : Prop := ∀ k v, lookup m k = some v → lookup m' k = some v

theorem Extends.refl (m : Map κ) : Extends m m := fun _ _ h => h
theorem Extends.trans {m m' m'' : Map κ} (h : Extends m m') (h' : Extends m' m'') : Extends m m'' :=
  fun k v hk => h' k v (h k v hk)

theorem insertNew_spec (m : Map κ) (k : κ) (new : Nat) :
    Extends m (insertNew m k new).1 ∧ lookup (insertNew m k new).1 k = some (insertNew m k new).2 ∧
      ((insertNew m k new).1 = m ∨
        (lookup m k = none ∧ (insertNew m k new).1 = m ++ [(k, new)] ∧
          values (insertNew m k new).1 = values m ++ [new])) ∧
      ∀ k', (lookup (insertNew m k new).1 k').isSome = true →
        k' = k ∨ (lookup m k').isSome = true := by
  unfold insertNew
  rcases h : lookup m k with _ | v
  · refine ⟨fun k' v hk => ?_, ?_, .inr ⟨rfl, rfl, by simp [values]⟩, fun k' hk => ?_⟩
    · rw [lookup_append, hk]; rfl
    · rw [lookup_append, h]; simp [lookup]
    · rw [lookup_append] at hk
      by_cases e : k' = k
      · exact .inl e
      · refine .inr ?_
        have hn : lookup [(k, new)] k' = none := by
          rw [lookup_none]; simp [e]
        rw [hn, Option.or_none] at hk
        exact hk
  · exact ⟨fun _ _ h => h, h, .inl rfl, fun k' hk => .inr hk⟩

/-! ### first order -/

theorem visitNodes_spec {alloc : List Nat → Nat} {other : List Nat} (ha : ∀ l, alloc l ∉ l)
    (ns : List Nat) (m : Map Nat) (hv : (other ++ values m).Nodup) :
    let r := visitNodes alloc other m ns
    (other ++ values r.1).Nodup ∧ Extends m r.1 ∧ r.2.map some = ns.map (lookup r.1) ∧
      ∀ k, (lookup r.1 k).isSome = true → k ∈ ns ∨ (lookup m k).isSome = true := by
  induction ns generalizing m with
  | nil => exact ⟨hv, .refl _, rfl, fun k h => .inr h⟩
  | cons n ns ih =>
    obtain ⟨e1, e2, e3, e4⟩ := insertNew_spec m n (alloc (other ++ values m))
    have hv' : (other ++ values (insertNew m n (alloc (other ++ values m))).1).Nodup := by
      rcases e3 with e | ⟨_, _, e⟩
      · rw [e]; exact hv
      · rw [e, ← List.append_assoc, List.nodup_append]
        refine ⟨hv, by simp, ?_⟩
        intro a h1 b h2 h3
        simp only [List.mem_singleton] at h2
        rw [h3, h2] at h1
        exact ha _ h1
    obtain ⟨i1, i2, i3, i4⟩ := ih _ hv'
    refine ⟨i1, e1.trans i2, ?_, fun k hk => ?_⟩
    · simp only [visitNodes, List.map_cons, i3, List.cons.injEq, and_true]
      exact (i2 _ _ e2).symm
    · rcases i4 k hk with h | h
      · exact .inl (by simp [h])
      · rcases e4 k h with h | h
        · exact .inl (by simp [h])
        · exact .inr h

theorem elementsP1_spec {alloc : List Nat → Nat} {other : List Nat} (ha : ∀ l, alloc l ∉ l)
    (cells : List (List Nat)) (m : Map Nat) (hv : (other ++ values m).Nodup) :
    let r := elementsP1 alloc other m cells
    (other ++ values r.1).Nodup ∧ Extends m r.1 ∧
      r.2.map (·.map some) = cells.map (·.map (lookup r.1)) ∧
      ∀ k, (lookup r.1 k).isSome = true → k ∈ cells.flatten ∨ (lookup m k).isSome = true := by
  induction cells generalizing m with
  | nil => exact ⟨hv, .refl _, rfl, fun k h => .inr h⟩
  | cons c cs ih =>
    obtain ⟨e1, e2, e3, e4⟩ := visitNodes_spec ha c m hv
    obtain ⟨i1, i2, i3, i4⟩ := ih _ e1
    refine ⟨i1, e2.trans i2, ?_, fun k hk => ?_⟩
    · simp only [elementsP1, List.map_cons, i3, List.cons.injEq, and_true, e3]
      apply List.map_congr_left
      intro n hn
      have : lookup (visitNodes alloc other m c).1 n ∈
          (visitNodes alloc other m c).2.map some := by
        rw [e3]; exact List.mem_map.mpr ⟨n, hn, rfl⟩
      obtain ⟨d, _, hd⟩ := List.mem_map.mp this
      rw [← hd, i2 _ _ hd.symm]
    · rcases i4 k hk with h | h
      · exact .inl (by simp at h ⊢; exact .inr h)
      · rcases e4 k h with h | h
        · exact .inl (by simp [h])
        · exact .inr h

theorem map_some_inj {l : List (List Nat)} {c : List (List Nat)} {f : Nat → Option Nat}
    (h : l.map (·.map some) = c.map (·.map f)) :
    l = c.map (·.map fun n => (f n).getD 0) := by
  have e : (l.map (·.map some)).map (·.map fun o => o.getD 0) = l := by
    simp [List.map_map, Function.comp_def]
  rw [← e, h]
  simp [List.map_map, Function.comp_def]

/-- the result of the first order discretizers: an injective assignment of nodes -/
theorem elementsP1_eq {alloc : List Nat → Nat} {other : List Nat} (ha : ∀ l, alloc l ∉ l)
    (ho : other.Nodup) (cells : List (List Nat)) :
    ∃ f : Nat → Nat, (elementsP1 alloc other [] cells).2 = cells.map (·.map f) ∧
      (∀ n ∈ cells.flatten, lookup (elementsP1 alloc other [] cells).1 n = some (f n)) ∧
      (∀ n ∉ cells.flatten, lookup (elementsP1 alloc other [] cells).1 n = none) ∧
      (∀ n ∈ cells.flatten, f n ∉ other) ∧
      ∀ n ∈ cells.flatten, ∀ n' ∈ cells.flatten, f n = f n' → n = n' := by
  obtain ⟨h1, _, h3, h4⟩ := elementsP1_spec ha cells [] (by simpa [values] using ho)
  have hl : ∀ n ∈ cells.flatten, lookup (elementsP1 alloc other [] cells).1 n =
      some ((lookup (elementsP1 alloc other [] cells).1 n).getD 0) := by
    intro n hn
    obtain ⟨c, hc, hnc⟩ := List.mem_flatten.mp hn
    have : c.map (lookup (elementsP1 alloc other [] cells).1) ∈
        (elementsP1 alloc other [] cells).2.map (·.map some) := by
      rw [h3]; exact List.mem_map.mpr ⟨c, hc, rfl⟩
    obtain ⟨e, _, he⟩ := List.mem_map.mp this
    have : lookup (elementsP1 alloc other [] cells).1 n ∈ e.map some := by
      rw [he]; exact List.mem_map.mpr ⟨n, hnc, rfl⟩
    obtain ⟨d, _, hd⟩ := List.mem_map.mp this
    rw [← hd]; rfl
  rw [List.nodup_append] at h1
  refine ⟨fun n => (lookup (elementsP1 alloc other [] cells).1 n).getD 0, map_some_inj h3, hl, ?_, ?_, ?_⟩
  · intro n hn
    rcases h : lookup (elementsP1 alloc other [] cells).1 n with _ | v
    · rfl
    · rcases h4 n (by rw [h]; rfl) with h' | h'
      · exact absurd h' hn
      · simp [lookup] at h'
  · intro n hn hm
    exact h1.2.2 _ hm _ (lookup_mem_values (hl n hn)) rfl
  · intro n hn n' hn' e
    refine lookup_inj h1.2.1 (hl n hn) ?_
    rw [hl n' hn']
    exact congrArg some e.symm

theorem constrainedP1_eq {m : Map Nat} {f : Nat → Nat} {dom : List Nat}
    (h : ∀ n ∈ dom, lookup m n = some (f n)) : constrainedP1 m dom = .ok (dom.map f) := by
  induction dom with
  | nil => rfl
  | cons n ns ih =>
    rw [constrainedP1, h n (by simp), ih fun n hn => h n (by simp [hn])]
    rfl

theorem constrainedP1_undefined {m : Map Nat} {dom : List Nat} {n : Nat} (hn : n ∈ dom)
    (h : lookup m n = none) : constrainedP1 m dom = .undefined := by
  induction dom with
  | nil => simp at hn
  | cons x ns ih =>
    rw [constrainedP1]
    rcases hx : lookup m x with _ | d
    · rfl
    · have : n ∈ ns := by
        rcases List.mem_cons.mp hn with rfl | hn
        · rw [h] at hx; simp at hx
        · exact hn
      rw [ih this]

/-! ### second order -/

theorem ordered_comm (a b : Nat) : ordered a b = ordered b a := by
  unfold ordered
  split <;> split <;> simp <;> omega

theorem ordered_eq_iff {a b c d : Nat} : ordered a b = ordered c d ↔ s(a, b) = s(c, d) := by
  unfold ordered
  rw [Sym2.eq_iff]
  split <;> split <;> simp <;> omega

/-- the second pair of maps has all that the first has -/
def Extends2 (s t : Maps) : Prop := Extends s.nodes t.nodes ∧ Extends s.mids t.mids

theorem Extends2.refl (s : Maps) : Extends2 s s := ⟨.refl _, .refl _⟩
theorem Extends2.trans {s t u : Maps} (h : Extends2 s t) (h' : Extends2 t u) : Extends2 s u :=
  ⟨h.1.trans h'.1, h.2.trans h'.2⟩

theorem addNode_spec {alloc : List Nat → Nat} {other : List Nat} (ha : ∀ l, alloc l ∉ l) (s : Maps)
    (n : Nat) (hv : (live other s).Nodup) :
    let r := addNode alloc other s n
    (live other r.1).Nodup ∧ Extends2 s r.1 ∧ lookup r.1.nodes n = some r.2 ∧
      r.1.mids = s.mids ∧
      ∀ k, (lookup r.1.nodes k).isSome = true → k = n ∨ (lookup s.nodes k).isSome = true := by
  obtain ⟨e1, e2, e3, e4⟩ := insertNew_spec s.nodes n (alloc (live other s))
  refine ⟨?_, ⟨e1, .refl _⟩, e2, rfl, e4⟩
  rcases e3 with e | ⟨_, _, e⟩
  · rw [show live other (addNode alloc other s n).1 = other ++ (values
      (insertNew s.nodes n (alloc (live other s))).1 ++ values s.mids) from rfl, e]
    exact hv
  · rw [show live other (addNode alloc other s n).1 = other ++ (values
      (insertNew s.nodes n (alloc (live other s))).1 ++ values s.mids) from rfl, e]
    have : (alloc (live other s) :: live other s).Nodup := List.nodup_cons.mpr ⟨ha _, hv⟩
    refine (List.Perm.nodup_iff ?_).mp this
    have p : (values s.nodes ++ [alloc (live other s)] ++ values s.mids).Perm
        (alloc (live other s) :: (values s.nodes ++ values s.mids)) := by
      rw [List.append_assoc]; exact List.perm_middle
    refine List.Perm.symm ?_
    refine ((List.Perm.refl other).append p).trans ?_
    exact List.perm_middle

theorem addMid_spec {alloc : List Nat → Nat} {other : List Nat} (ha : ∀ l, alloc l ∉ l) (s : Maps)
    (a b : Nat) (hv : (live other s).Nodup) :
    let r := addMid alloc other s a b
    (live other r.1).Nodup ∧ Extends2 s r.1 ∧ lookup r.1.mids (ordered a b) = some r.2 ∧
      r.1.nodes = s.nodes ∧
      ∀ k, (lookup r.1.mids k).isSome = true → k = ordered a b ∨ (lookup s.mids k).isSome = true := by
  obtain ⟨e1, e2, e3, e4⟩ := insertNew_spec s.mids (ordered a b) (alloc (live other s))
  refine ⟨?_, ⟨.refl _, e1⟩, e2, rfl, e4⟩
  rcases e3 with e | ⟨_, _, e⟩
  · rw [show live other (addMid alloc other s a b).1 = other ++ (values s.nodes ++ values
      (insertNew s.mids (ordered a b) (alloc (live other s))).1) from rfl, e]
    exact hv
  · rw [show live other (addMid alloc other s a b).1 = other ++ (values s.nodes ++ values
      (insertNew s.mids (ordered a b) (alloc (live other s))).1) from rfl, e]
    have hx := ha (live other s)
    generalize alloc (live other s) = x at hx ⊢
    rw [← List.append_assoc, ← List.append_assoc, List.nodup_append]
    rw [live, ← List.append_assoc] at hv hx
    refine ⟨hv, by simp, ?_⟩
    intro x h1 y h2 h3
    simp only [List.mem_singleton] at h2
    rw [h3, h2] at h1
    exact hx h1

/-- the node of a place, according to the maps -/
def lookupPlace (s : Maps) : Nat ⊕ Sym2 Nat → Option Nat
  | .inl n => lookup s.nodes n
  | .inr e => e.lift ⟨fun a b => match lookup s.nodes a, lookup s.nodes b with
    | some x, some y => lookup s.mids (ordered x y)
    | _, _ => none, fun a b => by
      dsimp only
      rcases lookup s.nodes a with _ | x <;> rcases lookup s.nodes b with _ | y <;> simp
      rw [ordered_comm]⟩

theorem lookupPlace_inr (s : Maps) (a b x y : Nat) (ha : lookup s.nodes a = some x)
    (hb : lookup s.nodes b = some y) : lookupPlace s (.inr s(a, b)) = lookup s.mids (ordered x y) := by
  simp [lookupPlace, ha, hb]

theorem lookupPlace_extends {s t : Maps} (h : Extends2 s t) {p : Nat ⊕ Sym2 Nat} {v : Nat}
    (hp : lookupPlace s p = some v) : lookupPlace t p = some v := by
  rcases p with n | e
  · exact h.1 _ _ hp
  · induction e using Sym2.ind with
    | _ a b =>
      simp only [lookupPlace, Sym2.lift_mk] at hp ⊢
      rcases ha : lookup s.nodes a with _ | x
      · rw [ha] at hp; simp at hp
      · rcases hb : lookup s.nodes b with _ | y
        · rw [ha, hb] at hp; simp at hp
        · rw [ha, hb] at hp
          simp only at hp
          rw [h.1 _ _ ha, h.1 _ _ hb]
          exact h.2 _ _ hp

/-- the keys of the maps: nodes and edges of the cells -/
structure KeysIn (cells : List Cell) (s : Maps) : Prop where
  nodes : ∀ k, (lookup s.nodes k).isSome = true → .inl k ∈ cells.flatMap places
  mids : ∀ k, (lookup s.mids k).isSome = true → ∃ a b x y, lookup s.nodes a = some x ∧
    lookup s.nodes b = some y ∧ k = ordered x y ∧ .inr s(a, b) ∈ cells.flatMap places

theorem elementP2_spec {alloc : List Nat → Nat} {other : List Nat} (ha : ∀ l, alloc l ∉ l) (s : Maps)
    (c : Cell) (hv : (live other s).Nodup) (cells : List Cell) (hk : KeysIn cells s) :
    let r := elementP2 alloc other s c
    (live other r.1).Nodup ∧ Extends2 s r.1 ∧ r.2.map some = (places c).map (lookupPlace r.1) ∧
      KeysIn (cells ++ [c]) r.1 := by
  obtain ⟨v0, x0, l0, m0, k0⟩ := addNode_spec ha s c.1 hv
  set r0 := addNode alloc other s c.1 with hr0
  obtain ⟨v1, x1, l1, m1, k1⟩ := addNode_spec ha r0.1 c.2.1 v0
  set r1 := addNode alloc other r0.1 c.2.1 with hr1
  obtain ⟨v2, x2, l2, m2, k2⟩ := addNode_spec ha r1.1 c.2.2 v1
  set r2 := addNode alloc other r1.1 c.2.2 with hr2
  obtain ⟨v3, x3, l3, m3, k3⟩ := addMid_spec ha r2.1 r0.2 r1.2 v2
  set r3 := addMid alloc other r2.1 r0.2 r1.2 with hr3
  obtain ⟨v4, x4, l4, m4, k4⟩ := addMid_spec ha r3.1 r1.2 r2.2 v3
  set r4 := addMid alloc other r3.1 r1.2 r2.2 with hr4
  obtain ⟨v5, x5, l5, m5, k5⟩ := addMid_spec ha r4.1 r2.2 r0.2 v4
  set r5 := addMid alloc other r4.1 r2.2 r0.2 with hr5
  have hel : elementP2 alloc other s c = (r5.1, [r0.2, r1.2, r2.2, r3.2, r4.2, r5.2]) := rfl
  rw [hel]
  have y45 := x4.trans x5
  have y35 := x3.trans y45
  have y25 := x2.trans y35
  have y15 := x1.trans y25
  have n0 : lookup r5.1.nodes c.1 = some r0.2 := y15.1 _ _ l0
  have n1 : lookup r5.1.nodes c.2.1 = some r1.2 := y25.1 _ _ l1
  have n2 : lookup r5.1.nodes c.2.2 = some r2.2 := y35.1 _ _ l2
  have hmem : ∀ p ∈ places c, p ∈ (cells ++ [c]).flatMap places := fun p hp =>
    List.mem_flatMap.mpr ⟨c, by simp, hp⟩
  have hold : ∀ p ∈ cells.flatMap places, p ∈ (cells ++ [c]).flatMap places := fun p hp => by
    obtain ⟨c', h1, h2⟩ := List.mem_flatMap.mp hp
    exact List.mem_flatMap.mpr ⟨c', by simp [h1], h2⟩
  refine ⟨v5, x0.trans y15, ?_, ?_, ?_⟩
  · simp only [List.map_cons, List.map_nil, places, lookupPlace_inr _ _ _ _ _ n0 n1,
      lookupPlace_inr _ _ _ _ _ n1 n2, lookupPlace_inr _ _ _ _ _ n2 n0]
    simp only [lookupPlace, n0, n1, n2, y45.2 _ _ l3, x5.2 _ _ l4, l5]
  · intro k h
    have h' : (lookup r2.1.nodes k).isSome = true := by
      rw [← m3, ← m4, ← m5]; exact h
    rcases k2 k h' with rfl | h'
    · exact hmem _ (by simp [places])
    · rcases k1 k h' with rfl | h'
      · exact hmem _ (by simp [places])
      · rcases k0 k h' with rfl | h'
        · exact hmem _ (by simp [places])
        · exact hold _ (hk.nodes k h')
  · intro k h
    rcases k5 k h with rfl | h
    · exact ⟨_, _, _, _, n2, n0, rfl, hmem _ (by simp [places])⟩
    · rcases k4 k h with rfl | h
      · exact ⟨_, _, _, _, n1, n2, rfl, hmem _ (by simp [places])⟩
      · rcases k3 k h with rfl | h
        · exact ⟨_, _, _, _, n0, n1, rfl, hmem _ (by simp [places])⟩
        · rw [m2, m1, m0] at h
          obtain ⟨a, b, x, y, ea, eb, ek, em⟩ := hk.mids k h
          exact ⟨a, b, x, y, (x0.trans y15).1 _ _ ea, (x0.trans y15).1 _ _ eb, ek, hold _ em⟩

theorem elementsP2_spec {alloc : List Nat → Nat} {other : List Nat} (ha : ∀ l, alloc l ∉ l)
    (cells : List Cell) (s : Maps) (hv : (live other s).Nodup) (before : List Cell)
    (hk : KeysIn before s) :
    let r := elementsP2 alloc other s cells
    (live other r.1).Nodup ∧ Extends2 s r.1 ∧
      r.2.map (·.map some) = cells.map (fun c => (places c).map (lookupPlace r.1)) ∧
      KeysIn (before ++ cells) r.1 := by
  induction cells generalizing s before with
  | nil => exact ⟨hv, .refl _, rfl, by rw [List.append_nil]; exact hk⟩
  | cons c cs ih =>
    obtain ⟨e1, e2, e3, e4⟩ := elementP2_spec ha s c hv before hk
    obtain ⟨i1, i2, i3, i4⟩ := ih _ e1 _ e4
    refine ⟨i1, e2.trans i2, ?_, ?_⟩
    · simp only [elementsP2, List.map_cons, i3, List.cons.injEq, and_true, e3]
      apply List.map_congr_left
      intro p hp
      have : lookupPlace (elementP2 alloc other s c).1 p ∈
          (elementP2 alloc other s c).2.map some := by
        rw [e3]; exact List.mem_map.mpr ⟨p, hp, rfl⟩
      obtain ⟨d, _, hd⟩ := List.mem_map.mp this
      rw [← hd, lookupPlace_extends i2 hd.symm]
    · rw [show before ++ c :: cs = before ++ [c] ++ cs by simp]; exact i4

theorem lookupPlace_mem {s : Maps} {p : Nat ⊕ Sym2 Nat} {v : Nat} (h : lookupPlace s p = some v) :
    (∃ n, p = .inl n ∧ v ∈ values s.nodes) ∨ (∃ e, p = .inr e ∧ v ∈ values s.mids) := by
  rcases p with n | e
  · exact .inl ⟨n, rfl, lookup_mem_values h⟩
  · refine .inr ⟨e, rfl, ?_⟩
    induction e using Sym2.ind with
    | _ a b =>
      simp only [lookupPlace, Sym2.lift_mk] at h
      rcases ha : lookup s.nodes a with _ | x
      · rw [ha] at h; simp at h
      · rcases hb : lookup s.nodes b with _ | y
        · rw [ha, hb] at h; simp at h
        · rw [ha, hb] at h
          exact lookup_mem_values h

theorem lookupPlace_inj {s : Maps} {other : List Nat} (hv : (live other s).Nodup)
    {p q : Nat ⊕ Sym2 Nat} {v : Nat} (hp : lookupPlace s p = some v) (hq : lookupPlace s q = some v) :
    p = q := by
  rw [live, List.nodup_append] at hv
  have hv1 := List.nodup_append.mp hv.2.1
  rcases lookupPlace_mem hp with ⟨n, rfl, h1⟩ | ⟨e, rfl, h1⟩ <;>
    rcases lookupPlace_mem hq with ⟨n', rfl, h2⟩ | ⟨e', rfl, h2⟩
  · exact congrArg Sum.inl (lookup_inj hv1.1 hp hq)
  · exact absurd rfl (hv1.2.2 _ h1 _ h2)
  · exact absurd rfl (hv1.2.2 _ h2 _ h1)
  · congr 1
    induction e using Sym2.ind with
    | _ a b =>
      induction e' using Sym2.ind with
      | _ a' b' =>
        simp only [lookupPlace, Sym2.lift_mk] at hp hq
        rcases ha : lookup s.nodes a with _ | x
        · rw [ha] at hp; simp at hp
        rcases hb : lookup s.nodes b with _ | y
        · rw [ha, hb] at hp; simp at hp
        rcases ha' : lookup s.nodes a' with _ | x'
        · rw [ha'] at hq; simp at hq
        rcases hb' : lookup s.nodes b' with _ | y'
        · rw [ha', hb'] at hq; simp at hq
        rw [ha, hb] at hp
        rw [ha', hb'] at hq
        have := lookup_inj hv1.2.1 hp hq
        rw [ordered_eq_iff, Sym2.eq_iff] at this
        rw [Sym2.eq_iff]
        rcases this with ⟨rfl, rfl⟩ | ⟨rfl, rfl⟩
        · exact .inl ⟨lookup_inj hv1.1 ha ha', lookup_inj hv1.1 hb hb'⟩
        · exact .inr ⟨lookup_inj hv1.1 ha hb', lookup_inj hv1.1 hb ha'⟩

/-- the result of the second order discretizer: an injective assignment of nodes to places -/
theorem elementsP2_eq {alloc : List Nat → Nat} {other : List Nat} (ha : ∀ l, alloc l ∉ l)
    (ho : other.Nodup) (cells : List Cell) :
    ∃ f : Nat ⊕ Sym2 Nat → Nat,
      (elementsP2 alloc other ⟨[], []⟩ cells).2 = cells.map (fun c => (places c).map f) ∧
      (∀ p ∈ cells.flatMap places,
        lookupPlace (elementsP2 alloc other ⟨[], []⟩ cells).1 p = some (f p)) ∧
      (∀ p ∉ cells.flatMap places,
        lookupPlace (elementsP2 alloc other ⟨[], []⟩ cells).1 p = none) ∧
      (∀ p ∈ cells.flatMap places, f p ∉ other) ∧
      ∀ p ∈ cells.flatMap places, ∀ q ∈ cells.flatMap places, f p = f q → p = q := by
  obtain ⟨h1, _, h3, h4⟩ := elementsP2_spec ha cells ⟨[], []⟩ (by simpa [live, values] using ho) []
    ⟨by simp [lookup], by simp [lookup]⟩
  set r := elementsP2 alloc other ⟨[], []⟩ cells with hr
  have hl : ∀ p ∈ cells.flatMap places, lookupPlace r.1 p = some ((lookupPlace r.1 p).getD 0) := by
    intro p hp
    obtain ⟨c, hc, hpc⟩ := List.mem_flatMap.mp hp
    have : (places c).map (lookupPlace r.1) ∈ r.2.map (·.map some) := by
      rw [h3]; exact List.mem_map.mpr ⟨c, hc, rfl⟩
    obtain ⟨e, _, he⟩ := List.mem_map.mp this
    have : lookupPlace r.1 p ∈ e.map some := by
      rw [he]; exact List.mem_map.mpr ⟨p, hpc, rfl⟩
    obtain ⟨d, _, hd⟩ := List.mem_map.mp this
    rw [← hd]; rfl
  refine ⟨fun p => (lookupPlace r.1 p).getD 0, ?_, hl, ?_, ?_, ?_⟩
  · have e : (r.2.map (·.map some)).map (·.map fun o => o.getD 0) = r.2 := by
      simp [List.map_map, Function.comp_def]
    rw [← e, h3]
    simp [List.map_map, Function.comp_def]
  · intro p hp
    rcases h : lookupPlace r.1 p with _ | v
    · rfl
    · exfalso
      apply hp
      rcases p with n | e
      · simpa using h4.nodes n (by rw [show lookup r.1.nodes n = _ from h]; rfl)
      · induction e using Sym2.ind with
        | _ a b =>
          simp only [lookupPlace, Sym2.lift_mk] at h
          rcases ha' : lookup r.1.nodes a with _ | x
          · rw [ha'] at h; simp at h
          rcases hb' : lookup r.1.nodes b with _ | y
          · rw [ha', hb'] at h; simp at h
          rw [ha', hb'] at h
          obtain ⟨a', b', x', y', ea, eb, ek, em⟩ := h4.mids (ordered x y) (by
            rw [show lookup r.1.mids (ordered x y) = _ from h]; rfl)
          rw [ordered_eq_iff, Sym2.eq_iff] at ek
          rw [live, List.nodup_append] at h1
          have hv1 := List.nodup_append.mp h1.2.1
          have : s(a, b) = s(a', b') := by
            rw [Sym2.eq_iff]
            rcases ek with ⟨rfl, rfl⟩ | ⟨rfl, rfl⟩
            · exact .inl ⟨lookup_inj hv1.1 ha' ea, lookup_inj hv1.1 hb' eb⟩
            · exact .inr ⟨lookup_inj hv1.1 ha' eb, lookup_inj hv1.1 hb' ea⟩
          rw [this]
          simpa using em
  · intro p hp hm
    rw [live, List.nodup_append] at h1
    refine h1.2.2 _ hm ((lookupPlace r.1 p).getD 0) ?_ rfl
    rcases lookupPlace_mem (hl p hp) with ⟨_, _, h⟩ | ⟨_, _, h⟩
    · exact List.mem_append_left _ h
    · exact List.mem_append_right _ h
  · intro p hp q hq e
    refine lookupPlace_inj h1 (hl p hp) ?_
    rw [hl q hq]
    exact congrArg some e.symm

end Mito.Discretizer
