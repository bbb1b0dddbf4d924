import Verif.Spec.Mesh
import Verif.Props.Containers

/-! # Helper lemmas for meshes -/

set_option linter.unusedSimpArgs false
set_option linter.unusedVariables false

namespace Mito.Meshes

open Mito.Alloc Mito.SegVec

variable {α : Type} {fac : α → List (Nat × Int)}

/-! ### The orientation map -/

theorem recount_perm {F G : List (Nat × Int)} (h : F.Perm G) : recount F = recount G := by
  funext k
  simp only [recount, h.countP_eq]

theorem recount_nil : recount [] = fun _ => none := by funext k; simp [recount]

theorem recount_cons_ne {F : List (Nat × Int)} {f : Nat × Int} {k : Nat} (e : ¬ k = f.1) :
    recount (f :: F) k = recount F k := by
  have e' : ¬ f.1 = k := fun h => e h.symm
  have h1 : (f :: F).countP (fun g => g.1 = k) = F.countP (fun g => g.1 = k) := by
    rw [List.countP_cons]; simp [e']
  unfold recount
  rw [h1]
  simp [List.countP_cons, e']

theorem bump_recount (F : List (Nat × Int)) (f : Nat × Int) :
    bump 1 (recount F) f = recount (f :: F) := by
  funext k
  unfold bump
  by_cases e : k = f.1
  · subst e
    rw [Function.update_self]
    have h0 : (f :: F).countP (fun g => g.1 = f.1) ≠ 0 := by simp [List.countP_cons]
    have key : (recount F f.1).getD (0, 0) =
        ((F.countP (fun g => g.1 = f.1 ∧ g.2 = 1) : Int), (F.countP (fun g => g.1 = f.1 ∧ g.2 ≠ 1) : Int)) := by
      unfold recount
      split
      · rename_i hz
        rw [List.countP_eq_zero] at hz
        have h1 : F.countP (fun g => g.1 = f.1 ∧ g.2 = 1) = 0 := by
          rw [List.countP_eq_zero]; intro a ha; have := hz a ha; simp at this; simp [this]
        have h2 : F.countP (fun g => g.1 = f.1 ∧ g.2 ≠ 1) = 0 := by
          rw [List.countP_eq_zero]; intro a ha; have := hz a ha; simp at this; simp [this]
        rw [h1, h2]; rfl
      · rfl
    rw [key]
    rw [recount, if_neg h0]
    by_cases hs : f.2 = 1
    · simp [List.countP_cons, hs]
    · simp [List.countP_cons, hs]
  · rw [Function.update_of_ne e]
    rw [recount_cons_ne e]

theorem unbump_recount (F : List (Nat × Int)) (f : Nat × Int) :
    unbump (recount (f :: F)) f = recount F := by
  have h0 : (f :: F).countP (fun g => g.1 = f.1) ≠ 0 := by simp [List.countP_cons]
  have hb : bump (-1) (recount (f :: F)) f f.1 = some
      ((F.countP (fun g => g.1 = f.1 ∧ g.2 = 1) : Int), (F.countP (fun g => g.1 = f.1 ∧ g.2 ≠ 1) : Int)) := by
    unfold bump
    rw [Function.update_self, recount, if_neg h0]
    by_cases hs : f.2 = 1 <;> simp [List.countP_cons, hs]
  have hsum : F.countP (fun g => g.1 = f.1) =
      F.countP (fun g => g.1 = f.1 ∧ g.2 = 1) + F.countP (fun g => g.1 = f.1 ∧ g.2 ≠ 1) := by
    clear h0 hb
    induction F with
    | nil => simp
    | cons g F ih =>
      simp only [List.countP_cons, ih]
      by_cases e1 : g.1 = f.1 <;> by_cases e2 : g.2 = 1 <;> simp [e1, e2] <;> omega
  funext k
  unfold unbump
  by_cases e : k = f.1
  · subst e
    by_cases hz : F.countP (fun g => g.1 = f.1) = 0
    · have : bump (-1) (recount (f :: F)) f f.1 = some (0, 0) := by
        rw [hb]
        congr 2 <;> omega
      simp only [this, if_true, Function.update_self]
      rw [recount, if_pos hz]
    · have : bump (-1) (recount (f :: F)) f f.1 ≠ some (0, 0) := by
        rw [hb]
        intro h
        simp only [Option.some.injEq, Prod.mk.injEq] at h
        omega
      simp only [this, if_false]
      rw [hb, recount, if_neg hz]
  · have h1 : bump (-1) (recount (f :: F)) f k = recount F k := by
      unfold bump
      rw [Function.update_of_ne e]
      rw [recount_cons_ne e]
    split
    · rw [Function.update_of_ne e, h1]
    · exact h1

theorem register_recount (F : List (Nat × Int)) (c : α) :
    register fac (recount F) c = recount (fac c ++ F) := by
  unfold register
  generalize fac c = fs
  induction fs generalizing F with
  | nil => rfl
  | cons f fs ih =>
    rw [List.foldl_cons, bump_recount, ih]
    apply recount_perm
    simp only [List.cons_append]
    exact List.perm_middle

theorem unregister_recount (F : List (Nat × Int)) (fs : List (Nat × Int)) :
    fs.foldl unbump (recount (fs ++ F)) = recount F := by
  induction fs with
  | nil => rfl
  | cons f fs ih =>
    rw [List.foldl_cons, List.cons_append, unbump_recount, ih]

/-! ### The live cells, in order -/

theorem filterMap_add_perm {l : List Nat} (hl : l.Nodup) {a : Nat} (ha : a ∈ l) (s : Abs α)
    (hs : s a = none) (c : α) : (l.filterMap (s.add a c)).Perm (c :: l.filterMap s) := by
  obtain ⟨l1, l2, rfl⟩ := List.append_of_mem ha
  have hnd := hl
  rw [List.nodup_append] at hl
  obtain ⟨h1, h2, h3⟩ := hl
  rw [List.nodup_cons] at h2
  have e1 : l1.filterMap (s.add a c) = l1.filterMap s := by
    apply List.filterMap_congr
    intro x hx
    have : x ≠ a := h3 x hx a (by simp)
    simp [Abs.add, this]
  have e2 : l2.filterMap (s.add a c) = l2.filterMap s := by
    apply List.filterMap_congr
    intro x hx
    have : x ≠ a := fun e => h2.1 (e ▸ hx)
    simp [Abs.add, this]
  rw [List.filterMap_append, List.filterMap_append, e1, List.filterMap_cons, List.filterMap_cons, hs,
    e2]
  simp [Abs.add]

theorem filterMap_remove_perm {l : List Nat} (hl : l.Nodup) {a : Nat} (ha : a ∈ l) (s : Abs α)
    {c : α} (hs : s a = some c) : (l.filterMap s).Perm (c :: l.filterMap (s.remove a)) := by
  have : s = (s.remove a).add a c := by
    funext x
    by_cases e : x = a <;> simp [Abs.add, Abs.remove, e, hs]
  conv_lhs => rw [this]
  exact filterMap_add_perm hl ha _ (by simp [Abs.remove]) c

theorem Abs.remove_of_none {s : Abs α} {a : Nat} (h : s a = none) : s.remove a = s := by
  funext x
  by_cases e : x = a <;> simp [Abs.remove, e, h]

/-- the invariant of reachable meshes -/
structure MInv (fac : α → List (Nat × Int)) (m : Mesh α) (s : Abs α) (known : Finset Nat)
    (w : World) : Prop where
  coupled : Coupled 100 m.cells s known w
  orient : m.orient = recount ((w.slots.filterMap s).flatMap fac)

theorem MInv.init : MInv fac (Mesh.init : Mesh α) (fun _ => none) ∅ ⟨.init 100, ∅, [], []⟩ where
  coupled := Coupled.init 100
  orient := by simp [Mesh.init, recount_nil]

theorem MInv.insert {m : Mesh α} {s : Abs α} {known : Finset Nat} {w : World}
    (h : MInv fac m s known w) (c : α) (b : Nat) (hb : FreshBlock m.cells.alloc b) :
    ∃ m', m.insert fac c true b = some (m', w.loc b) ∧ s (w.loc b) = none ∧
      MInv fac m' (s.add (w.loc b) c) (insert (w.loc b) known) (w.insert b) := by
  obtain ⟨v', h1, _, h2⟩ := h.coupled.emplace (by decide) c b hb
  have hnl := (h.coupled.reach.insert_cases (by decide) b (by rw [h.coupled.alloc]; exact hb)).1
  have hs : s (w.loc b) = none := by
    rw [h.coupled.live] at hnl
    simpa using hnl
  refine ⟨⟨v', register fac m.orient c⟩, by simp [Mesh.insert, h1], hs, h2, ?_⟩
  show register fac m.orient c = _
  rw [h.orient, register_recount]
  apply recount_perm
  rw [← List.flatMap_cons]
  have hslots : ((w.insert b).slots.filterMap (s.add (w.loc b) c)).Perm
      (c :: w.slots.filterMap s) := by
    have hin : w.loc b ∈ (w.insert b).slots := (h2.known _).1 (by simp)
    have p := filterMap_add_perm (h2.reach.slots_nodup (by decide)) hin s hs c
    refine p.trans (List.Perm.cons _ ?_)
    have : (w.insert b).slots.filterMap s = w.slots.filterMap s := by
      unfold World.insert
      simp only
      split
      · rw [List.filterMap_append]; simp [hs]
      · rfl
    rw [this]
  exact (hslots.flatMap_right fac).symm

theorem MInv.erase {m : Mesh α} {s : Abs α} {known : Finset Nat} {w : World}
    (h : MInv fac m s known w) (a : Nat) (ha : a ∈ known) :
    ∃ m' w', m.erase fac a = some m' ∧ (w' = w ∨ a ∈ w.live ∧ w' = w.erase a) ∧
      MInv fac m' (s.remove a) known w' := by
  obtain ⟨v', r, h1, h2, h3, _, w', hw, h4⟩ := h.coupled.erase a ha
  have hs := (h.coupled.known a).1 ha
  obtain ⟨⟨c, b⟩, ho⟩ := Option.ne_none_iff_exists'.mp ((h.coupled.mem a).2 hs)
  have hsl : w'.slots = w.slots := by
    rcases hw with rfl | ⟨_, rfl⟩ <;> rfl
  refine ⟨⟨v', if r then (fac c).foldl unbump m.orient else m.orient⟩, w',
    by simp [Mesh.erase, ho, h1], hw, h4, ?_⟩
  simp only [hsl]
  cases r with
  | false =>
    have hn : s a = none := by
      by_contra hc
      have := h2.2 hc
      simp at this
    simp only [Bool.false_eq_true, if_false]
    rw [h.orient, Abs.remove_of_none hn]
  | true =>
    have hn : s a ≠ none := h2.1 rfl
    obtain ⟨c', hc'⟩ := Option.ne_none_iff_exists'.mp hn
    have hval := h.coupled.val a c' hc'
    rw [ho] at hval
    obtain ⟨rfl, rfl⟩ := by simpa using hval
    have p := filterMap_remove_perm (h.coupled.reach.slots_nodup (by decide)) hs s hc'
    simp only [if_true]
    rw [h.orient, recount_perm (p.flatMap_right fac), List.flatMap_cons, unregister_recount]

theorem Reachable.inv {m : Mesh α} {s : Abs α} {known : Finset Nat}
    (h : Reachable fac m s known) : ∃ w, MInv fac m s known w := by
  induction h with
  | init => exact ⟨_, MInv.init⟩
  | insert c b _ hb he ih =>
    obtain ⟨w, hw⟩ := ih
    obtain ⟨m', h1, _, h2⟩ := hw.insert c b hb
    rw [h1] at he
    obtain ⟨rfl, rfl⟩ := by simpa using he
    exact ⟨_, h2⟩
  | erase a _ ha he ih =>
    obtain ⟨w, hw⟩ := ih
    obtain ⟨m', w', h1, _, h2⟩ := hw.erase a ha
    rw [h1] at he
    obtain rfl := by simpa using he
    exact ⟨_, h2⟩

theorem MInv.valid {m : Mesh α} {s : Abs α} {known : Finset Nat} {w : World}
    (h : MInv fac m s known w) (a : Nat) : isValidAt m.cells a = (s a).isSome := by
  unfold isValidAt
  cases hs : s a with
  | some c => rw [h.coupled.val a c hs]; rfl
  | none =>
    cases hm : m.cells.mem a with
    | none => rfl
    | some o => have := h.coupled.dead a o hs hm; obtain ⟨x, b⟩ := o; simpa using this

theorem MInv.capacity {m : Mesh α} {s : Abs α} {known : Finset Nat} {w : World}
    (h : MInv fac m s known w) : w.slots.length ≤ SegVec.capacity m.cells := by
  obtain ⟨B, hB⟩ := h.coupled.reach.inv (by decide)
  have hlen := hB.len_le
  rw [SegVec.capacity, ← h.coupled.alloc, Alloc.capacity, hB.nsegs, hB.segSize]
  exact hlen

theorem readAll_filter {mem : Nat → Option (α × Bool)} {s : Abs α}
    (hval : ∀ a x, s a = some x → mem a = some (x, true)) (l : List Nat) :
    readAll mem (l.filter fun a => (s a).isSome) = some (l.filterMap s) := by
  induction l with
  | nil => rfl
  | cons a l ih =>
    cases hs : s a with
    | none => simp [hs, ih]
    | some c => simp [hs, readAll, ih, hval a c hs]

theorem MInv.elements {m : Mesh α} {s : Abs α} {known : Finset Nat} {w : World}
    (h : MInv fac m s known w) (fuel : Nat) (hf : w.slots.length ≤ fuel) :
    SegVec.elements m.cells fuel = some (w.slots.filter fun a => (s a).isSome) := by
  obtain ⟨B, hB⟩ := h.coupled.reach.inv (by decide)
  have hvis := hB.visitValid_spec (by decide) (isValidAt m.cells) fuel hf
  rw [h.coupled.alloc, funext h.valid] at hvis
  unfold SegVec.elements
  rw [funext h.valid]
  exact hvis

theorem MInv.cellList {m : Mesh α} {s : Abs α} {known : Finset Nat} {w : World}
    (h : MInv fac m s known w) : m.cellList = some (w.slots.filterMap s) := by
  unfold Mesh.cellList
  rw [h.elements _ h.capacity]
  exact readAll_filter h.coupled.val _

/-! ### Filling a mesh -/

theorem insertNodes_eq (m : Mesh α) (c : α) (b : Nat) :
    m.insertNodes fac c b = m.insert fac c true b := rfl

theorem insertAll_spec (l : List α) : ∀ (bs : List Nat) {m : Mesh α} {s : Abs α}
    {known : Finset Nat} {w : World}, Reachable fac m s known → MInv fac m s known w →
    w.pending = [] → FreshBlocks fac m l bs →
    ∃ m' s' known' w', m.insertAll fac l bs = some m' ∧ Reachable fac m' s' known' ∧
      MInv fac m' s' known' w' ∧ w'.slots.filterMap s' = w.slots.filterMap s ++ l := by
  induction l with
  | nil => intro bs m s known w hr h hp _; exact ⟨m, s, known, w, rfl, hr, h, by simp⟩
  | cons c l ih =>
    intro bs m s known w hr h hp hf
    cases bs with
    | nil => simp [FreshBlocks] at hf
    | cons b bs =>
      obtain ⟨hb, hf⟩ := hf
      obtain ⟨m1, h1, h2, h3⟩ := h.insert c b hb
      have hnot : w.loc b ∉ w.slots := by
        obtain ⟨_, hc⟩ := h.coupled.reach.insert_cases (by decide) b (by rw [h.coupled.alloc]; exact hb)
        rcases hc with ⟨a, q, hq, _⟩ | ⟨_, hs, _⟩
        · rw [hp] at hq; simp at hq
        · exact hs
      have hsl : (w.insert b).slots = w.slots ++ [w.loc b] := by simp [World.insert, hp]
      obtain ⟨m', s', known', w', e1, e2, e3, e4⟩ := ih bs (.insert c b hr hb h1) h3
        (by simp [World.insert, hp]) (hf m1 _ h1)
      refine ⟨m', s', known', w', ?_, e2, e3, ?_⟩
      · simp only [Mesh.insertAll, insertNodes_eq, h1]
        exact e1
      · rw [e4, hsl, List.filterMap_append]
        have : w.slots.filterMap (s.add (w.loc b) c) = w.slots.filterMap s := by
          apply List.filterMap_congr
          intro x hx
          have : x ≠ w.loc b := fun e => hnot (e ▸ hx)
          simp [Abs.add, this]
        rw [this]
        simp [Abs.add]

theorem freshBlocks_exist (l : List α) : ∀ {m : Mesh α} {s : Abs α} {known : Finset Nat} {w : World},
    MInv fac m s known w → ∃ bs, FreshBlocks fac m l bs := by
  induction l with
  | nil => intro m s known w h; exact ⟨[], trivial⟩
  | cons c l ih =>
    intro m s known w h
    obtain ⟨B, hB⟩ := h.coupled.reach.inv (by decide)
    obtain ⟨b, hb⟩ := hB.exists_fresh
    rw [h.coupled.alloc] at hb
    obtain ⟨m1, h1, h2, h3⟩ := h.insert c b hb
    obtain ⟨bs, hbs⟩ := ih h3
    refine ⟨b :: bs, hb, ?_⟩
    intro m2 a h4
    rw [insertNodes_eq, h1] at h4
    obtain ⟨rfl, rfl⟩ := by simpa using h4
    exact hbs

/-! ### Erasing duplicates -/

theorem filterMap_eq_of_filter_eq {s : Abs α} {l l' : List Nat}
    (h : l.filter (fun a => (s a).isSome) = l'.filter fun a => (s a).isSome) :
    l.filterMap s = l'.filterMap s := by
  have key : ∀ l : List Nat, l.filterMap s = (l.filter fun a => (s a).isSome).filterMap s := by
    intro l
    rw [List.filterMap_filter]
    apply List.filterMap_congr
    intro x _
    cases s x <;> rfl
  rw [key l, key l', h]

theorem eraseDuplicatesFrom_spec {κ : Type} [DecidableEq κ] (key : α → κ) {B : List Nat} (k : Nat) :
    ∀ {m : Mesh α} {s : Abs α} {known : Finset Nat} {w : World} {i : Nat} {it : It} {seen : List κ},
      Reachable fac m s known → MInv fac m s known w → Alloc.Inv 100 w B → ItAt 100 w B i it →
      (s it.ptr).isSome → w.slots.length - i ≤ k → ∀ fuel, k ≤ fuel →
      ∃ m' s' w', eraseDuplicatesFrom fac key w.alloc.endp fuel m it seen = some m' ∧
        Reachable fac m' s' known ∧ MInv fac m' s' known w' ∧ w'.slots = w.slots ∧
        (∀ a ∈ w.slots.take i, s' a = s a) ∧
        (w.slots.drop i).filterMap s' = keepFirst key seen ((w.slots.drop i).filterMap s) := by
  induction k with
  | zero => intro m s known w i it seen _ _ _ hat _ hk; have := hat.lt; omega
  | succ k ih =>
    intro m s known w i it seen hr h hB hat hv hk fuel hf
    obtain ⟨f, rfl⟩ : ∃ f, fuel = f + 1 := ⟨fuel - 1, by omega⟩
    have hlt := hat.lt
    have hptr : it.ptr = w.slots[i] := by rw [hB.slots_get hlt, hat.ptr]
    obtain ⟨c, hc⟩ := Option.isSome_iff_exists.mp hv
    have hmem := h.coupled.val _ _ hc
    have hin : it.ptr ∈ w.slots := by rw [hptr]; exact List.getElem_mem hlt
    have hknown : it.ptr ∈ known := (h.coupled.known _).2 hin
    have hnend : it.ptr ≠ w.alloc.endp := by
      intro e
      rw [hat.ptr] at e
      exact hB.slot_ne_end (by decide) hlt e
    have hdrop : w.slots.drop i = it.ptr :: w.slots.drop (i + 1) := by
      rw [List.drop_eq_getElem_cons hlt, hptr]
    have hnd := h.coupled.reach.slots_nodup (by decide)
    have hnotin : it.ptr ∉ w.slots.drop (i + 1) := by
      have : (w.slots.drop i).Nodup := hnd.sublist (List.drop_sublist _ _)
      rw [hdrop, List.nodup_cons] at this
      exact this.1
    have hnottake : it.ptr ∉ w.slots.take i := by
      have h2 : (w.slots.take i ++ w.slots.drop i).Nodup := by rw [List.take_append_drop]; exact hnd
      rw [List.nodup_append] at h2
      intro hc
      exact h2.2.2 _ hc _ (by rw [hdrop]; simp) rfl
    -- the body of the loop
    obtain ⟨m1, s1, w1, g1, g2, g3, g4, g5, g6, g7⟩ : ∃ m1 s1 w1,
        (if key c ∈ seen then m.erase fac it.ptr else some m) = some m1 ∧
        Reachable fac m1 s1 known ∧ MInv fac m1 s1 known w1 ∧ w1.slots = w.slots ∧
        w1.alloc.endp = w.alloc.endp ∧ Alloc.Inv 100 w1 B ∧
        s1 = (if key c ∈ seen then s.remove it.ptr else s) := by
      by_cases hk : key c ∈ seen
      · obtain ⟨m', w', e1, e2, e3⟩ := h.erase it.ptr hknown
        refine ⟨m', s.remove it.ptr, w', by simp [hk, e1], .erase _ hr hknown e1, e3, ?_, ?_, ?_, by simp [hk]⟩
        · rcases e2 with rfl | ⟨_, rfl⟩ <;> rfl
        · rcases e2 with rfl | ⟨_, rfl⟩ <;> rfl
        · rcases e2 with rfl | ⟨hl, rfl⟩
          · exact hB
          · exact hB.erase hl
      · exact ⟨m, s, w, by simp [hk], hr, h, rfl, rfl, hB, by simp [hk]⟩
    have hs1 : ∀ a, a ≠ it.ptr → s1 a = s a := by
      intro a ha
      rw [g7]
      split
      · simp [Abs.remove, ha]
      · rfl
    have hat1 : ItAt 100 w1 B i it :=
      ⟨by rw [g4]; exact hlt, hat.ptr, hat.segEnd, by rw [hat.end_, g5]⟩
    have hnv := g6.nextValid_spec (by decide) (isValidAt m1.cells) (w1.slots.length - i) hat1 rfl
      (f + 1) (by rw [g4]; omega)
    obtain ⟨it', j, n1, n2, n3, n4, n5, n6, n7⟩ := hnv
    rw [g3.coupled.alloc] at n1
    rw [funext g3.valid] at n5
    have hfm := filterMap_eq_of_filter_eq n5
    rw [g4] at hfm n3 n6 n7
    have hrest : (w.slots.drop (i + 1)).filterMap s1 = (w.slots.drop (i + 1)).filterMap s := by
      apply List.filterMap_congr
      intro a ha
      exact hs1 a (fun e => hnotin (e ▸ ha))
    -- unfold one round
    have hround : eraseDuplicatesFrom fac key w.alloc.endp (f + 1) m it seen =
        eraseDuplicatesFrom fac key w.alloc.endp f m1 it'
          (if key c ∈ seen then seen else key c :: seen) := by
      rw [eraseDuplicatesFrom]
      simp only [hnend, if_false, hmem, g1, n1]
    by_cases hj : j = w.slots.length
    · -- end of the loop
      have hend : it'.ptr = w.alloc.endp := by rw [n6 hj, g5]
      have hnil : (w.slots.drop (i + 1)).filterMap s1 = [] := by rw [hfm, hj]; simp
      refine ⟨m1, s1, w1, ?_, g2, g3, g4, ?_, ?_⟩
      · rw [hround]
        cases f <;> (rw [eraseDuplicatesFrom]; simp [hend])
      · intro a ha
        exact hs1 a (fun e => hnottake (e ▸ ha))
      · rw [hdrop, List.filterMap_cons, List.filterMap_cons, hc, hnil]
        rw [hrest] at hnil
        rw [hnil, g7]
        by_cases hk : key c ∈ seen
        · simp [hk, keepFirst, Abs.remove]
        · simp [hk, keepFirst, hc]
    · have hjl : j < w.slots.length := by omega
      obtain ⟨hat', hv'⟩ := n7 hjl
      have hv'' : (s1 it'.ptr).isSome := by rw [← g3.valid]; exact hv'
      obtain ⟨m', s', w', r1, r2, r3, r4, r5, r6⟩ :=
        ih (seen := if key c ∈ seen then seen else key c :: seen) g2 g3 g6 hat' hv''
          (by rw [g4]; omega) f (by omega)
      rw [g5] at r1
      rw [g4] at r4 r5 r6
      refine ⟨m', s', w', by rw [hround]; exact r1, r2, r3, r4, ?_, ?_⟩
      · intro a ha
        rw [r5 a ?_, hs1 a (fun e => hnottake (e ▸ ha))]
        exact (List.take_prefix_take_left (by omega)).subset ha
      · -- split the slots between `i` and `j`
        have hsplit : w.slots.drop (i + 1) =
            (w.slots.drop (i + 1)).take (j - (i + 1)) ++ w.slots.drop j := by
          conv_lhs => rw [← List.take_append_drop (j - (i + 1)) (w.slots.drop (i + 1))]
          rw [List.drop_drop]
          congr 2
          omega
        have hmidtake : ∀ a ∈ (w.slots.drop (i + 1)).take (j - (i + 1)), a ∈ w.slots.take j := by
          intro a ha
          rw [List.take_drop] at ha
          have := List.mem_of_mem_drop ha
          rwa [show i + 1 + (j - (i + 1)) = j by omega] at this
        have hmid1 : ((w.slots.drop (i + 1)).take (j - (i + 1))).filterMap s1 = [] := by
          have : (w.slots.drop (i + 1)).filterMap s1 =
              ((w.slots.drop (i + 1)).take (j - (i + 1))).filterMap s1 ++
                (w.slots.drop j).filterMap s1 := by
            conv_lhs => rw [hsplit]
            rw [List.filterMap_append]
          rw [hfm] at this
          exact (List.append_left_eq_self.mp this.symm)
        have hmid' : ((w.slots.drop (i + 1)).take (j - (i + 1))).filterMap s' = [] := by
          rw [← hmid1]
          apply List.filterMap_congr
          intro a ha
          exact r5 a (hmidtake a ha)
        have hptr' : s' it.ptr = s1 it.ptr := by
          apply r5
          rw [hptr]
          rw [List.mem_take_iff_getElem]
          exact ⟨i, by omega, rfl⟩
        have htail : (w.slots.drop (i + 1)).filterMap s' =
            keepFirst key (if key c ∈ seen then seen else key c :: seen)
              ((w.slots.drop (i + 1)).filterMap s) := by
          rw [← hrest, hfm, ← r6]
          conv_lhs => rw [hsplit]
          rw [List.filterMap_append, hmid', List.nil_append]
        rw [hdrop, List.filterMap_cons, List.filterMap_cons, hc, htail, hptr', g7]
        by_cases hk : key c ∈ seen
        · simp [hk, keepFirst, Abs.remove]
        · simp [hk, keepFirst, hc]

theorem keepFirst_facts {κ : Type} [DecidableEq κ] (key : α → κ) (l : List α) :
    ∀ seen : List κ, (((keepFirst key seen l).map key).Nodup ∧
      ∀ k ∈ seen, k ∉ (keepFirst key seen l).map key) ∧ (keepFirst key seen l).Sublist l ∧
      ∀ k, k ∉ seen →
        (keepFirst key seen l).find? (fun c => key c = k) = l.find? (fun c => key c = k) := by
  induction l with
  | nil => intro seen; simp [keepFirst]
  | cons c l ih =>
    intro seen
    by_cases hk : key c ∈ seen
    · obtain ⟨h1, h2, h3⟩ := ih seen
      simp only [keepFirst, hk, if_true]
      refine ⟨h1, h2.cons _, fun k hk' => ?_⟩
      rw [h3 k hk', List.find?_cons]
      have : ¬ key c = k := fun e => hk' (e ▸ hk)
      simp [this]
    · obtain ⟨⟨h1, h1'⟩, h2, h3⟩ := ih (key c :: seen)
      simp only [keepFirst, hk, if_false, List.map_cons, List.nodup_cons]
      refine ⟨⟨⟨h1' _ (by simp), h1⟩, fun k hk' => ?_⟩, h2.cons_cons _, fun k hk' => ?_⟩
      · rw [List.mem_cons, not_or]
        exact ⟨fun e => hk (e ▸ hk'), h1' k (by simp [hk'])⟩
      · rw [List.find?_cons, List.find?_cons]
        by_cases e : key c = k
        · simp [e]
        · simp only [e, decide_false]
          exact h3 k (by simp [hk']; exact fun h => e h.symm)

end Mito.Meshes
