import Verif.Props.CoordinateSystem
import Verif.Props.DiscreteField
import Verif.Spec.Cloud
import Verif.Utilities.NumberingLemmas

/-! # C105: the point cloud of a process -/

namespace Mito.Cloud

open Mito.Geometry Mito.Tensor Mito.Numbering Mito.Assoc

variable {d : Nat}

theorem allSome_isSome {α β : Type} (l : List α) (f : α → Option β) : (allSome (l.map f)).isSome ↔ ∀ x ∈ l, (f x).isSome := by
  induction l with
  | nil => simp [allSome]
  | cons a l ih =>
    rcases h : f a with _ | b <;> simp [allSome, h, ih]

theorem allSome_get {α β : Type} {l : List α} {f : α → Option β} {r : List β} (h : allSome (l.map f) = some r) :
    r.length = l.length ∧ ∀ (i : Nat) a, l[i]? = some a → r[i]? = f a := by
  induction l generalizing r with
  | nil =>
    obtain rfl : r = [] := by simpa [allSome] using h.symm
    simp
  | cons a l ih =>
    rcases hf : f a with _ | b
    · simp [allSome, hf] at h
    · simp only [List.map_cons, hf, allSome, Option.map_eq_some_iff] at h
      obtain ⟨r', hr, rfl⟩ := h
      obtain ⟨h1, h2⟩ := ih hr
      refine ⟨by simp [h1], fun i x hx => ?_⟩
      cases i with
      | zero =>
        obtain rfl : a = x := by simpa using hx
        simp [hf]
      | succ i => simpa using h2 i x (by simpa using hx)

/-- **C105.**  Points stay in the cloud: after a history it contains all the points ever created, in order.  A coordinate system has what was
placed in it. -/
theorem run_points {strict : Bool} {w w' : State d} {h : List (Op d)} (e : run strict w h = some w') :
    w'.points = w.points ++ created h ∧ ∀ s, placeAll strict (w.systems s) (placements s h) = some (w'.systems s) := by
  induction h generalizing w with
  | nil =>
    obtain rfl : w = w' := by simpa [run] using e
    simp [created, placements, placeAll]
  | cons op h ih =>
    rw [run] at e
    rcases hs : step strict w op with _ | w1
    · simp [hs] at e
    · rw [hs] at e
      obtain ⟨h1, h2⟩ := ih e
      have key : ∀ (v : State d) (s p : Nat) (x : Vec d), v.placeIn strict s p x = some w1 → w1.points = v.points ∧
          (∀ s', s' ≠ s → w1.systems s' = v.systems s') ∧ Geometry.place strict (v.systems s) p x = some (w1.systems s) := by
        intro v s p x hv
        rw [State.placeIn] at hv
        rcases hp : Geometry.place strict (v.systems s) p x with _ | m
        · simp [hp] at hv
        · simp only [hp, Option.some.injEq] at hv
          subst hv
          exact ⟨rfl, fun s' hs' => by simp [hs'], by simp⟩
      cases op with
      | point a =>
        obtain rfl : _ = w1 := by simpa [step] using hs
        exact ⟨by simp [h1, created, List.filterMap_cons, Op.creates], fun s => by simpa [placements, List.filterMap_cons, Op.places] using h2 s⟩
      | place s p x =>
        obtain ⟨k1, k2, k3⟩ := key w s p x hs
        refine ⟨by simp [h1, k1, created, List.filterMap_cons, Op.creates], fun s' => ?_⟩
        by_cases hss : s = s'
        · subst hss
          simpa [placements, List.filterMap_cons, Op.places, placeAll, k3] using h2 s
        · have := h2 s'
          rw [k2 s' (Ne.symm hss)] at this
          simpa [placements, List.filterMap_cons, Op.places, hss] using this
      | node s a x =>
        obtain ⟨k1, k2, k3⟩ := key _ s a x hs
        refine ⟨by simp [h1, k1, created, List.filterMap_cons, Op.creates], fun s' => ?_⟩
        by_cases hss : s = s'
        · subst hss
          have k3' : Geometry.place strict (w.systems s) a x = some (w1.systems s) := k3
          simpa [placements, List.filterMap_cons, Op.places, placeAll, k3'] using h2 s
        · have := h2 s'
          rw [k2 s' (Ne.symm hss)] at this
          simpa [placements, List.filterMap_cons, Op.places, hss] using this

/-- the coordinates of a point are those it was first placed at -/
theorem run_coordinates {strict : Bool} {w : State d} {h : List (Op d)} (e : run strict .start h = some w) (s p : Nat) :
    coordinates (w.systems s) p = get (placements s h) p := by
  rw [placeAll_coordinates strict _ _ _ ((run_points e).2 s) p]
  simp [State.start, coordinates]

/-- **C105.**  The cloud can be written in a coordinate system exactly if every point created in the process has been placed in that coordinate
system. -/
theorem writer_iff {strict : Bool} {w : State d} {h : List (Op d)} (e : run strict .start h = some w) (s : Nat) {order : List Nat}
    (ho : ∀ p, p ∈ order ↔ p ∈ w.points) :
    (writer (w.systems s) order).isSome ↔ ∀ p ∈ created h, p ∈ (placements s h).map (·.1) := by
  have h1 : (writer (w.systems s) order).isSome = (allSome (order.map (coordinates (w.systems s)))).isSome := by
    rw [writer]
    split <;> simp_all
  rw [h1, allSome_isSome]
  have hp : w.points = created h := by simpa [State.start] using (run_points e).1
  simp only [ho, hp, run_coordinates e]
  refine forall₂_congr fun p _ => ?_
  rw [← not_iff_not, Option.not_isSome_iff_eq_none, get_none]
  rfl

/-- **C105.**  Then the grid has one point for each point of the process, where it was first placed, and no cells. -/
theorem writer_grid {strict : Bool} {w : State d} {h : List (Op d)} (e : run strict .start h = some w) (s : Nat) {order : List Nat}
    (ho : order.Perm w.points) {g : VTK.Grid (Vec d)} (hg : writer (w.systems s) order = some g) :
    g.cells = [] ∧ g.points.length = (created h).length ∧ ∀ (i : Nat) p, order[i]? = some p → g.points[i]? = get (placements s h) p := by
  have hp : w.points = created h := by simpa [State.start] using (run_points e).1
  rw [writer] at hg
  rcases ha : allSome (order.map (coordinates (w.systems s))) with _ | r
  · simp [ha] at hg
  · simp only [ha, Option.some.injEq] at hg
    subst hg
    obtain ⟨h1, h2⟩ := allSome_get ha
    exact ⟨rfl, by rw [h1, ho.length_eq, hp], fun i p hi => by rw [h2 i p hi, run_coordinates e]⟩

/-- **C105.**  If nodes were made in one coordinate system, the cloud cannot be written in any other one they were not placed in: a program with
two coordinate systems, each with nodes of its own, can write the cloud in neither. -/
theorem writer_fails {strict : Bool} {w : State d} {h : List (Op d)} (e : run strict .start h = some w) {s s' a b : Nat} {x y : Vec d}
    (hs : .node s a x ∈ h) (hs' : .node s' b y ∈ h) (ha : a ∉ (placements s' h).map (·.1)) (hb : b ∉ (placements s h).map (·.1)) {order : List Nat}
    (ho : ∀ p, p ∈ order ↔ p ∈ w.points) : writer (w.systems s) order = none ∧ writer (w.systems s') order = none := by
  constructor
  · rw [← Option.not_isSome_iff_eq_none, writer_iff e s ho]
    exact fun hall => hb (hall b (List.mem_filterMap.mpr ⟨_, hs', rfl⟩))
  · rw [← Option.not_isSome_iff_eq_none, writer_iff e s' ho]
    exact fun hall => ha (hall a (List.mem_filterMap.mpr ⟨_, hs, rfl⟩))

/-- **C105.**  A field made at some time can be recorded by a writer made later exactly if no further point was created in between: then the array has the default value
(the field has not been written to) for each point. -/
theorem record_iff {Y : Type} {strict debug : Bool} {w w' : State d} {h k : List (Op d)} (e : run strict .start h = some w) (e' : run strict w k = some w')
    (hd : (created h ++ created k).Nodup) {v : Y} {f : DiscreteField.Field Nat Y} (hf : pointField debug v w.points = some f) {order : List Nat}
    (ho : ∀ p, p ∈ order ↔ p ∈ w'.points) :
    ((record f order).isSome ↔ created k = []) ∧ (created k = [] → record f order = some (order.map fun _ => v)) := by
  have hp : w.points = created h := by simpa [State.start] using (run_points e).1
  have hp' : w'.points = created h ++ created k := by rw [← hp]; exact (run_points e').1
  have hr : ∀ p, DiscreteField.read f p = if p ∈ created h then some v else none := by
    intro p
    rw [← hp]
    exact DiscreteField.field_ofKeys debug v _ f hf p
  constructor
  · rw [record, allSome_isSome]
    constructor
    · intro hall
      refine List.eq_nil_iff_forall_not_mem.mpr fun p hk => ?_
      have := hall p ((ho p).mpr (by rw [hp']; exact List.mem_append_right _ hk))
      rw [hr] at this
      split_ifs at this with hm
      · exact (List.nodup_append.mp hd).2.2 p hm p hk rfl
      · simp at this
    · intro hk p hm
      have := (ho p).mp hm
      rw [hp', hk, List.append_nil] at this
      simp [hr, this]
  · intro hk
    refine allSome_map fun p hm => ?_
    have := (ho p).mp hm
    rw [hp', hk, List.append_nil] at this
    simp [hr, this]

/-- the field can be made: the points are different -/
theorem field_made {Y : Type} {strict : Bool} {w : State d} {h : List (Op d)} (e : run strict .start h = some w) (hd : (created h).Nodup) (debug : Bool)
    (v : Y) : (pointField debug v w.points).isSome := by
  have hp : w.points = created h := by simpa [State.start] using (run_points e).1
  have h1 : (pointField true v w.points).isSome = true := by
    rw [pointField, DiscreteField.ofKeys, DiscreteField.field_debug, hp]
    have hi : ∀ l : List Nat, DiscreteField.inserted (l.map fun k => DiscreteField.Op.insert k v) = l := by
      intro l
      induction l with
      | nil => rfl
      | cons a l ih => rw [List.map_cons, DiscreteField.inserted, ih]
    rw [hi]
    exact hd
  cases debug with
  | true => exact h1
  | false =>
    obtain ⟨f, hf⟩ := Option.isSome_iff_exists.mp h1
    have := DiscreteField.field_release _ _ _ hf
    rw [pointField, DiscreteField.ofKeys, this]
    rfl

/-! ### Examples -/

/-- one coordinate system: the cloud of two nodes can be written, in any order -/
example (x y : Vec 2) : (run true .start [.node 0 7 x, .node 0 9 y]).map (fun w => writer (w.systems 0) [9, 7]) =
    some (some ⟨[y, x], []⟩) := by
  simp [run, step, State.placeIn, Geometry.place, State.start, writer, allSome, coordinates, Assoc.get, Assoc.insert]

/-- two coordinate systems: it can be written in neither -/
example (x y : Vec 2) : ∃ w, run true .start [.node 0 7 x, .node 1 9 y] = some w ∧ writer (w.systems 0) [7, 9] = none ∧ writer (w.systems 1) [7, 9] = none := by
  refine ⟨_, rfl, ?_⟩
  simp [State.start, writer, allSome, coordinates, Assoc.get, Assoc.insert]

/-- the field made before the second node cannot be recorded after it -/
example : (pointField true (0 : Nat) [7]).map (fun f => (record f [7], record f [7, 9])) = some (some [0], none) := by decide

end Mito.Cloud
