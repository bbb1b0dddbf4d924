import Verif.Geometry.CoordinateSystem
import Verif.Utilities.AssocLemmas
import Verif.Props.Coordinates

/-! # C75: coordinate systems -/

namespace Mito.Geometry

open Mito.Tensor Mito.Assoc

variable {d : Nat}

/-- placing new points extends the map -/
theorem placeAll_new (strict : Bool) (l : List (Nat × Vec d)) (m : CoordinateMap d) (h : (keys m ++ keys l).Nodup) :
    placeAll strict m l = some (m ++ l) := by
  induction l generalizing m with
  | nil => simp [placeAll]
  | cons e l ih =>
    obtain ⟨p, x⟩ := e
    have hp : get m p = none := by
      rw [get_none]
      intro hm
      exact (List.nodup_append.mp h).2.2 p hm p (by simp [keys]) rfl
    rw [placeAll, place, hp]
    simp only [Option.isSome_none, Bool.and_false, Bool.false_eq_true, if_false]
    rw [insert_of_none hp, ih]
    · simp
    · simpa [keys] using h

/-- a point keeps the coordinates it is placed at first -/
theorem placeAll_coordinates (strict : Bool) (l : List (Nat × Vec d)) (m m' : CoordinateMap d) (h : placeAll strict m l = some m')
    (p : Nat) : coordinates m' p = (coordinates m p).or (get l p) := by
  induction l generalizing m with
  | nil =>
    simp only [placeAll, Option.some.injEq] at h
    subst h
    simp
  | cons e l ih =>
    obtain ⟨q, x⟩ := e
    rw [placeAll] at h
    rcases hq : place strict m q x with _ | m1
    · rw [hq] at h
      exact absurd h (by simp)
    · rw [hq] at h
      rw [ih m1 h]
      rw [place] at hq
      split at hq
      · exact absurd hq (by simp)
      · simp only [Option.some.injEq] at hq
        subst hq
        simp only [coordinates, get_insert, get_cons]
        by_cases e : q = p
        · subst e
          rcases get m q with _ | v <;> simp
        · rcases get m p with _ | v <;> simp [e, Ne.symm e]

/-- Duplicates, and only those, are rejected. -/
theorem placeAll_strict (l : List (Nat × Vec d)) : (placeAll true [] l).isSome = true ↔ (keys l).Nodup := by
  suffices h : ∀ m : CoordinateMap d, (keys m).Nodup → ((placeAll true m l).isSome = true ↔ (keys m ++ keys l).Nodup) by
    simpa [keys] using h [] (by simp [keys])
  intro m hm
  constructor
  · intro h
    induction l generalizing m with
    | nil => simpa [keys] using hm
    | cons e l ih =>
      obtain ⟨q, x⟩ := e
      rw [placeAll, place] at h
      rcases hq : get m q with _ | v
      · rw [hq] at h
        simp only [Option.isSome_none, Bool.and_false, Bool.false_eq_true, if_false] at h
        have := ih _ (keys_insert_nodup hm q x) h
        rw [insert_of_none hq] at this
        simpa [keys] using this
      · rw [hq] at h
        simp at h
  · intro h
    rw [placeAll_new true l m h]
    rfl

/-- otherwise they are ignored -/
theorem placeAll_release (l : List (Nat × Vec d)) (m : CoordinateMap d) : (placeAll false m l).isSome = true := by
  induction l generalizing m with
  | nil => rfl
  | cons e l ih => exact ih _

theorem keys_placeAll (strict : Bool) (l : List (Nat × Vec d)) (m m' : CoordinateMap d) (hm : (keys m).Nodup)
    (h : placeAll strict m l = some m') : (keys m').Nodup := by
  induction l generalizing m with
  | nil =>
    simp only [placeAll, Option.some.injEq] at h
    exact h ▸ hm
  | cons e l ih =>
    obtain ⟨q, x⟩ := e
    rw [placeAll] at h
    rcases hq : place strict m q x with _ | m1
    · rw [hq] at h
      exact absurd h (by simp)
    · rw [hq] at h
      refine ih m1 ?_ h
      rw [place] at hq
      split at hq
      · exact absurd hq (by simp)
      · simp only [Option.some.injEq] at hq
        exact hq ▸ keys_insert_nodup hm q x

/-- the distance, the midpoint and the volume throw exactly if a point has not been placed, and are those of the coordinates otherwise -/
theorem points_placed (S : System d) (m : CoordinateMap d) :
    (∀ p q, ((distanceOf S m p q).isSome = true ↔ p ∈ keys m ∧ q ∈ keys m) ∧ ((midpointOf S m p q).isSome = true ↔ p ∈ keys m ∧ q ∈ keys m)) ∧
    (∀ p q x y, coordinates m p = some x → coordinates m q = some y →
      distanceOf S m p q = some (S.distance x y) ∧ midpointOf S m p q = some (S.midpoint x y)) ∧
    (∀ points : Fin (d + 1) → Nat, (volumeOf S m points).isSome = true ↔ ∀ a, points a ∈ keys m) ∧
    ∀ (points : Fin (d + 1) → Nat) (x : Fin (d + 1) → Vec d), (∀ a, coordinates m (points a) = some (x a)) →
      volumeOf S m points = some (S.volume x) := by
  have hk : ∀ p, p ∈ keys m ↔ (coordinates m p).isSome = true := by
    intro p
    rw [coordinates, ← not_iff_not, ← get_none, Bool.not_eq_true, Option.isSome_eq_false_iff, Option.isNone_iff_eq_none]
  refine ⟨fun p q => ?_, fun p q x y hx hy => ?_, fun points => ?_, fun points x hx => ?_⟩
  · rw [hk, hk, distanceOf, midpointOf]
    rcases coordinates m p with _ | x <;> rcases coordinates m q with _ | y <;> simp
  · rw [distanceOf, midpointOf, hx, hy]
    exact ⟨rfl, rfl⟩
  · simp only [hk, volumeOf]
    split_ifs with h
    · simpa using h
    · simpa using h
  · rw [volumeOf, if_pos fun a => by rw [hx a]; rfl]
    simp only [hx, Option.getD_some]

/-- a change of coordinates transforms the coordinates of every point and keeps the points -/
theorem change_eq (strict : Bool) (T : Vec d → Vec d) (m : CoordinateMap d) (hm : (keys m).Nodup) :
    change strict T m = some (m.map fun e => (e.1, T e.2)) := by
  rw [change, placeAll_new]
  · simp
  · simpa [keys, List.map_map, Function.comp_def] using hm

theorem change_coordinates (strict : Bool) (T : Vec d → Vec d) (m m' : CoordinateMap d) (hm : (keys m).Nodup)
    (h : change strict T m = some m') (p : Nat) : coordinates m' p = (coordinates m p).map T := by
  rw [change_eq strict T m hm, Option.some.injEq] at h
  subst h
  clear hm
  induction m with
  | nil => rfl
  | cons e m ih =>
    simp only [coordinates, List.map_cons, get_cons] at ih ⊢
    rw [ih]
    split <;> rfl

/-- to polar or spherical coordinates and back -/
theorem change_round_trip (strict : Bool) :
    (∀ m : CoordinateMap 2, (keys m).Nodup → (change strict polarOfCartesian m).bind (change strict cartesianOfPolar) = some m) ∧
    (∀ m : CoordinateMap 3, (keys m).Nodup →
      (change strict sphericalOfCartesian m).bind (change strict cartesianOfSpherical) = some m) ∧
    (∀ m : CoordinateMap 2, (keys m).Nodup → (∀ e ∈ m, 0 < e.2 0 ∧ e.2 1 ∈ Set.Ioc (-Real.pi) Real.pi) →
      (change strict cartesianOfPolar m).bind (change strict polarOfCartesian) = some m) ∧
    ∀ m : CoordinateMap 3, (keys m).Nodup →
      (∀ e ∈ m, 0 < e.2 0 ∧ e.2 1 ∈ Set.Ioo 0 Real.pi ∧ e.2 2 ∈ Set.Ioc (-Real.pi) Real.pi) →
      (change strict cartesianOfSpherical m).bind (change strict sphericalOfCartesian) = some m := by
  have key : ∀ {d : Nat} (T U : Vec d → Vec d) (m : CoordinateMap d), (keys m).Nodup → (∀ e ∈ m, U (T e.2) = e.2) →
      (change strict T m).bind (change strict U) = some m := by
    intro d T U m hm h
    rw [change_eq strict T m hm, Option.bind_some, change_eq strict U]
    · rw [List.map_map, List.map_congr_left (g := id)]
      · simp
      · intro e he
        simp [h e he]
    · simpa [keys, List.map_map, Function.comp_def] using hm
  exact ⟨fun m hm => key _ _ m hm fun e _ => cartesian_polar_cartesian e.2,
    fun m hm => key _ _ m hm fun e _ => cartesian_spherical_cartesian e.2,
    fun m hm h => key _ _ m hm fun e he => polar_cartesian_polar_eq (h e he).1 (h e he).2,
    fun m hm h => key _ _ m hm fun e he => spherical_cartesian_spherical_eq (h e he).1 (h e he).2.1 (h e he).2.2⟩

/-- a change from polar to Cartesian coordinates keeps the distances, the midpoints and the volumes of cells -/
theorem change_polar (strict : Bool) (m m' : CoordinateMap 2) (hm : (keys m).Nodup) (hr : ∀ e ∈ m, 0 < e.2 0)
    (h : change strict cartesianOfPolar m = some m') :
    (∀ p q, distanceOf (cartesian 2) m' p q = distanceOf polar m p q) ∧
    (∀ p q, midpointOf (cartesian 2) m' p q = (midpointOf polar m p q).map cartesianOfPolar) ∧
    ∀ points, volumeOf (cartesian 2) m' points = volumeOf polar m points := by
  have hc := change_coordinates strict _ m m' hm h
  have hp : ∀ p x, coordinates m p = some x → 0 < x 0 := fun p x hx => hr _ (get_mem hx)
  refine ⟨fun p q => ?_, fun p q => ?_, fun points => ?_⟩
  · simp only [distanceOf, hc]
    rcases h1 : coordinates m p with _ | x <;> rcases h2 : coordinates m q with _ | y <;> simp
    exact (polar_distance (hp q y h2).ne' x).symm
  · simp only [midpointOf, hc]
    rcases h1 : coordinates m p with _ | x <;> rcases h2 : coordinates m q with _ | y <;> simp
    rw [polar_midpoint (hp p x h1).ne', (cartesian_midpoint _ _).1]
  · simp only [volumeOf, hc, Option.isSome_map]
    split
    · rename_i hs
      congr 1
      rw [volume_polar]
      · congr 1
        funext a
        obtain ⟨x, hx⟩ := Option.isSome_iff_exists.mp (hs a)
        rw [hx]
        rfl
      · obtain ⟨x, hx⟩ := Option.isSome_iff_exists.mp (hs 0)
        rw [hx]
        exact hp _ x hx
    · rfl

theorem change_spherical (strict : Bool) (m m' : CoordinateMap 3) (hm : (keys m).Nodup)
    (hr : ∀ e ∈ m, 0 < e.2 0 ∧ 0 < Real.sin (e.2 1)) (h : change strict cartesianOfSpherical m = some m') :
    (∀ p q, distanceOf (cartesian 3) m' p q = distanceOf spherical m p q) ∧
    (∀ p q, midpointOf (cartesian 3) m' p q = (midpointOf spherical m p q).map cartesianOfSpherical) ∧
    ∀ points, volumeOf (cartesian 3) m' points = volumeOf spherical m points := by
  have hc := change_coordinates strict _ m m' hm h
  have hp : ∀ p x, coordinates m p = some x → 0 < x 0 ∧ 0 < Real.sin (x 1) := fun p x hx => hr _ (get_mem hx)
  refine ⟨fun p q => ?_, fun p q => ?_, fun points => ?_⟩
  · simp only [distanceOf, hc]
    rcases h1 : coordinates m p with _ | x <;> rcases h2 : coordinates m q with _ | y <;> simp
    exact (spherical_distance (hp q y h2).1.ne' (hp q y h2).2.ne' x).symm
  · simp only [midpointOf, hc]
    rcases h1 : coordinates m p with _ | x <;> rcases h2 : coordinates m q with _ | y <;> simp
    rw [spherical_midpoint (hp p x h1).1.ne' (hp p x h1).2.ne', (cartesian_midpoint _ _).1]
  · simp only [volumeOf, hc, Option.isSome_map]
    split
    · rename_i hs
      congr 1
      obtain ⟨x, hx⟩ := Option.isSome_iff_exists.mp (hs 0)
      rw [volume_spherical]
      · congr 1
        funext a
        obtain ⟨x, hx⟩ := Option.isSome_iff_exists.mp (hs a)
        rw [hx]
        rfl
      · rw [hx]
        exact (hp _ x hx).1
      · rw [hx]
        exact (hp _ x hx).2
    · rfl

/-! ## The premises can be met -/

/-- three points in polar coordinates -/
noncomputable def exampleMap : CoordinateMap 2 := [(4, ![1, 0]), (2, ![2, 1]), (7, ![1, 2])]

example : (keys exampleMap).Nodup ∧ ∀ e ∈ exampleMap, 0 < e.2 0 := by
  refine ⟨by simp [exampleMap, keys], ?_⟩
  intro e he
  simp only [exampleMap, List.mem_cons, List.not_mem_nil, or_false] at he
  rcases he with rfl | rfl | rfl <;> simp

example : ∃ m, placeAll true [] exampleMap = some m ∧ coordinates m 2 = some ![2, 1] ∧ coordinates m 3 = none := by
  refine ⟨exampleMap, ?_, by simp [coordinates, exampleMap, get_cons], by simp [coordinates, exampleMap, get_cons]⟩
  rw [placeAll_new _ _ _ (by simp [exampleMap, keys])]
  rfl

/-- a point placed twice -/
example : placeAll true ([] : CoordinateMap 2) [(1, ![1, 0]), (1, ![2, 0])] = none ∧
    placeAll false ([] : CoordinateMap 2) [(1, ![1, 0]), (1, ![2, 0])] = some [(1, ![1, 0])] := by
  constructor
  · rw [← Option.not_isSome_iff_eq_none, placeAll_strict]
    simp [keys]
  · simp [placeAll, place, Assoc.insert, get_cons]

end Mito.Geometry
