import Verif.IO.VTKFieldsLemmas
import Verif.Props.VTK
import Verif.Props.Coordinates
import Verif.Props.Discretizer

/-! # C114: what a VTK file shows -/

namespace Mito.VTK

open Mito.Numbering Mito.Tensor Mito.Geometry

variable {κ C R : Type} [DecidableEq κ]

/-! ### the points -/

/-- The point written for a node is its position in space, in all five coordinates. -/
theorem points_placed (x : Vec 1) (y : Vec 2) (z : Vec 3) :
    vtkPoint1 x = padded x ∧ vtkPoint2 y = padded y ∧ vtkPoint3 z = padded z ∧
      vtkPointPolar y = padded (cartesianOfPolar y) ∧ vtkPointSpherical z = padded (cartesianOfSpherical z) := by
  refine ⟨?_, ?_, ?_, ?_, ?_⟩ <;> funext i <;> fin_cases i <;>
    simp [vtkPoint1, vtkPoint2, vtkPoint3, vtkPointPolar, vtkPointSpherical, padded]

theorem padded_add {d : Nat} (x y : Vec d) : padded (x + y) = padded x + padded y := by
  funext i
  simp only [padded, Pi.add_apply]
  split <;> simp

theorem padded_sub {d : Nat} (x y : Vec d) : padded (x - y) = padded x - padded y := by
  funext i
  simp only [padded, Pi.sub_apply]
  split <;> simp

theorem padded_injective {d : Nat} (hd : d ≤ 3) {x y : Vec d} (h : padded x = padded y) : x = y := by
  funext i
  have := congrFun h ⟨i.val, by omega⟩
  simpa [padded] using this

/-- lengths are the same in space -/
theorem padded_norm {d : Nat} (hd : d ≤ 3) (x : Vec d) : Geometry.norm (padded x) = Geometry.norm x := by
  rw [Geometry.norm, Geometry.norm]
  congr 1
  obtain rfl | rfl | rfl | rfl : d = 0 ∨ d = 1 ∨ d = 2 ∨ d = 3 := by omega
  all_goals simp [dotProduct, padded, Fin.sum_univ_succ]

/-- Distances in the file are those of the coordinate system of the code. -/
theorem points_distance {d : Nat} (hd : d ≤ 3) {S : System d} {dom : Set (Vec d)} {pos : Vec d → Vec d} {frame : Vec d → Mat d}
    (H : Chart S dom pos frame) {B : Vec d} (hB : B ∈ dom) (A : Vec d) :
    Geometry.norm (padded (pos A) - padded (pos B)) = S.distance A B := by
  rw [← padded_sub, padded_norm hd, H.distance hB]

/-! ### recording a field -/

/-- The constructor always succeeds, and the writer is as it should be. -/
theorem makeWriter_sound {ν : Type} (key : ν → κ) (coords : ν → C) (cells : List (List ν)) :
    ∃ w : FieldWriter κ C R, makeWriter key coords cells = some w ∧ Sound w ∧ w.columns = [] ∧
      w.nodes.map (·.1) = firsts (cells.flatten.map key) := by
  obtain ⟨pts, h1, h2, -⟩ := createGrid_eq key coords cells
  refine ⟨_, by rw [makeWriter, h1]; rfl, ⟨?_, ?_, ?_⟩, rfl, ?_⟩
  · simp [h2, List.zipIdx_map_snd, List.range_eq_range']
  · simp only [List.zipIdx_map_fst]
    exact firsts_nodup _
  · simp
  · simp

/-- `record` succeeds exactly if the field has a value at each node of the grid; then the file has an array of the given name that shows the
field, and no other array changes. -/
theorem record_iff {w : FieldWriter κ C R} (hw : Sound w) (field : NamedField κ R) (name : String) {order : List (κ × Nat)}
    (ho : order.Perm w.nodes) :
    (Covers w field ∧ ∃ c, w.record order field name = some { w with columns := addColumn w.columns c } ∧
        c.name = recordName field name ∧ Shows w field c) ∨
      (¬ Covers w field ∧ w.record order field name = none) := by
  by_cases hc : Covers w field
  · refine .inl ⟨hc, ⟨recordName field name, _⟩, ?_, rfl, shows_fill hw field hc _⟩
    rw [FieldWriter.record, fill_sound hw field hc ho]
  · refine .inr ⟨hc, ?_⟩
    rw [FieldWriter.record, fillTuples_none]
    rw [Covers] at hc
    push Not at hc
    obtain ⟨e, he, hn⟩ := hc
    refine ⟨e, ho.mem_iff.mpr he, ?_⟩
    rcases h : DiscreteField.read field.values e.1 with _ | v
    · rfl
    · exact absurd h (hn v)

/-- The order in which the map is visited does not matter. -/
theorem record_order {w : FieldWriter κ C R} (hw : Sound w) (field : NamedField κ R) (name : String) {o o' : List (κ × Nat)}
    (ho : o.Perm w.nodes) (ho' : o'.Perm w.nodes) : w.record o field name = w.record o' field name := by
  by_cases hc : Covers w field
  · rw [FieldWriter.record, FieldWriter.record, fill_sound hw field hc ho, fill_sound hw field hc ho']
  · rcases record_iff hw field name ho with ⟨h, -⟩ | ⟨-, h⟩
    · exact absurd h hc
    · rcases record_iff hw field name ho' with ⟨h', -⟩ | ⟨-, h'⟩
      · exact absurd h' hc
      · rw [h, h']

/-! ### programs -/

theorem step_sound {s : State κ C R} (hs : Sound s.writer) {e : Event κ R} (hv : Visits s.writer [e]) : Sound (s.step e).writer := by
  rcases e with ⟨f, k, v⟩ | ⟨f, name, order⟩
  · rw [State.step]
    split <;> exact hs
  · rw [State.step]
    split
    · exact hs
    · rename_i x hx
      rcases record_iff hs x name (hv f name order (by simp)) with ⟨-, c, h, -⟩ | ⟨-, h⟩
      · rw [h]
        exact ⟨hs.nodes, hs.distinct, addColumn_nodup _ hs.names⟩
      · rw [h]
        exact hs

/-- After any program the arrays of the file have different names. -/
theorem run_sound {s : State κ C R} (hs : Sound s.writer) {l : List (Event κ R)} (hv : Visits s.writer l) : Sound (s.run l).writer := by
  induction l generalizing s with
  | nil => exact hs
  | cons e l ih =>
    rw [run_cons]
    refine ih (step_sound hs fun f n o h => hv f n o (by simp at h; simp [h])) fun f n o h => ?_
    rw [(step_fixed s e).1]
    exact hv f n o (by simp [h])

/-- the name under which a record is made: fields keep their names -/
def eventName (s : State κ C R) : Event κ R → Option String
  | .assign _ _ _ => none
  | .record f name _ => (s.fields[f]?).map fun x => recordName x name

theorem eventName_run (s : State κ C R) (l : List (Event κ R)) (e : Event κ R) : eventName (s.run l) e = eventName s e := by
  rcases e with ⟨f, k, v⟩ | ⟨f, name, order⟩
  · rfl
  · have h := congrArg (·[f]?) (run_fixed s l).2.2
    simp only [List.getElem?_map] at h
    simp only [eventName]
    rcases h1 : (s.run l).fields[f]? with _ | x <;> rcases h2 : s.fields[f]? with _ | y <;> simp_all [recordName]

theorem step_keeps (s : State κ C R) (e : Event κ R) {c : Column R} (hc : c ∈ s.writer.columns) (he : eventName s e ≠ some c.name) :
    c ∈ (s.step e).writer.columns := by
  rcases e with ⟨f, k, v⟩ | ⟨f, name, order⟩
  · rw [State.step]
    split <;> exact hc
  · rw [State.step]
    split
    · exact hc
    · rename_i x hx
      simp only [eventName, hx, Option.map_some, ne_eq, Option.some.injEq] at he
      split
      · exact hc
      · rename_i w hw
        rw [FieldWriter.record] at hw
        split at hw
        · simp at hw
        · obtain rfl := Option.some.inj hw
          exact (addColumn_mem _ _ _).mpr (.inr ⟨hc, fun h => he h.symm⟩)

/-- An array stays as it is until a field is recorded under its name: values that are assigned later do not show. -/
theorem run_keeps (s : State κ C R) (l : List (Event κ R)) {c : Column R} (hc : c ∈ s.writer.columns)
    (hl : ∀ e ∈ l, eventName s e ≠ some c.name) : c ∈ (s.run l).writer.columns := by
  induction l generalizing s with
  | nil => exact hc
  | cons e l ih =>
    rw [run_cons]
    refine ih _ (step_keeps s e hc (hl e (by simp))) fun e' he' => ?_
    rw [show s.step e = s.run [e] from rfl, eventName_run]
    exact hl e' (by simp [he'])

/-- After any program, the array of a name shows the field as it was at the last record under that name. -/
theorem run_shows {s : State κ C R} (hs : Sound s.writer) (before after : List (Event κ R)) (f : Nat) (name : String)
    (order : List (κ × Nat)) (hv : Visits s.writer (before ++ .record f name order :: after)) {x : NamedField κ R}
    (hx : (s.run before).fields[f]? = some x) (hc : Covers s.writer x)
    (hl : ∀ e ∈ after, eventName s e ≠ some (recordName x name)) :
    ∃ c ∈ (s.run (before ++ .record f name order :: after)).writer.columns, c.name = recordName x name ∧ Shows s.writer x c := by
  have hb : Sound (s.run before).writer := run_sound hs fun f n o h => hv f n o (by simp [h])
  obtain ⟨g1, g2, -⟩ := run_fixed s before
  have ho : order.Perm (s.run before).writer.nodes := by
    rw [g1]
    exact hv f name order (by simp)
  have hc' : Covers (s.run before).writer x := by rw [Covers, g1]; exact hc
  rcases record_iff hb x name ho with ⟨-, c, h, hn, hsh⟩ | ⟨h, -⟩
  · refine ⟨c, ?_, hn, ⟨g2 ▸ hsh.count, hsh.set, g1 ▸ hsh.values⟩⟩
    rw [run_append, run_cons]
    refine run_keeps _ _ ?_ fun e he => ?_
    · rw [State.step, hx]
      simp only [h]
      exact (addColumn_mem _ _ _).mpr (.inl rfl)
    · rw [show ((s.run before).step (.record f name order)) = s.run (before ++ [.record f name order]) from by rw [run_append]; rfl,
        eventName_run, hn]
      exact hl e he
  · exact absurd hc' h

/-- Each array of the file was there before or comes from a record of the program. -/
theorem run_origin {s : State κ C R} (hs : Sound s.writer) (l : List (Event κ R)) (hv : Visits s.writer l) {c : Column R}
    (hc : c ∈ (s.run l).writer.columns) :
    c ∈ s.writer.columns ∨ ∃ before f name order after x, l = before ++ .record f name order :: after ∧
      (s.run before).fields[f]? = some x ∧ c.name = recordName x name ∧ Shows s.writer x c := by
  induction l using List.reverseRecOn with
  | nil => exact .inl hc
  | append_singleton l e ih =>
    rw [run_append] at hc
    have hb : Sound (s.run l).writer := run_sound hs fun f n o h => hv f n o (by simp [h])
    obtain ⟨g1, g2, -⟩ := run_fixed s l
    have hold : c ∈ (s.run l).writer.columns → _ := fun h => ih (fun f n o h => hv f n o (by simp [h])) h
    have lift : (c ∈ s.writer.columns ∨ ∃ before f name order after x, l = before ++ .record f name order :: after ∧
      (s.run before).fields[f]? = some x ∧ c.name = recordName x name ∧ Shows s.writer x c) →
      (c ∈ s.writer.columns ∨ ∃ before f name order after x, l ++ [e] = before ++ .record f name order :: after ∧
      (s.run before).fields[f]? = some x ∧ c.name = recordName x name ∧ Shows s.writer x c) := by
      rintro (h | ⟨b, f, n, o, a, x, rfl, h⟩)
      · exact .inl h
      · exact .inr ⟨b, f, n, o, a ++ [e], x, by simp, h⟩
    rw [show (s.run l).run [e] = (s.run l).step e from rfl] at hc
    rcases e with ⟨f, k, v⟩ | ⟨f, name, order⟩
    · rw [State.step] at hc
      split at hc <;> exact lift (hold hc)
    · rw [State.step] at hc
      split at hc
      · exact lift (hold hc)
      · rename_i x hx
        have ho : order.Perm (s.run l).writer.nodes := by
          rw [g1]
          exact hv f name order (by simp)
        rcases record_iff hb x name ho with ⟨-, c', h, hn, hsh⟩ | ⟨-, h⟩
        · simp only [h] at hc
          rcases (addColumn_mem _ _ _).mp hc with rfl | ⟨hc, -⟩
          · exact .inr ⟨l, f, name, order, [], x, rfl, hx, hn, ⟨g2 ▸ hsh.count, hsh.set, g1 ▸ hsh.values⟩⟩
          · exact lift (hold hc)
        · simp only [h] at hc
          exact lift (hold hc)

/-! ### nodes that are not written -/

/-- Fields that agree at the nodes of the grid give the same file. -/
theorem record_congr {w : FieldWriter κ C R} (hw : Sound w) (f g : NamedField κ R) (name : String) {order : List (κ × Nat)}
    (ho : order.Perm w.nodes) (hn : f.name = g.name)
    (h : ∀ e ∈ w.nodes, DiscreteField.read f.values e.1 = DiscreteField.read g.values e.1) :
    w.record order f name = w.record order g name := by
  have hcc : Covers w f ↔ Covers w g := by
    constructor
    · intro H e he; rw [← h e he]; exact H e he
    · intro H e he; rw [h e he]; exact H e he
  by_cases hc : Covers w f
  · rw [FieldWriter.record, FieldWriter.record, fill_sound hw f hc ho, fill_sound hw g (hcc.mp hc) ho, recordName, recordName, hn]
    rw [List.map_congr_left h]
  · rcases record_iff hw f name ho with ⟨h', -⟩ | ⟨-, h1⟩
    · exact absurd h' hc
    · rcases record_iff hw g name ho with ⟨h', -⟩ | ⟨-, h2⟩
      · exact absurd (hcc.mpr h') hc
      · rw [h1, h2]

open Discretizer in
/-- Second order triangles: the nodes between the corners are not in the file. -/
theorem p2_midsides_hidden {alloc : List Nat → Nat} {other : List Nat} (ha : ∀ l, alloc l ∉ l) (hother : other.Nodup)
    (cells : List Cell) (coords : Nat → C) :
    let r := elementsP2 alloc other ⟨[], []⟩ cells
    ∃ w : FieldWriter Nat C R,
      makeWriter (fun n => (lookup r.1.nodes n).getD 0) coords (cells.map fun c => [c.1, c.2.1, c.2.2]) = some w ∧
      ∀ e ∈ r.2, (∀ k < 3, ∀ d, e[k]? = some d → d ∈ w.nodes.map (·.1)) ∧ ∀ k, 3 ≤ k → ∀ d, e[k]? = some d → d ∉ w.nodes.map (·.1) := by
  intro r
  obtain ⟨w, h1, -, -, h4⟩ := makeWriter_sound (R := R) (fun n => (lookup r.1.nodes n).getD 0) coords
    (cells.map fun c => [c.1, c.2.1, c.2.2])
  refine ⟨w, h1, ?_⟩
  obtain ⟨f, e1, e2, -, -, e5⟩ := elementsP2_eq ha hother cells
  have hk : ∀ n ∈ (cells.map fun c => [c.1, c.2.1, c.2.2]).flatten,
      (Sum.inl n : Nat ⊕ Sym2 Nat) ∈ cells.flatMap places ∧ (lookup r.1.nodes n).getD 0 = f (.inl n) := by
    intro n hn
    have hp : (Sum.inl n : Nat ⊕ Sym2 Nat) ∈ cells.flatMap places := by
      obtain ⟨l, hl, hn⟩ := List.mem_flatten.mp hn
      obtain ⟨c, hc, rfl⟩ := List.mem_map.mp hl
      refine List.mem_flatMap.mpr ⟨c, hc, ?_⟩
      simp only [List.mem_cons, List.not_mem_nil, or_false] at hn
      simp only [places, List.mem_cons, Sum.inl.injEq, reduceCtorEq, List.not_mem_nil, or_false]
      exact hn
    refine ⟨hp, ?_⟩
    have := e2 _ hp
    simp only [lookupPlace] at this
    rw [show r.1.nodes = (elementsP2 alloc other ⟨[], []⟩ cells).1.nodes from rfl, this]
    rfl
  have hmem : ∀ d, d ∈ w.nodes.map (·.1) ↔ ∃ n ∈ (cells.map fun c => [c.1, c.2.1, c.2.2]).flatten, f (.inl n) = d := by
    intro d
    rw [h4, mem_firsts, List.mem_map]
    constructor
    · rintro ⟨n, hn, rfl⟩
      exact ⟨n, hn, (hk n hn).2.symm⟩
    · rintro ⟨n, hn, rfl⟩
      exact ⟨n, hn, (hk n hn).2⟩
  intro e he
  rw [show r.2 = _ from e1] at he
  obtain ⟨c, hc, rfl⟩ := List.mem_map.mp he
  have hflat : ∀ n ∈ [c.1, c.2.1, c.2.2], n ∈ (cells.map fun c => [c.1, c.2.1, c.2.2]).flatten := fun n hn =>
    List.mem_flatten.mpr ⟨_, List.mem_map.mpr ⟨c, hc, rfl⟩, hn⟩
  constructor
  · intro k hk3 d hd
    rw [hmem]
    obtain rfl | rfl | rfl : k = 0 ∨ k = 1 ∨ k = 2 := by omega
    all_goals
      simp only [places, List.map_cons, List.getElem?_cons_zero, List.getElem?_cons_succ, Option.some.injEq] at hd
      exact ⟨_, hflat _ (by simp), hd⟩
  · intro k hk3 d hd hm
    rw [hmem] at hm
    obtain ⟨n, hn, hnd⟩ := hm
    rw [List.getElem?_map] at hd
    obtain ⟨p, hp, rfl⟩ := Option.map_eq_some_iff.mp hd
    have := e5 _ (hk n hn).1 p (List.mem_flatMap.mpr ⟨c, hc, List.mem_of_getElem? hp⟩) hnd
    subst this
    have hlt : k < 6 := by
      have := (List.getElem?_eq_some_iff.mp hp).1
      simpa [places] using this
    obtain rfl | rfl | rfl : k = 3 ∨ k = 4 ∨ k = 5 := by omega
    all_goals simp [places] at hp

/-! ### what is drawn -/

omit [DecidableEq κ] in
/-- What is drawn at a place of a cell is the interpolation of the values at the nodes of the cell. -/
theorem drawn_cell {V ν : Type} [AddCommGroup V] [Module ℝ V] (key : ν → κ) (coords : ν → C) (cells : List (List ν))
    {m : List (κ × Nat)} {g : Grid C} (hd : Describes key coords cells m g) (values : Nat → V) (field : κ → V)
    (hv : ∀ k i, (k, i) ∈ m → values i = field k) {j : Nat} {c : List ν} (hj : cells[j]? = some c) (bary : List ℝ) :
    ∃ ids, g.cells[j]? = some ids ∧ drawn ids bary values = ((c.zip bary).map fun e => e.2 • field (key e.1)).sum := by
  have hlen := hd.arity j c hj
  rcases hids : g.cells[j]? with _ | ids
  · rw [hids] at hlen; simp at hlen
  rw [hids] at hlen
  simp only [Option.map_some, Option.some.injEq] at hlen
  refine ⟨ids, rfl, ?_⟩
  rw [drawn]
  congr 1
  apply List.ext_getElem?
  intro k
  simp only [List.getElem?_map, List.zip, List.getElem?_zipWith]
  rcases hc : c[k]? with _ | n
  · have : ids[k]? = none := by
      rw [List.getElem?_eq_none_iff] at hc ⊢
      omega
    simp [this]
  · obtain ⟨r, i, hr, hi, hm, -⟩ := hd.places j k c n hj hc
    rw [hids] at hr
    obtain rfl := Option.some.inj hr
    rw [hi]
    rcases bary[k]? with _ | b
    · rfl
    · simp [hv _ _ hm]

/-- An affine function is drawn as it is. -/
theorem drawn_affine {V : Type} [AddCommGroup V] [Module ℝ V] (g : Vec 3 →ₗ[ℝ] V) (b : V) (ids : List Nat) (bary : List ℝ)
    (hl : ids.length = bary.length) (hb : bary.sum = 1) (points : Nat → Vec 3) :
    drawn ids bary (fun i => g (points i) + b) = g (drawn ids bary points) + b := by
  have h : ∀ (ids : List Nat) (bary : List ℝ), ids.length = bary.length →
      drawn ids bary (fun i => g (points i) + b) = g (drawn ids bary points) + bary.sum • b := by
    intro ids
    induction ids with
    | nil => intro bary h; obtain rfl : bary = [] := List.eq_nil_of_length_eq_zero h.symm; simp [drawn]
    | cons i ids ih =>
      intro bary h
      rcases bary with _ | ⟨t, bary⟩
      · simp at h
      · have := ih bary (by simpa using h)
        simp only [drawn, List.zip_cons_cons, List.map_cons, List.sum_cons, map_add, map_smul, smul_add, add_smul] at this ⊢
        rw [this]
        abel
  rw [h ids bary hl, hb, one_smul]

/-! ### arrows -/

/-- Cartesian coordinates: arrows are right. -/
theorem arrow_cartesian {d : Nat} (x v : Vec d) : ArrowRight (cartesian d) padded x v := by
  have := (cartesian_chart d).add x trivial v
  simp only [id_eq, Matrix.one_mulVec] at this
  rw [ArrowRight, this, padded_add]

/-- An arrow has the right length in all coordinates, and is right exactly if the local frame leaves its components as they are. -/
theorem arrow_iff {d : Nat} (hd : d ≤ 3) {S : System d} {dom : Set (Vec d)} {pos : Vec d → Vec d} {frame : Vec d → Mat d}
    (H : Chart S dom pos frame) {x : Vec d} (hx : x ∈ dom) (v : Vec d) :
    (ArrowRight S (fun y => padded (pos y)) x v ↔ (frame x).mulVec v = v) ∧
      Geometry.norm (padded v) = Geometry.norm (padded (pos (S.add x v)) - padded (pos x)) := by
  constructor
  · rw [ArrowRight, H.add x hx, padded_add]
    constructor
    · intro h
      exact (padded_injective hd (add_left_cancel h)).symm
    · intro h
      rw [h]
  · rw [← padded_sub, H.add x hx, add_sub_cancel_left, padded_norm hd, padded_norm hd, H.norm]

/-- Polar coordinates: only the zero vector and vectors on the axis `θ = 0` are drawn right. -/
theorem arrow_polar {x : Vec 2} (hx : x 0 ≠ 0) (v : Vec 2) :
    ArrowRight polar vtkPointPolar x v ↔ v = 0 ∨ ∃ k : ℤ, k * (2 * Real.pi) = x 1 := by
  have h1 : vtkPointPolar = fun y => padded (cartesianOfPolar y) := by
    funext y; exact (points_placed 0 y 0).2.2.2.1
  rw [h1, (arrow_iff (by norm_num) polar_chart hx v).1, ← Real.cos_eq_one_iff]
  have h := Real.sin_sq_add_cos_sq (x 1)
  constructor
  · intro e
    have e0 := congrFun e 0
    have e1 := congrFun e 1
    simp only [polarFrame, Matrix.mulVec, dotProduct, Fin.sum_univ_two, Matrix.of_apply, Matrix.cons_val_zero, Matrix.cons_val_one] at e0 e1
    by_cases hv : v = 0
    · exact .inl hv
    · right
      have h3 : (1 - Real.cos (x 1)) * (v 0 ^ 2 + v 1 ^ 2) = 0 := by
        linear_combination (-v 0) * e0 - v 1 * e1
      rcases mul_eq_zero.mp h3 with h4 | h4
      · linarith
      · exfalso
        apply hv
        funext i
        fin_cases i
        · show v 0 = 0; nlinarith [sq_nonneg (v 0), sq_nonneg (v 1)]
        · show v 1 = 0; nlinarith [sq_nonneg (v 0), sq_nonneg (v 1)]
  · rintro (rfl | hc)
    · simp
    · have hs : Real.sin (x 1) = 0 := by
        rw [hc] at h
        nlinarith
      funext i
      fin_cases i <;> simp [polarFrame, Matrix.mulVec, dotProduct, Fin.sum_univ_two, hc, hs]

/-- Spherical coordinates: the unit vector of increasing `θ` at the equator is drawn horizontally, and points downwards. -/
theorem arrow_spherical : ¬ ArrowRight spherical vtkPointSpherical ![1, Real.pi / 2, 0] ![0, 1, 0] := by
  have h1 : vtkPointSpherical = fun y => padded (cartesianOfSpherical y) := by
    funext y; exact (points_placed 0 0 y).2.2.2.2
  rw [h1, (arrow_iff (by norm_num) spherical_chart (x := ![1, Real.pi / 2, 0]) (by simp) _).1]
  intro h
  have := congrFun h 1
  simp [sphericalFrame, Matrix.mulVec, dotProduct, Fin.sum_univ_three] at this

/-! ### Examples -/

/-- the writer of two triangles -/
def exWriter : FieldWriter Nat Nat Int := ⟨[(4, 0), (7, 1), (2, 2), (9, 3)], ⟨[40, 70, 20, 90], [[0, 1, 2], [2, 1, 3]]⟩, []⟩

def exField (name : String) (z : Int) : NamedField Nat Int := ⟨name, [(4, [z, 1]), (7, [z, 2]), (2, [z, 3]), (9, [z, 4])]⟩

example : makeWriter id (fun n : Nat => 10 * n) [[4, 7, 2], [2, 7, 9]] = some exWriter := rfl

/-- a value assigned after the record does not show; recorded again, it does -/
theorem recorded_again : ((⟨[exField "u" 0], exWriter⟩ : State Nat Nat Int).run
    [.record 0 "" [(2, 2), (4, 0), (9, 3), (7, 1)], .assign 0 7 [5, 5], .record 0 "later" exWriter.nodes, .assign 0 7 [6, 6]]).writer.columns =
    [⟨"u", [some [0, 1], some [0, 2], some [0, 3], some [0, 4]]⟩, ⟨"later", [some [0, 1], some [5, 5], some [0, 3], some [0, 4]]⟩] := by decide

/-- Two fields of the same name: the first is not in the file, and nothing is said. -/
theorem same_name_lost : ((⟨[exField "u" 0, exField "u" 1], exWriter⟩ : State Nat Nat Int).run
    [.record 0 "" exWriter.nodes, .record 1 "" exWriter.nodes]).writer.columns =
    [⟨"u", [some [1, 1], some [1, 2], some [1, 3], some [1, 4]]⟩] := by decide

/-- A field that misses a node: nothing is recorded. -/
example : exWriter.record exWriter.nodes ⟨"u", [(4, [0]), (7, [1])]⟩ "" = none := rfl

/-- The midpoint of an edge of a second order triangle: its value is not shown. -/
example : drawn [0, 1] [1 / 2, 1 / 2] (fun i => if i = 0 then (0 : ℝ) else 1) = 1 / 2 := by norm_num [drawn]

end Mito.VTK
