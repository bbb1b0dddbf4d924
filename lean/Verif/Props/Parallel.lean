import Verif.Mesh.ParallelLemmas
import Verif.Props.Load

/-! # C103: the parts that the tasks make of the same file fit together

The partitioner numbers the vertices in the order of their addresses, lib/mito/mesh/metis/Partitioner.icc:16-35, and these differ from task
to task.  So the tasks do not ask METIS the same question, and every task uses its own answer. -/

namespace Mito.Parallel

open Mito.Functions Mito.Geometry Mito.Meshes Mito.Topology Mito.Load Mito.Quadrature Mito.Tensor

variable {paint : List Nat → Nat → Nat → Int → List Int}

/-- **C103.**  If the colors do not depend on the numbers of the vertices, then all the tasks that have the same file paint it the same way,
whatever their addresses. -/
theorem tasks_agree (hp : LabelFree paint) (hq : Paints paint) {N : Nat} (hN : N ≤ 3) (desc : List (List Nat)) {n : Nat} (hn : 2 ≤ n) :
    ∃ painting : List Int, painting.length = desc.length ∧ (∀ p ∈ painting, 0 ≤ p ∧ p < n) ∧
      ∀ t cells, VReachable t → Describes t N cells desc → ∀ rank : Int,
        partition paint t N cells n rank = some (t, colored painting rank cells) := by
  by_cases hex : ∃ t cells, VReachable t ∧ Describes t N cells desc
  · obtain ⟨t0, cells0, r0, d0⟩ := hex
    obtain ⟨g0, i0, -, -, l0⟩ := d0.connectivity r0 hN
    refine ⟨paint (desc.flatten.map g0) desc.flatten.toFinset.card desc.length n, (hq _ _ _ _ hn).1, (hq _ _ _ _ hn).2, fun t cells ht hd rank => ?_⟩
    obtain ⟨g, i1, e1, e2, l1⟩ := hd.connectivity ht hN
    have hlen : cells.length = desc.length := by
      obtain ⟨v, -, e⟩ := hd.vertices
      simpa using congrArg List.length e
    obtain ⟨conn, h1, h2⟩ := partition_cells (paint := paint) ht hN hd.ok n rank (by omega) fun conn nv => (hq conn nv _ n hn).1.ge
    rw [e1] at h1
    obtain rfl := Option.some.inj h1
    rw [h2, e2, hlen]
    congr 3
    refine hp _ _ _ _ _ (by rw [List.length_map, List.length_map]) l1 l0 fun i j => ?_
    rw [getElem?_map_iff i1, getElem?_map_iff i0]
  · refine ⟨List.replicate desc.length 0, by simp, ?_, fun t cells ht hd => (hex ⟨t, cells, ht, hd⟩).elim⟩
    intro p hp
    obtain rfl := List.eq_of_mem_replicate hp
    omega

/-- **C103.**  So there is one way of distributing the cells of the file over the ranks, each to exactly one, such that every task gets the
cells of its rank, in their order. -/
theorem parts_fit (hp : LabelFree paint) (hq : Paints paint) {N : Nat} (hN : N ≤ 3) (desc : List (List Nat)) {n : Nat} (hn : 2 ≤ n) :
    ∃ parts : Nat → List (List Nat), ((List.range n).flatMap parts).Perm desc ∧ (∀ r, (parts r).Sublist desc) ∧
      ∀ t cells, VReachable t → Describes t N cells desc → ∀ r : Nat, ∃ part, partition paint t N cells n r = some (t, part) ∧
        part.Sublist cells ∧ Describes t N part (parts r) := by
  obtain ⟨painting, h1, h2, h3⟩ := tasks_agree hp hq hN desc hn
  refine ⟨fun r => colored painting r desc, colored_perm n _ _ h1.ge h2, fun r => colored_sublist _ _ _, fun t cells ht hd r => ?_⟩
  refine ⟨_, h3 t cells ht hd r, colored_sublist _ _ _, fun c hc => hd.ok c ((colored_sublist _ _ _).subset hc), ?_⟩
  obtain ⟨v, hv, e⟩ := hd.vertices
  refine ⟨v, fun i hi j hj => hv i ?_ j ?_, by rw [← colored_map, e, colored_map]⟩
  · obtain ⟨l, hl, hi⟩ := List.mem_flatten.mp hi
    exact List.mem_flatten.mpr ⟨l, (colored_sublist _ _ _).subset hl, hi⟩
  · obtain ⟨l, hl, hi⟩ := List.mem_flatten.mp hj
    exact List.mem_flatten.mpr ⟨l, (colored_sublist _ _ _).subset hl, hi⟩

/-- **C103.**  The integral that the task 0 prints is the quadrature over all the triangles of the file, whatever the number of tasks and the
addresses that they use. -/
theorem parallel_integral (hp : LabelFree paint) (hq : Paints paint) (debug : Bool) (rule : Table 2) {tasks : List Task} (hn : tasks ≠ [])
    {coords : List (List ℚ)} {cells : List (List Nat)} (hc : ∀ c ∈ cells, c.length = 3 ∧ (∀ i ∈ c, i < coords.length) ∧ c.Nodup)
    (hd : cells.Pairwise fun c c' => c.toFinset ≠ c'.toFinset) (ht : ∀ k ∈ tasks, k.Ready coords cells) (f : Val (.vec 2) → ℝ) :
    globalResult debug paint rule tasks coords cells f = some (fileSum rule coords cells f) := by
  -- what a task has when it has read the file
  have hload : ∀ k ∈ tasks, ∃ t nodes cs, load k.topo k.addresses cells = some (t, nodes, cs) ∧ VReachable t ∧ Fresh t (58 * cells.length) ∧
      (nodes.map (·.vertex)).Nodup ∧ (∀ c ∈ cells, ∀ i ∈ c, i < nodes.length) ∧ List.Forall₂ (Loaded t nodes) cells cs := by
    intro k hk
    obtain ⟨h1, h2, h3⟩ := ht k hk
    obtain ⟨t, nodes, cs, e, r, -, fr, a, nd, hL, -⟩ := load_succeeds h1 (as := k.addresses) (cells := cells) (k := 58 * cells.length)
      (fun c hm => by rw [h2]; exact hc c hm) hd (h3.mono (by omega))
    have hlen : nodes.length = coords.length := by
      have := congrArg List.length a
      rw [List.length_map] at this
      rw [this, h2]
    exact ⟨t, nodes, cs, e, r, fr, nd, fun c hm => by rw [hlen]; exact (hc c hm).2.1, hL⟩
  -- the painting
  obtain ⟨painting, p1, p2, p3⟩ : ∃ painting : List Int, painting.length = cells.length ∧ (∀ p ∈ painting, 0 ≤ p ∧ p < (tasks.length : Int)) ∧
      ∀ t nodes cs, VReachable t → Fresh t (58 * cells.length) → (nodes.map (·.vertex)).Nodup → (∀ c ∈ cells, ∀ i ∈ c, i < nodes.length) →
        List.Forall₂ (Loaded t nodes) cells cs → ∀ rank : Nat, rank < tasks.length →
        ∃ t', partition paint t 2 cs tasks.length rank = some (t', colored painting rank cs) := by
    have hpos : 0 < tasks.length := List.length_pos_iff.mpr hn
    by_cases h1 : tasks.length = 1
    · refine ⟨List.replicate cells.length 0, by simp, ?_, ?_⟩
      · intro p hp
        obtain rfl := List.eq_of_mem_replicate hp
        omega
      · intro t nodes cs r fr nd hl hL rank hr
        obtain rfl : rank = 0 := by omega
        obtain ⟨t', e⟩ := (partition_single (paint := paint) (N := 2) r (by norm_num) (by norm_num) (loaded_describes nd hl hL).ok ((0 : Nat) : Int)).2
          (by rw [← hL.length_eq]; exact fr)
        refine ⟨t', ?_⟩
        rw [h1]
        refine e.trans ?_
        have : ∀ (m : Nat) (l : List GCell), l.length = m → colored (List.replicate m 0) 0 l = l := by
          intro m l hl
          induction l generalizing m with
          | nil => simp [colored]
          | cons x l ih =>
            obtain ⟨m, rfl⟩ : ∃ k, m = k + 1 := ⟨l.length, by simpa using hl.symm⟩
            have := ih m (by simpa using hl)
            simp only [colored] at this
            simp [colored, List.replicate_succ, this]
        rw [Nat.cast_zero, this _ _ hL.length_eq.symm]
    · obtain ⟨painting, p1, p2, p3⟩ := tasks_agree hp hq (N := 2) (by norm_num) cells (n := tasks.length) (by omega)
      exact ⟨painting, p1, p2, fun t nodes cs r fr nd hl hL rank _ => ⟨t, p3 t cs r (loaded_describes nd hl hL) rank⟩⟩
  have hlocal : ∀ i (hi : i < tasks.length),
      tasks[i].local debug paint rule coords cells f tasks.length i = some (fileSum rule coords (colored painting i cells) f) := by
    intro i hi
    obtain ⟨t, nodes, cs, e, r, fr, nd, hl, hL⟩ := hload _ (List.getElem_mem hi)
    obtain ⟨t', e'⟩ := p3 t nodes cs r fr nd hl hL i hi
    simp only [Task.local, e, e', integrate_part debug rule r nd hl hd hL f painting i]
  have := reduce_some tasks (fun i k => k.local debug paint rule coords cells f tasks.length i)
    (fun i => fileSum rule coords (colored painting i cells) f) 0 hlocal
  rw [globalResult]
  refine this.trans ?_
  congr 1
  simp only [fileSum, Nat.add_zero]
  rw [← ((colored_perm tasks.length painting cells p1.ge p2).map _).sum_eq]
  generalize tasks.length = m
  induction m with
  | zero => simp
  | succ m ih => 
    rw [Finset.sum_range_succ, ih, List.range_succ, List.flatMap_append, List.map_append, List.sum_append]
    simp

/-! ### Colors that depend on the numbers -/

/-- a file with one triangle -/
def oneTriangle : List (List ℚ) × List (List Nat) := ([[0, 0], [1, 0], [0, 1]], [[0, 1, 2]])

/-- a process whose allocator returns higher and higher addresses, and one whose allocator returns lower and lower ones -/
def ascending : Task := ⟨.init ((List.range 130).map (· + 1)), [500, 501, 502]⟩

@[inherit_doc ascending] def descending : Task := ⟨.init ((List.range 130).map (130 - ·)), [500, 501, 502]⟩

theorem init_ready (supply : List Id) (h : supply.Nodup) (hl : 119 ≤ supply.length) :
    (Task.mk (.init supply) [500, 501, 502]).Ready oneTriangle.1 oneTriangle.2 := by
  refine ⟨⟨supply, [], by simp, rfl⟩, rfl, hl, h.sublist (List.take_sublist _ _), fun i _ N => ?_⟩
  simp [Topo.init, Level.empty]

theorem ready : ascending.Ready oneTriangle.1 oneTriangle.2 ∧ descending.Ready oneTriangle.1 oneTriangle.2 :=
  ⟨init_ready _ (by decide +kernel) (by simp), init_ready _ (by decide +kernel) (by simp)⟩

/-- a partitioner that gives the element to the second task if its first vertex has the number 0 -/
def firstZero (conn : List Nat) (_ ne : Nat) (_ : Int) : List Int := List.replicate ne (if conn.head? = some 0 then 1 else 0)

theorem firstZero_paints : Paints firstZero := by
  intro conn nv ne n hn
  refine ⟨by simp [firstZero], fun p hp => ?_⟩
  obtain rfl := List.eq_of_mem_replicate hp
  split_ifs <;> omega

/-- what the task has of the file -/
def Task.part (paint : List Nat → Nat → Nat → Int → List Int) (k : Task) (cells : List (List Nat)) (n rank : Int) : Option (List GCell) :=
  (load k.topo k.addresses cells).bind fun x => (partition paint x.1 2 x.2.2 n rank).map (·.2)

theorem Task.local_nil {debug : Bool} {rule : Table 2} {k : Task} {coords : List (List ℚ)} {cells : List (List Nat)} {f : Val (.vec 2) → ℝ}
    {n rank : Int} (h : k.part paint cells n rank = some []) : k.local debug paint rule coords cells f n rank = some 0 := by
  simp only [Task.part, Option.bind_eq_some_iff, Option.map_eq_some_iff] at h
  obtain ⟨⟨t, nodes, cs⟩, e, ⟨t', part⟩, e', rfl⟩ := h
  simp only [Task.local, e, e']
  rw [List.map_nil, integrate_value _ _ _ _ _ (by simp)]
  simp [quadratureSum]

/-- **C103.**  The condition on the colors is needed: with colors that depend on the numbers of the vertices, a triangle may be lost, because
each task paints it with the color of the other one.  The result is 0 for every function. -/
theorem label_dependent_lost : Paints firstZero ∧ ascending.Ready oneTriangle.1 oneTriangle.2 ∧ descending.Ready oneTriangle.1 oneTriangle.2 ∧
    ∀ debug rule f, globalResult debug firstZero rule [ascending, descending] oneTriangle.1 oneTriangle.2 f = some 0 := by
  refine ⟨firstZero_paints, ready.1, ready.2, fun debug rule f => ?_⟩
  have h1 : ascending.part firstZero oneTriangle.2 2 0 = some [] := by decide +kernel
  have h2 : descending.part firstZero oneTriangle.2 2 1 = some [] := by decide +kernel
  simp only [globalResult, List.mapIdx_cons, List.mapIdx_nil, List.length_cons, List.length_nil]
  have e1 := Task.local_nil (debug := debug) (rule := rule) (coords := oneTriangle.1) (f := f) h1
  have e2 := Task.local_nil (debug := debug) (rule := rule) (coords := oneTriangle.1) (f := f) h2
  simp only [Nat.cast_zero, Nat.cast_ofNat, Nat.cast_one, Nat.zero_add, Nat.reduceAdd]
  rw [e1, e2]
  simp [reduce]

/-- … or counted twice, by tasks in the other order -/
theorem label_dependent_twice : (descending.part firstZero oneTriangle.2 2 0).map List.length = some 1 ∧
    (ascending.part firstZero oneTriangle.2 2 1).map List.length = some 1 := by
  constructor <;> decide +kernel

/-! ### Examples -/

/-- colors that do not depend on the numbers: two tasks, one gets the elements whose first vertex is that of the first element -/
def fan (conn : List Nat) (_ ne : Nat) (_ : Int) : List Int := (List.range ne).map fun e => if conn[3 * e]? = conn[0]? then 0 else 1

example : LabelFree fan ∧ Paints fan := by
  refine ⟨fun conn conn' nv ne n _ _ _ h => ?_, fun conn nv ne n hn => ⟨by simp [fan], fun p hp => ?_⟩⟩
  · simp only [fan, h]
  · obtain ⟨e, -, rfl⟩ := List.mem_map.mp hp
    split_ifs <;> omega

/-- the numbers differ, the parts fit -/
example : (ascending.part fan oneTriangle.2 2 0).map List.length = some 1 ∧ (descending.part fan oneTriangle.2 2 1).map List.length = some 0 := by
  constructor <;> decide +kernel

/-- the area of the triangle on two tasks -/
example (rule : Table 2) : globalResult true fan rule [ascending, descending] oneTriangle.1 oneTriangle.2 (fun _ => 1) =
    some (1 / 2 * apply rule fun _ => 1) := by
  rw [parallel_integral (fun conn conn' nv ne n _ _ _ h => by simp only [fan, h]) (fun conn nv ne n hn => ⟨by simp [fan], fun p hp => by
      obtain ⟨e, -, rfl⟩ := List.mem_map.mp hp
      split_ifs <;> omega⟩) true rule (by simp) (by decide) (by decide) (by simpa using ready)]
  simp [fileSum, oneTriangle, corners, simplexVolume, coordinate, Matrix.det_fin_two]

/-- **C103.**  A task has a result only if it read the file, made its part and integrated on it. -/
theorem local_iff (debug : Bool) (rule : Table 2) (k : Task) (coords : List (List ℚ)) (cells : List (List Nat)) (f : Val (.vec 2) → ℝ)
    (n rank : Int) (r : ℝ) : k.local debug paint rule coords cells f n rank = some r ↔
      ∃ t nodes cs t' part, load k.topo k.addresses cells = some (t, nodes, cs) ∧ partition paint t 2 cs n rank = some (t', part) ∧
        integrate debug rule (fun c => (cartesian 2).volume c.nodes) (part.map (cellOf (n := 1) (place coords nodes))) f = .value r := by
  unfold Task.local
  constructor
  · intro h
    split at h
    · exact absurd h (by simp)
    · rename_i t nodes cs hl
      split at h
      · exact absurd h (by simp)
      · rename_i t' part hp
        split at h
        · rename_i r' hr
          exact ⟨t, nodes, cs, t', part, hl, hp, by rw [hr, Option.some.inj h]⟩
        · exact absurd h (by simp)
  · rintro ⟨t, nodes, cs, t', part, hl, hp, hr⟩
    simp only [hl, hp, hr]

/-- **C103.**  There is a result only if every task has one, and then it is their sum. -/
theorem reduce_iff (l : List (Option ℝ)) (s : ℝ) : reduce l = some s ↔ ∃ rs : List ℝ, l = rs.map some ∧ s = rs.sum := by
  induction l generalizing s with
  | nil =>
    simp only [reduce, Option.some.injEq]
    constructor
    · rintro rfl
      exact ⟨[], rfl, rfl⟩
    · rintro ⟨rs, h, rfl⟩
      rw [List.map_eq_nil_iff.mp h.symm, List.sum_nil]
  | cons a l ih =>
    cases a with
    | none =>
      simp only [reduce]
      constructor
      · intro h; exact absurd h (by simp)
      · rintro ⟨rs, h, -⟩
        cases rs <;> simp at h
    | some r =>
      simp only [reduce, Option.map_eq_some_iff]
      constructor
      · rintro ⟨s', h, rfl⟩
        obtain ⟨rs, rfl, rfl⟩ := (ih s').mp h
        exact ⟨r :: rs, rfl, by simp⟩
      · rintro ⟨rs, h, rfl⟩
        cases rs with
        | nil => simp at h
        | cons r' rs =>
          simp only [List.map_cons, List.cons.injEq, Option.some.injEq] at h
          obtain ⟨rfl, rfl⟩ := h
          exact ⟨rs.sum, (ih _).mpr ⟨rs, rfl, rfl⟩, by simp⟩

end Mito.Parallel
