import Verif.Fem.LifetimesLemmas

/-!
# Objects that are referred to have to be alive when they are used
-/

namespace Mito.Lifetimes

/-- the object is a discrete system with the weak form `w` -/
def refersTo (s : State) (w y : Nat) : Bool :=
  match s.objs[y]? with
  | some (.system _ w') => w' == w
  | _ => false

instance (s : State) (w : Nat) : Decidable (Free s w) :=
  decidable_of_iff (∀ y ∈ s.alive, refersTo s w y = false)
    (by
      constructor
      · intro h y hy p e
        have := h y hy
        simp [refersTo, e] at this
      · intro h y hy
        unfold refersTo
        split
        · rename_i p w' e
          by_cases hw : w' = w
          · exact (h y hy p (hw ▸ e)).elim
          · simpa using hw
        · rfl)

instance (s : State) (op : Op) : Decidable (Scoped s op) := by
  cases op with
  | make o => cases o <;> unfold Scoped <;> infer_instance
  | _ => unfold Scoped; infer_instance

instance (s : State) (op : Op) : Decidable (Supported s op) := by
  cases op with
  | make o => cases o <;> unfold Supported <;> infer_instance
  | _ => unfold Supported; infer_instance

instance decAlways (P : State → Op → Prop) [∀ s op, Decidable (P s op)] : ∀ s ops, Decidable (Always P s ops)
  | _, [] => .isTrue trivial
  | s, op :: ops =>
    match e : step s op with
    | none => decidable_of_iff (P s op) ⟨fun h => ⟨h, fun s' e' => by simp [e] at e'⟩, fun h => h.1⟩
    | some s' =>
      have := decAlways P s' ops
      decidable_of_iff (P s op ∧ Always P s' ops)
        ⟨fun h => ⟨h.1, fun s'' e' => by rw [e] at e'; cases e'; exact h.2⟩, fun h => ⟨h.1, h.2 s' e⟩⟩

/-- A program in which objects are destroyed only when no living object needs them never touches a dead
object, and at its end what the living objects need is alive. -/
theorem supported_defined (ops : List Op) (h : Always Supported .init ops) :
    ∃ s, run .init ops = some s ∧ ∀ x ∈ s.alive, ∀ y ∈ needs s x, y ∈ s.alive := by
  obtain ⟨s, h1, h2⟩ := run_supported ops inv_init h
  exact ⟨s, h1, h2.closed⟩

/-- A program with variables in nested scopes, which completes its weak forms before it makes discrete
systems from them, never touches a dead object. -/
theorem scoped_defined (ops : List Op) (h : Always Scoped .init ops) : (run .init ops).isSome := by
  obtain ⟨s, h1, -⟩ := supported_defined ops (scoped_supported ops inv_init ord_init h)
  simp [h1]

/-- the program benchmarks/mito.lib/pdes/poisson.cc:39-128 up to the output of the fields, with the ends of
the lifetimes of its variables -/
def benchmark : List Op :=
  [.make .coords, .make .mesh, .make (.manifold 1 0), .make .mesh, .make .field, .make (.dirichlet 3),
    .space .triangle 2 5, .make .matrixBlock, .make .field, .make (.sourceBlock 8), .make (.weakform [] []),
    .addMatrix 10 7, .addSource 10 9, .make (.system 6 10), .make (.solver 11), .solve 12, .make .field,
    .norm 6 11 13, .destroy 13, .destroy 12, .destroy 11, .destroy 10, .destroy 9, .destroy 8, .destroy 7,
    .destroy 6, .destroy 5, .destroy 4, .destroy 3, .destroy 2, .destroy 1, .destroy 0]

/-- The benchmark touches living objects only. -/
theorem benchmark_defined : Always Scoped .init benchmark ∧ (run .init benchmark).isSome :=
  have h : Always Scoped .init benchmark := by decide +kernel
  ⟨h, scoped_defined _ h⟩

/-- An object may be destroyed before an operation that does not touch it. -/
theorem destroy_frame (s : State) (op : Op) (z : Nat) (hs : s.alive.Nodup) (hz : z ∈ s.alive) :
    ((step s (.destroy z)).bind fun s' => step s' op).isSome ↔ (step s op).isSome ∧ z ∉ uses s op := by
  have e : step s (.destroy z) = some ⟨s.objs, s.alive.erase z⟩ := by
    simp [step, uses, effect, hz]
  rw [e, Option.bind_some]
  have hu : uses ⟨s.objs, s.alive.erase z⟩ op = uses s op := rfl
  simp only [step, hu, hs.mem_erase_iff]
  by_cases h : ∀ x ∈ uses s op, x ∈ s.alive
  · by_cases hz' : z ∈ uses s op
    · simp only [hz', not_true_eq_false, and_false, iff_false]
      rw [if_neg fun h' => (h' z hz').1 rfl]
      simp
    · rw [if_pos h, if_pos fun x hx => ⟨fun h' => hz' (h' ▸ hx), h x hx⟩]
      simp [hz']
  · rw [if_neg h, if_neg fun h' => h fun x hx => (h' x hx).2]
    simp

example : State.init.alive.Nodup := by decide

/-- What has to be alive for `solve`: the solver, the system, the function space, the weak form with its
blocks, the fields of the source terms, and, if the elements are triangles and there are source terms, the
mesh and the coordinate system.  The manifold and the constraints are not among them. -/
theorem solve_defined_iff {s : State} {x y p w m c k : Nat} {shape : Shape} {lhs rhs : List Nat}
    (hx : s.objs[x]? = some (.solver y)) (hy : s.objs[y]? = some (.system p w))
    (hp : s.objs[p]? = some (.space shape m c k)) (hw : s.objs[w]? = some (.weakform lhs rhs))
    (hl : ∀ b ∈ lhs, s.objs[b]? = some .matrixBlock) (hr : ∀ b ∈ rhs, ∃ f, s.objs[b]? = some (.sourceBlock f)) :
    (step s (.solve x)).isSome ↔
      x ∈ s.alive ∧ y ∈ s.alive ∧ p ∈ s.alive ∧ w ∈ s.alive ∧ (∀ b ∈ lhs, b ∈ s.alive) ∧
      (∀ b ∈ rhs, b ∈ s.alive ∧ ∀ f, s.objs[b]? = some (.sourceBlock f) → f ∈ s.alive) ∧
      (shape = .triangle → rhs ≠ [] → m ∈ s.alive ∧ c ∈ s.alive) := by
  have hlu : ∀ b ∈ lhs, blockUses s b = [b] := fun b hb => by simp [blockUses, hl b hb]
  have hru : ∀ b ∈ rhs, ((∀ z ∈ blockUses s b, z ∈ s.alive) ↔ b ∈ s.alive ∧ ∀ f, s.objs[b]? = some (.sourceBlock f) → f ∈ s.alive) := by
    intro b hb
    obtain ⟨f, e⟩ := hr b hb
    simp [blockUses, e]
  have hpu : (∀ z ∈ parametrizationUses s p, z ∈ s.alive) ↔ p ∈ s.alive ∧ (shape = .triangle → m ∈ s.alive ∧ c ∈ s.alive) := by
    cases shape <;> simp [parametrizationUses, hp]
  have hstep : (step s (.solve x)).isSome ↔ ∀ z ∈ solverUses s x, z ∈ s.alive := by
    unfold step
    rw [Option.isSome_ite]
    rfl
  rw [hstep]
  simp only [solverUses, hx, systemUses, hy, hw, List.forall_mem_cons, List.forall_mem_append, List.mem_flatMap,
    forall_exists_index, and_imp]
  have h1 : (∀ z b, b ∈ lhs → z ∈ blockUses s b → z ∈ s.alive) ↔ ∀ b ∈ lhs, b ∈ s.alive := by
    constructor
    · intro h b hb
      exact h b b hb (by simp [hlu b hb])
    · intro h z b hb hz
      rw [hlu b hb] at hz
      simp only [List.mem_cons, List.not_mem_nil, or_false] at hz
      exact hz ▸ h b hb
  have h2 : (∀ z b, b ∈ rhs → z ∈ blockUses s b → z ∈ s.alive) ↔
      ∀ b ∈ rhs, b ∈ s.alive ∧ ∀ f, s.objs[b]? = some (.sourceBlock f) → f ∈ s.alive := by
    constructor
    · exact fun h b hb => (hru b hb).1 fun z hz => h z b hb hz
    · exact fun h z b hb hz => (hru b hb).2 (h b hb) z hz
  have h3 : (∀ z ∈ (if rhs = [] then [] else parametrizationUses s p), z ∈ s.alive) ↔
      (rhs ≠ [] → p ∈ s.alive ∧ (shape = .triangle → m ∈ s.alive ∧ c ∈ s.alive)) := by
    split
    · rename_i e; simp [e]
    · rename_i e; simp [e, hpu]
  rw [h1, h2, h3]
  tauto

/-- `add_block` adds the block to its own side of the weak form, and changes nothing else. -/
theorem addBlock_adds {s : State} {w : Nat} {lhs rhs : List Nat} (hw : s.objs[w]? = some (.weakform lhs rhs)) (b : Nat) :
    ((effect s (.addMatrix w b)).objs[w]? = some (.weakform (lhs ++ [b]) rhs) ∧
      (effect s (.addSource w b)).objs[w]? = some (.weakform lhs (rhs ++ [b]))) ∧
    (effect s (.addMatrix w b)).alive = s.alive ∧ (effect s (.addSource w b)).alive = s.alive ∧
    ∀ x ≠ w, (effect s (.addMatrix w b)).objs[x]? = s.objs[x]? ∧ (effect s (.addSource w b)).objs[x]? = s.objs[x]? := by
  have hl : w < s.objs.length := (List.getElem?_eq_some_iff.1 hw).1
  simp only [effect, State.addMatrix, State.addSource, hw]
  refine ⟨⟨by simp [hl], by simp [hl]⟩, trivial, trivial, fun x hx => ?_⟩
  simp [List.getElem?_set_ne (Ne.symm hx)]

example : (⟨[.weakform [1] [2]], [0]⟩ : State).objs[0]? = some (.weakform [1] [2]) := rfl

/-- What has to be alive for the norms of the error. -/
theorem norm_defined_iff {s : State} {p y f m c k : Nat} {shape : Shape} (hp : s.objs[p]? = some (.space shape m c k)) :
    (step s (.norm p y f)).isSome ↔
      y ∈ s.alive ∧ f ∈ s.alive ∧ p ∈ s.alive ∧ (shape = .triangle → m ∈ s.alive ∧ c ∈ s.alive) := by
  cases shape <;> simp [step, uses, parametrizationUses, hp, Option.isSome_ite]

/-- What has to be alive for an integral. -/
theorem integrate_defined_iff {s : State} {i f m a c : Nat} (hi : s.objs[i]? = some (.integrator m))
    (hm : s.objs[m]? = some (.manifold a c)) :
    (step s (.integrate i f)).isSome ↔ f ∈ s.alive ∧ i ∈ s.alive ∧ m ∈ s.alive ∧ a ∈ s.alive ∧ c ∈ s.alive := by
  simp [step, uses, integratorUses, manifoldUses, hi, hm, Option.isSome_ite]

/-- the benchmark up to the solver, for elements of any shape, with the source term or without it -/
def setup (shape : Shape) (source : Bool) : List Op :=
  [.make .coords, .make .mesh, .make (.manifold 1 0), .make .mesh, .make .field, .make (.dirichlet 3),
    .space shape 2 5, .make .matrixBlock, .make .field, .make (.sourceBlock 8), .make (.weakform [] []),
    .addMatrix 10 7] ++ (if source then [.addSource 10 9] else []) ++ [.make (.system 6 10), .make (.solver 11)]

/-- The objects that it makes. -/
theorem setup_objects : ((run .init (setup .triangle true)).map fun s => (s.objs[12]?, s.objs[11]?, s.objs[6]?, s.objs[10]?)) =
    some (some (.solver 11), some (.system 6 10), some (.space .triangle 1 0 5), some (.weakform [7] [9])) := by
  decide +kernel

/-- Once the function space is made, the manifold, the boundary mesh, its constraint and the field given to
the constraint are not needed for solving. -/
theorem solve_without_manifold (shape : Shape) (source : Bool) :
    (run .init (setup shape source ++ [.destroy 2, .destroy 5, .destroy 3, .destroy 4, .solve 12])).isSome := by
  cases shape <;> cases source <;> decide +kernel

/-- The mesh and the coordinate system are needed for solving if and only if the elements are triangles and
there is a source term. -/
theorem solve_without_mesh_iff (shape : Shape) (source : Bool) :
    ((run .init (setup shape source ++ [.destroy 1, .solve 12])).isSome ↔ ¬ (shape = .triangle ∧ source = true)) ∧
    ((run .init (setup shape source ++ [.destroy 0, .solve 12])).isSome ↔ ¬ (shape = .triangle ∧ source = true)) := by
  cases shape <;> cases source <;> decide +kernel

/-- `weakform.add_block(grad_grad_block<…>())` compiles: the weak form keeps a pointer to a temporary, which is
gone when the system is assembled.  The program is otherwise in nested scopes. -/
theorem temporary_block :
    run .init [.make .coords, .make .mesh, .make (.manifold 1 0), .make .mesh, .make (.dirichlet 3),
      .space .triangle 2 4, .make (.weakform [] []), .make .matrixBlock, .addMatrix 6 7, .destroy 7,
      .make (.system 5 6), .make (.solver 8)] ≠ none ∧
    run .init [.make .coords, .make .mesh, .make (.manifold 1 0), .make .mesh, .make (.dirichlet 3),
      .space .triangle 2 4, .make (.weakform [] []), .make .matrixBlock, .addMatrix 6 7, .destroy 7,
      .make (.system 5 6), .make (.solver 8), .solve 9] = none := by
  refine ⟨?_, ?_⟩
  · rw [Option.ne_none_iff_isSome]; decide +kernel
  · rw [← Option.isNone_iff_eq_none]; decide +kernel

/-- `source_term_block<…>(f + g)` compiles: the block keeps a reference to a temporary. -/
theorem temporary_field :
    run .init [.make .coords, .make .mesh, .make (.manifold 1 0), .make .mesh, .make (.dirichlet 3),
      .space .triangle 2 4, .make .field, .make (.sourceBlock 6), .destroy 6, .make (.weakform [] []),
      .addSource 8 7, .make (.system 5 8), .make (.solver 9), .solve 10] = none := by
  rw [← Option.isNone_iff_eq_none]; decide +kernel

/-- A block that is added to the weak form of a discrete system in an inner scope is gone when that scope
is left: nested scopes alone are not enough. -/
theorem late_block :
    run .init [.make .coords, .make .mesh, .make (.manifold 1 0), .make .mesh, .make (.dirichlet 3),
      .space .triangle 2 4, .make (.weakform [] []), .make (.system 5 6), .make (.solver 7), .make .matrixBlock,
      .addMatrix 6 9, .destroy 9, .solve 8] = none := by
  rw [← Option.isNone_iff_eq_none]; decide +kernel

/-- `consistency_test(material, 1.0e-4, 1.0e-8)` compiles: the test keeps references to two temporaries. -/
theorem temporary_tolerance :
    run .init [.make .material, .make .number, .make .number, .make (.consistency 0 1 2), .destroy 2, .destroy 1,
      .test 3] = none ∧
    (run .init [.make .material, .make .number, .make .number, .make (.consistency 0 1 2), .test 3]).isSome := by
  refine ⟨?_, ?_⟩
  · rw [← Option.isNone_iff_eq_none]; decide +kernel
  · decide +kernel

/-- a manifold returned by a function that made the mesh locally cannot be integrated over -/
theorem local_mesh :
    run .init [.make .coords, .make .mesh, .make (.manifold 1 0), .destroy 1, .make (.integrator 2)] = none := by
  rw [← Option.isNone_iff_eq_none]; decide +kernel

end Mito.Lifetimes
