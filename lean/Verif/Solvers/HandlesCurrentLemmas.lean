import Verif.Solvers.HandlesLemmas

/-! # Which matrix a solver refers to -/

namespace Mito.Handles

variable {st st' : State} {L : List Nat} {h h' : Heap}

theorem destroy_ops {x : Handle} (e : h.destroy x = some h') : h'.ops = h.ops := by
  cases x with
  | garbage => cases e
  | null => cases e; rfl
  | obj i =>
    simp only [Heap.destroy] at e
    split at e
    · cases e
    · split at e
      · split at e <;> cases e <;> rfl
      · cases e; rfl

theorem destroySystem_ops {S T : System} (e : destroySystem h S = some (h', T)) : h'.ops = h.ops ∧ T = ⟨.null, .null, .null⟩ := by
  simp only [destroySystem, Option.bind_eq_bind, Option.bind_eq_some_iff, Option.pure_def, Option.some.injEq, Prod.mk.injEq] at e
  obtain ⟨h1, e1, h2, e2, h3, e3, rfl, rfl⟩ := e
  exact ⟨by rw [destroy_ops e3, destroy_ops e2, destroy_ops e1], rfl⟩

/-- solvers have no object as long as their linear system has none, and refer to the matrix of the linear system -/
def Fits (h : Heap) (K : Solver) (S : System) : Prop :=
  (S.matrix = .garbage → K.ksp = .garbage) ∧ ∀ j m m', K.ksp = .obj j → S.matrix = .obj m → h.ops j = some m' → m' = m

def AllFit (st : State) : Prop := ∀ K ∈ st.solvers, ∃ S, st.systems[K.system]? = some S ∧ Fits st.heap K S

theorem fits_gone (h : Heap) (K : Solver) (a b : Handle) : Fits h K ⟨.null, a, b⟩ :=
  ⟨(fun e => by cases e), (fun _ _ _ _ e _ => by cases e)⟩

theorem fits_garbage (h : Heap) (K : Solver) (S : System) (hK : K.ksp = .garbage) : Fits h K S :=
  ⟨(fun _ => hK), (fun _ _ _ e => by rw [hK] at e; cases e)⟩

theorem Fits.congr (ho : h'.ops = h.ops) {K : Solver} {S : System} (hf : Fits h K S) : Fits h' K S :=
  ⟨hf.1, fun j m m' h1 h2 h3 => hf.2 j m m' h1 h2 (ho ▸ h3)⟩

/-- a linear system is replaced -/
theorem fits_set {s : Nat} {T : System} (hf : AllFit st) (ho : h'.ops = st.heap.ops)
    (hT : ∀ K ∈ st.solvers, K.system = s → Fits h' K T) : AllFit ⟨h', st.systems.set s T, st.solvers⟩ := by
  intro K hK
  obtain ⟨S, h1, h2⟩ := hf K hK
  by_cases hks : s = K.system
  · refine ⟨T, ?_, hT K hK hks.symm⟩
    rw [hks]
    exact List.getElem?_set_self (List.getElem?_eq_some_iff.mp h1).1
  · exact ⟨S, by rw [List.getElem?_set_ne hks]; exact h1, h2.congr ho⟩

/-- steps keep that, unless a linear system is created again -/
theorem step_fits (hs : SInv st L) (hf : AllFit st) {o : Op} (ho : ∀ s, o ≠ .copySystem s)
    (hc : ∀ s S, o = .createSystem s → st.systems[s]? = some S → S.matrix = .garbage) (e : step st o = some st') : AllFit st' := by
  cases o with
  | copySystem s => exact absurd rfl (ho s)
  | system =>
    cases e
    intro K hK
    obtain ⟨S, h1, h2⟩ := hf K hK
    refine ⟨S, ?_, h2⟩
    rw [List.getElem?_append_left (List.getElem?_eq_some_iff.mp h1).1]
    exact h1
  | solver s =>
    simp only [step, Option.bind_eq_bind, Option.bind_eq_some_iff, Option.pure_def, Option.some.injEq] at e
    obtain ⟨S, h0, rfl⟩ := e
    intro K hK
    rcases List.mem_append.mp hK with hK | hK
    · exact hf K hK
    · rw [List.mem_singleton.mp hK]
      exact ⟨S, h0, fits_garbage _ _ _ rfl⟩
  | createSystem s =>
    simp only [step, Option.bind_eq_bind, Option.bind_eq_some_iff, Option.pure_def, Option.some.injEq] at e
    obtain ⟨S0, h0, rfl⟩ := e
    have hg := hc s S0 rfl h0
    refine fits_set (h' := (createSystem st.heap).1) hf rfl fun K hK hks => ?_
    obtain ⟨S, h1, h2⟩ := hf K hK
    rw [hks, h0] at h1
    cases h1
    exact fits_garbage _ _ _ (h2.1 hg)
  | destroySystem s =>
    simp only [step, Option.bind_eq_bind, Option.bind_eq_some_iff, Option.pure_def, Option.some.injEq] at e
    obtain ⟨S0, h0, ⟨h', T⟩, h1, rfl⟩ := e
    obtain ⟨o1, rfl⟩ := destroySystem_ops h1
    exact fits_set hf o1 fun K _ _ => fits_gone _ _ _ _
  | createSolver k =>
    simp only [step, Option.bind_eq_bind, Option.bind_eq_some_iff, Option.pure_def, Option.some.injEq] at e
    obtain ⟨K0, k0, S0, h0, ⟨h', x⟩, h1, rfl⟩ := e
    have hu := hs.uniform S0 (List.mem_of_getElem? h0)
    have key : x = .obj st.heap.next ∧ (∀ j, j < st.heap.next → h'.ops j = st.heap.ops j) ∧
        (∀ m m', S0.matrix = .obj m → h'.ops st.heap.next = some m' → m' = m) ∧ S0.matrix ≠ .garbage := by
      generalize hp : S0.phase = q at hu
      cases hu with
      | fresh => simp [createSolver, Heap.create, Heap.setOperators] at h1
      | gone =>
        rw [(hs.heap.createSolver_null (S := ⟨.null, .null, .null⟩) rfl).1] at h1
        simp only [Option.some.injEq, Prod.mk.injEq] at h1
        obtain ⟨rfl, rfl⟩ := h1
        exact ⟨rfl, fun j _ => rfl, (fun _ _ e => by cases e), by simp⟩
      | alive a b c ha =>
        obtain ⟨h'', g1, g2, g3, -⟩ := hs.heap.createSolver (S := ⟨.obj a, .obj b, .obj c⟩) rfl
          (mem_owners h0 (by simp [System.objs, objs])) ha
        rw [g1] at h1
        simp only [Option.some.injEq, Prod.mk.injEq] at h1
        obtain ⟨rfl, rfl⟩ := h1
        refine ⟨rfl, fun j hj => ?_, fun m m' e1 e2 => ?_, by simp⟩
        · rw [g3, Function.update_of_ne (by omega)]
        · rw [g3, Function.update_self] at e2
          cases e1
          cases e2
          rfl
    obtain ⟨rfl, hop, hnew, hng⟩ := key
    intro K hK
    rcases List.mem_or_eq_of_mem_set hK with hK | rfl
    · obtain ⟨S, g1, g2⟩ := hf K hK
      refine ⟨S, g1, g2.1, fun j m m' e1 e2 e3 => g2.2 j m m' e1 e2 ?_⟩
      obtain ⟨t, ht⟩ := List.getElem?_of_mem hK
      have hlt := hs.heap.lt j (mem_owners_solver ht (by simp [e1, objs]))
      rw [← hop j hlt]
      exact e3
    · refine ⟨S0, h0, fun e => absurd e hng, fun j m m' e1 e2 e3 => ?_⟩
      cases e1
      exact hnew m m' e2 e3
  | destroySolver k =>
    simp only [step, Option.bind_eq_bind, Option.bind_eq_some_iff, Option.pure_def, Option.some.injEq] at e
    obtain ⟨K0, k0, S0, h0, ⟨h1, T⟩, e1, h2, e2, rfl⟩ := e
    obtain ⟨o1, rfl⟩ := destroySystem_ops e1
    have o2 := destroy_ops e2
    have h3 : AllFit ⟨h2, st.systems.set K0.system ⟨.null, .null, .null⟩, st.solvers⟩ :=
      fits_set hf (o2.trans o1) fun K _ _ => fits_gone _ _ _ _
    intro K hK
    rcases List.mem_or_eq_of_mem_set hK with hK | rfl
    · exact h3 K hK
    · refine ⟨⟨.null, .null, .null⟩, ?_, fits_gone _ _ _ _⟩
      exact List.getElem?_set_self (List.getElem?_eq_some_iff.mp h0).1
  | useMatrix s | useRhs s | getSolution s | print s | setOptions s =>
    simp only [step, Option.bind_eq_bind, Option.bind_eq_some_iff] at e
    obtain ⟨_, _, e⟩ := e
    split at e
    · cases e; exact hf
    · cases e
  | solve k =>
    simp only [step, Option.bind_eq_bind, Option.bind_eq_some_iff] at e
    obtain ⟨_, _, _, _, e⟩ := e
    split at e
    · cases e; exact hf
    · cases e

theorem phase_fresh {S : System} : S.phase = .fresh ↔ S.matrix = .garbage := by
  simp only [System.phase]
  cases S.matrix <;> simp

/-- linear systems are not created until they are created -/
theorem follow_created {p p' : Phases} {s : Nat} {q : Phase} {o : Op} (e : follow p o = some p') (hq : p'.systems[s]? = some q)
    (hf : q ≠ .fresh) (ho : o ≠ .createSystem s) (hn : ∀ s, o ≠ .copySystem s) : ∃ q', p.systems[s]? = some q' ∧ q' ≠ .fresh := by
  cases o with
  | copySystem t => exact absurd rfl (hn t)
  | system =>
    cases e
    rw [List.getElem?_append] at hq
    split at hq
    · exact ⟨q, hq, hf⟩
    · rw [List.getElem?_singleton] at hq
      split at hq
      · cases hq
        exact absurd rfl hf
      · cases hq
  | createSystem t =>
    simp only [follow, Option.bind_eq_bind, Option.bind_eq_some_iff, Option.pure_def, Option.some.injEq] at e
    obtain ⟨q0, h0, rfl⟩ := e
    have hts : t ≠ s := fun e => ho (by rw [e])
    rw [List.getElem?_set_ne hts] at hq
    exact ⟨q, hq, hf⟩
  | destroySystem t =>
    simp only [follow, Option.bind_eq_bind, Option.bind_eq_some_iff, Option.pure_def] at e
    obtain ⟨q0, h0, e⟩ := e
    split at e
    · cases e
    · rename_i h1
      cases e
      by_cases hts : t = s
      · subst hts
        exact ⟨q0, h0, h1⟩
      · rw [List.getElem?_set_ne hts] at hq
        exact ⟨q, hq, hf⟩
  | destroySolver k =>
    simp only [follow, Option.bind_eq_bind, Option.bind_eq_some_iff, Option.pure_def] at e
    obtain ⟨r, hr, q0, h0, e⟩ := e
    split at e
    · cases e
    · rename_i h1
      cases e
      by_cases hts : r.1 = s
      · subst hts
        exact ⟨q0, h0, fun h => h1 (Or.inl h)⟩
      · rw [List.getElem?_set_ne hts] at hq
        exact ⟨q, hq, hf⟩
  | createSolver k =>
    simp only [follow, Option.bind_eq_bind, Option.bind_eq_some_iff, Option.pure_def] at e
    obtain ⟨r, hr, q0, h0, e⟩ := e
    split at e
    · cases e
    · cases e
      exact ⟨q, hq, hf⟩
  | solver t =>
    simp only [follow, Option.bind_eq_bind, Option.bind_eq_some_iff, Option.pure_def, Option.some.injEq] at e
    obtain ⟨q0, h0, rfl⟩ := e
    exact ⟨q, hq, hf⟩
  | useMatrix t | useRhs t | getSolution t | print t | setOptions t =>
    simp only [follow, Option.bind_eq_bind, Option.bind_eq_some_iff] at e
    obtain ⟨_, _, e⟩ := e
    split at e
    · cases e; exact ⟨q, hq, hf⟩
    · cases e
  | solve k =>
    simp only [follow, Option.bind_eq_bind, Option.bind_eq_some_iff] at e
    obtain ⟨_, _, _, _, e⟩ := e
    split at e
    · cases e; exact ⟨q, hq, hf⟩
    · cases e

/-- programs that create each linear system once -/
theorem run_fits : ∀ {ops : List Op} {st : State} {L : List Nat}, SInv st L → AllFit st → NoCopies ops →
    (∀ s, ops.count (.createSystem s) ≤ 1) →
    (∀ s q, (phases st L).systems[s]? = some q → q ≠ .fresh → Op.createSystem s ∉ ops) → run st ops = some st' → AllFit st'
  | [], st, L, _, hf, _, _, _, e => by cases e; exact hf
  | o :: ops, st, L, hs, hf, hn, h1, h2, e => by
    have hno : ∀ s, o ≠ .copySystem s := fun s e => hn s (e ▸ List.mem_cons_self)
    simp only [run, Option.bind_eq_some_iff] at e
    obtain ⟨st1, e1, e⟩ := e
    rcases step_agrees hs o hno with ⟨st2, L2, g1, g2, g3⟩ | ⟨g1, -⟩
    · rw [e1] at g1
      cases g1
      refine run_fits g2 (step_fits hs hf hno ?_ e1) (fun s hm => hn s (List.mem_cons_of_mem _ hm)) (fun s => ?_) (fun s q hq hne => ?_) e
      · rintro s S rfl hS
        by_contra hg
        exact h2 s S.phase (by rw [phases_system, hS]; rfl) (fun h => hg (phase_fresh.mp h)) List.mem_cons_self
      · exact Nat.le_trans List.count_le_count_cons (h1 s)
      · by_cases ho : o = .createSystem s
        · subst ho
          have := h1 s
          rw [List.count_cons_self] at this
          exact List.count_eq_zero.mp (by omega)
        · obtain ⟨q', g4, g5⟩ := follow_created g3 hq hne ho hno
          exact fun hm => h2 s q' g4 g5 (List.mem_cons_of_mem _ hm)
    · rw [e1] at g1
      cases g1

end Mito.Handles
