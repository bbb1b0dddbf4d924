import Verif.Spec.Lifetimes
import Mathlib.Tactic.Tauto

/-!
# Lemmas about programs with references
-/

namespace Mito.Lifetimes

/-- what a living object needs is alive -/
structure Inv (s : State) : Prop where
  bound : ∀ x ∈ s.alive, x < s.objs.length
  nodup : s.alive.Nodup
  closed : ∀ x ∈ s.alive, ∀ y ∈ needs s x, y ∈ s.alive

theorem inv_init : Inv .init := ⟨by simp [State.init], by simp [State.init], by simp [State.init]⟩

theorem Inv.uses {s : State} (h : Inv s) {op : Op} (hs : Supported s op) : ∀ x ∈ uses s op, x ∈ s.alive := by
  have hman : ∀ m ∈ s.alive, ∀ x ∈ manifoldUses s m, x ∈ s.alive := by
    intro m hm x hx
    have := h.closed m hm
    unfold manifoldUses at hx
    split at hx
    · rename_i a b e
      simp only [needs, e, Obj.refs] at this
      simp only [List.mem_cons, List.not_mem_nil, or_false] at hx
      rcases hx with rfl | rfl | rfl
      · exact hm
      · exact this _ (by simp)
      · exact this _ (by simp)
    · simp only [List.mem_cons, List.not_mem_nil, or_false] at hx
      exact hx ▸ hm
  have hcon : ∀ m ∈ s.alive, ∀ x ∈ constraintUses s m, x ∈ s.alive := by
    intro m hm x hx
    have := h.closed m hm
    unfold constraintUses at hx
    split at hx
    · rename_i a e
      simp only [needs, e, Obj.refs] at this
      simp only [List.mem_cons, List.not_mem_nil, or_false] at hx
      rcases hx with rfl | rfl
      · exact hm
      · exact this _ (by simp)
    · simp only [List.mem_cons, List.not_mem_nil, or_false] at hx
      exact hx ▸ hm
  have hblk : ∀ m ∈ s.alive, ∀ x ∈ blockUses s m, x ∈ s.alive := by
    intro m hm x hx
    have := h.closed m hm
    unfold blockUses at hx
    split at hx
    · rename_i a e
      simp only [needs, e, Obj.refs] at this
      simp only [List.mem_cons, List.not_mem_nil, or_false] at hx
      rcases hx with rfl | rfl
      · exact hm
      · exact this _ (by simp)
    · simp only [List.mem_cons, List.not_mem_nil, or_false] at hx
      exact hx ▸ hm
  have hpar : ∀ m ∈ s.alive, ∀ x ∈ parametrizationUses s m, x ∈ s.alive := by
    intro m hm x hx
    have := h.closed m hm
    unfold parametrizationUses at hx
    split at hx
    · rename_i a b c e
      simp only [needs, e, Obj.refs] at this
      simp only [List.mem_cons, List.not_mem_nil, or_false] at hx
      rcases hx with rfl | rfl | rfl
      · exact hm
      · exact this _ (by simp)
      · exact this _ (by simp)
    · simp only [List.mem_cons, List.not_mem_nil, or_false] at hx
      exact hx ▸ hm
  have hsys : ∀ m ∈ s.alive, ∀ x ∈ systemUses s m, x ∈ s.alive := by
    intro m hm x hx
    have := h.closed m hm
    unfold systemUses at hx
    split at hx
    · rename_i p w e
      simp only [needs, e] at this
      have hp : p ∈ s.alive := this _ (by simp)
      have hw : w ∈ s.alive := this _ (by simp)
      split at hx
      · rename_i lhs rhs e'
        simp only [blocks, e'] at this
        simp only [List.mem_cons, List.mem_append, List.mem_flatMap] at hx
        rcases hx with rfl | rfl | rfl | ((⟨b, hb, hx⟩ | ⟨b, hb, hx⟩) | hx)
        · exact hm
        · exact hp
        · exact hw
        · exact hblk b (this b (by simp [hb])) x hx
        · exact hblk b (this b (by simp [hb])) x hx
        · split at hx
          · simp at hx
          · exact hpar p hp x hx
      · simp only [List.mem_cons, List.not_mem_nil, or_false] at hx
        rcases hx with rfl | rfl | rfl
        · exact hm
        · exact hp
        · exact hw
    · simp only [List.mem_cons, List.not_mem_nil, or_false] at hx
      exact hx ▸ hm
  intro x hx
  cases op with
  | make o =>
    cases o with
    | integrator m =>
      exact hman m (hs m (by simp [Op.names, Obj.refs])) x (by simpa [Lifetimes.uses] using hx)
    | system p w =>
      simp only [Lifetimes.uses, Obj.refs, List.mem_cons, List.not_mem_nil, or_false] at hx
      rcases hx with rfl | rfl
      · exact hs.1
      · exact hs.2.1
    | _ => exact hs x (by simpa [Lifetimes.uses, Op.names] using hx)
  | space shape m k =>
    simp only [Lifetimes.uses, List.mem_append] at hx
    rcases hx with hx | hx
    · exact hman m (hs m (by simp [Op.names])) x hx
    · exact hcon k (hs k (by simp [Op.names])) x hx
  | addMatrix w b => exact hs x hx
  | addSource w b => exact hs x hx
  | solve m =>
    have hm : m ∈ s.alive := hs m (by simp [Op.names])
    have := h.closed m hm
    simp only [Lifetimes.uses, solverUses] at hx
    split at hx
    · rename_i y e
      simp only [needs, e, Obj.refs] at this
      simp only [List.mem_cons] at hx
      rcases hx with rfl | hx
      · exact hm
      · exact hsys y (this y (by simp)) x hx
    · simp only [List.mem_cons, List.not_mem_nil, or_false] at hx
      exact hx ▸ hm
  | norm p y f =>
    simp only [Lifetimes.uses, List.mem_cons] at hx
    rcases hx with rfl | rfl | hx
    · exact hs _ (by simp [Op.names])
    · exact hs _ (by simp [Op.names])
    · exact hpar p (hs _ (by simp [Op.names])) x hx
  | integrate i f =>
    simp only [Lifetimes.uses, List.mem_cons] at hx
    have hi : i ∈ s.alive := hs _ (by simp [Op.names])
    rcases hx with rfl | hx
    · exact hs _ (by simp [Op.names])
    · have := h.closed i hi
      unfold integratorUses at hx
      split at hx
      · rename_i m e
        simp only [needs, e, Obj.refs] at this
        simp only [List.mem_cons] at hx
        rcases hx with rfl | hx
        · exact hi
        · exact hman m (this m (by simp)) x hx
      · simp only [List.mem_cons, List.not_mem_nil, or_false] at hx
        exact hx ▸ hi
  | write m =>
    have hm : m ∈ s.alive := hs m (by simp [Op.names])
    have := h.closed m hm
    simp only [Lifetimes.uses, writerUses] at hx
    split at hx
    · rename_i a b e
      simp only [needs, e, Obj.refs] at this
      simp only [List.mem_cons] at hx
      rcases hx with rfl | hx
      · exact hm
      · exact this x (by simpa using hx)
    · simp only [List.mem_cons, List.not_mem_nil, or_false] at hx
      exact hx ▸ hm
  | test m =>
    have hm : m ∈ s.alive := hs m (by simp [Op.names])
    have := h.closed m hm
    simp only [Lifetimes.uses, testUses] at hx
    split at hx
    · rename_i a b c e
      simp only [needs, e, Obj.refs] at this
      simp only [List.mem_cons] at hx
      rcases hx with rfl | hx
      · exact hm
      · exact this x (by simpa using hx)
    · simp only [List.mem_cons, List.not_mem_nil, or_false] at hx
      exact hx ▸ hm
  | destroy m =>
    simp only [Lifetimes.uses, List.mem_cons, List.not_mem_nil, or_false] at hx
    exact hx ▸ hs.1

theorem blocks_push {s : State} {o : Obj} {w : Nat} (hw : w < s.objs.length) : blocks (s.push o) w = blocks s w := by
  simp [blocks, State.push, List.getElem?_append_left hw]

theorem needs_push {s : State} {o : Obj} {x : Nat} (hx : x < s.objs.length)
    (hw : ∀ y ∈ needs s x, y < s.objs.length) : needs (s.push o) x = needs s x := by
  have e : (s.push o).objs[x]? = s.objs[x]? := by simp [State.push, List.getElem?_append_left hx]
  unfold needs at hw ⊢
  rw [e]
  split
  · rfl
  · rename_i p w e'
    rw [e'] at hw
    rw [blocks_push (hw w (by simp))]
  · rfl
  · rfl

/-- what the new object needs -/
def newNeeds (s : State) : Obj → List Nat
  | .weakform _ _ => []
  | .system p w => p :: w :: blocks s w
  | o => o.refs

theorem needs_push_new {s : State} {o : Obj} (hw : ∀ y ∈ newNeeds s o, y < s.objs.length) :
    needs (s.push o) s.objs.length = newNeeds s o := by
  have e : (s.push o).objs[s.objs.length]? = some o := by simp [State.push]
  unfold needs
  rw [e]
  cases o with
  | system p w =>
    simp only [newNeeds]
    rw [blocks_push (hw w (by simp [newNeeds]))]
  | _ => rfl

theorem Inv.push {s : State} (h : Inv s) {o : Obj} (hn : ∀ y ∈ newNeeds s o, y ∈ s.alive) : Inv (s.push o) := by
  have hb : ∀ x ∈ (s.push o).alive, x = s.objs.length ∨ x ∈ s.alive := by
    intro x hx; simpa [State.push] using hx
  refine ⟨?_, ?_, ?_⟩
  · intro x hx
    have : (s.push o).objs.length = s.objs.length + 1 := by simp [State.push]
    rcases hb x hx with rfl | hx
    · omega
    · have := h.bound x hx; omega
  · simp only [State.push, List.nodup_cons]
    exact ⟨fun hx => Nat.lt_irrefl _ (h.bound _ hx), h.nodup⟩
  · intro x hx y hy
    have : y ∈ s.alive := by
      rcases hb x hx with rfl | hx
      · rw [needs_push_new fun y hy => h.bound y (hn y hy)] at hy
        exact hn y hy
      · rw [needs_push (h.bound x hx) fun y hy => h.bound y (h.closed x hx y hy)] at hy
        exact h.closed x hx y hy
    simp [State.push, this]

/-- replacing a weak form by one with a further block -/
theorem needs_set {s : State} {w b : Nat} {lhs rhs lhs' rhs' : List Nat} (hw : s.objs[w]? = some (.weakform lhs rhs))
    (hl : ∀ x ∈ lhs' ++ rhs', x ∈ lhs ++ rhs ∨ x = b) (x y : Nat)
    (hy : y ∈ needs ⟨s.objs.set w (.weakform lhs' rhs'), s.alive⟩ x) : y ∈ needs s x ∨ (y = b ∧ ∃ p, s.objs[x]? = some (.system p w)) := by
  have hlt : w < s.objs.length := (List.getElem?_eq_some_iff.1 hw).1
  unfold needs at hy
  by_cases hx : x = w
  · subst hx
    simp [hlt] at hy
  · have e : (s.objs.set w (.weakform lhs' rhs'))[x]? = s.objs[x]? := by
      rw [List.getElem?_set_ne (Ne.symm hx)]
    simp only [e] at hy
    unfold needs
    split at hy
    · simp at hy
    · rename_i p w' e'
      rw [e']
      simp only [List.mem_cons] at hy ⊢
      rcases hy with rfl | rfl | hy
      · exact .inl (.inl rfl)
      · exact .inl (.inr (.inl rfl))
      · by_cases hw' : w' = w
        · subst hw'
          simp only [blocks, List.getElem?_set_self hlt] at hy
          rcases hl y hy with hy | rfl
          · exact .inl (.inr (.inr (by simpa [blocks, hw] using hy)))
          · exact .inr ⟨rfl, p, rfl⟩
        · simp only [blocks, List.getElem?_set_ne (Ne.symm hw')] at hy
          exact .inl (.inr (.inr hy))
    · rename_i o h1 h2 e'
      rw [e']
      cases o with
      | weakform a b => exact (h1 a b rfl).elim
      | system p w => exact (h2 p w rfl).elim
      | _ => exact .inl hy
    · simp at hy

theorem Inv.set {s : State} (h : Inv s) {w b : Nat} {lhs rhs lhs' rhs' : List Nat}
    (hw : s.objs[w]? = some (.weakform lhs rhs)) (hl : ∀ x ∈ lhs' ++ rhs', x ∈ lhs ++ rhs ∨ x = b) (hb : b ∈ s.alive) :
    Inv ⟨s.objs.set w (.weakform lhs' rhs'), s.alive⟩ := by
  refine ⟨fun x hx => by simpa using h.bound x hx, h.nodup, fun x hx y hy => ?_⟩
  rcases needs_set hw hl x y hy with hy | ⟨rfl, -⟩
  · exact h.closed x hx y hy
  · exact hb

theorem Inv.effect {s : State} (h : Inv s) {op : Op} (hs : Supported s op) : Inv (effect s op) := by
  cases op with
  | make o =>
    refine h.push fun y hy => ?_
    cases o with
    | system p w =>
      simp only [newNeeds, List.mem_cons] at hy
      rcases hy with rfl | rfl | hy
      · exact hs.1
      · exact hs.2.1
      · exact hs.2.2 y hy
    | weakform a b => simp [newNeeds] at hy
    | _ => exact hs y hy
  | space shape m k =>
    simp only [Lifetimes.effect]
    split
    · rename_i a b e
      have hm : m ∈ s.alive := hs m (by simp [Op.names])
      have := h.closed m hm
      simp only [needs, e, Obj.refs] at this
      refine h.push fun y hy => ?_
      simp only [newNeeds, Obj.refs, List.mem_cons, List.not_mem_nil, or_false] at hy
      rcases hy with rfl | rfl | rfl
      · exact this _ (by simp)
      · exact this _ (by simp)
      · exact hs _ (by simp [Op.names])
    · exact h
  | addMatrix w b =>
    simp only [Lifetimes.effect, State.addMatrix]
    split
    · rename_i lhs rhs e
      refine h.set e (b := b) ?_ (hs b (by simp [Op.names]))
      intro x; simp only [List.mem_append, List.mem_cons, List.not_mem_nil, or_false]; tauto
    · exact h
  | addSource w b =>
    simp only [Lifetimes.effect, State.addSource]
    split
    · rename_i lhs rhs e
      refine h.set e (b := b) ?_ (hs b (by simp [Op.names]))
      intro x; simp only [List.mem_append, List.mem_cons, List.not_mem_nil, or_false]; tauto
    · exact h
  | destroy x =>
    refine ⟨fun y hy => h.bound y (List.mem_of_mem_erase hy), h.nodup.erase x, fun y hy z hz => ?_⟩
    have hy' : y ∈ s.alive := List.mem_of_mem_erase hy
    have hz' : z ∈ needs s y := hz
    refine (h.nodup.mem_erase_iff).2 ⟨?_, h.closed y hy' z hz'⟩
    rintro rfl
    exact hs.2 y hy' hz'
  | _ => exact h

/-- objects need older objects only, and the living ones are ordered by age -/
structure Ord (s : State) : Prop where
  sorted : s.alive.Pairwise (· > ·)
  older : ∀ x ∈ s.alive, ∀ y ∈ needs s x, y < x

theorem ord_init : Ord .init := ⟨by simp [State.init], by simp [State.init]⟩

theorem Ord.head {s : State} (h : Ord s) {x : Nat} (hx : s.alive.head? = some x) : x ∈ s.alive ∧ ∀ y ∈ s.alive, y ≤ x := by
  have h' := h.sorted
  cases e : s.alive with
  | nil => rw [e] at hx; simp at hx
  | cons a l =>
    rw [e] at hx h'
    simp only [List.head?_cons, Option.some.injEq] at hx
    subst hx
    refine ⟨by simp, fun y hy => ?_⟩
    rcases List.mem_cons.1 hy with rfl | hy
    · exact Nat.le_refl _
    · exact Nat.le_of_lt ((List.pairwise_cons.1 h').1 y hy)

theorem Scoped.supported {s : State} (h : Ord s) {op : Op} (hs : Scoped s op) : Supported s op := by
  cases op with
  | make o => cases o <;> exact hs
  | addMatrix w b =>
    intro x hx
    simp only [Op.names, List.mem_cons, List.not_mem_nil, or_false] at hx
    rcases hx with rfl | rfl
    · exact hs.1
    · exact hs.2.1
  | addSource w b =>
    intro x hx
    simp only [Op.names, List.mem_cons, List.not_mem_nil, or_false] at hx
    rcases hx with rfl | rfl
    · exact hs.1
    · exact hs.2.1
  | destroy x =>
    obtain ⟨h1, h2⟩ := h.head hs
    exact ⟨h1, fun y hy hxy => Nat.lt_irrefl _ (Nat.lt_of_lt_of_le (h.older y hy x hxy) (h2 y hy))⟩
  | _ => exact hs

theorem Ord.push {s : State} (hi : Inv s) (h : Ord s) {o : Obj} (hn : ∀ y ∈ newNeeds s o, y ∈ s.alive) : Ord (s.push o) := by
  refine ⟨?_, ?_⟩
  · simp only [State.push, List.pairwise_cons]
    exact ⟨fun y hy => hi.bound y hy, h.sorted⟩
  · intro x hx y hy
    simp only [State.push, List.mem_cons] at hx
    rcases hx with rfl | hx
    · rw [needs_push_new fun y hy => hi.bound y (hn y hy)] at hy
      exact hi.bound y (hn y hy)
    · rw [needs_push (hi.bound x hx) fun y hy => hi.bound y (hi.closed x hx y hy)] at hy
      exact h.older x hx y hy

theorem Ord.effect {s : State} (hi : Inv s) (h : Ord s) {op : Op} (hs : Scoped s op) : Ord (effect s op) := by
  cases op with
  | make o =>
    refine h.push hi fun y hy => ?_
    cases o with
    | system p w =>
      simp only [newNeeds, List.mem_cons] at hy
      rcases hy with rfl | rfl | hy
      · exact hs.1
      · exact hs.2.1
      · exact hs.2.2 y hy
    | weakform a b => simp [newNeeds] at hy
    | _ => exact hs y hy
  | space shape m k =>
    simp only [Lifetimes.effect]
    split
    · rename_i a b e
      have hm : m ∈ s.alive := hs m (by simp [Op.names])
      have := hi.closed m hm
      simp only [needs, e, Obj.refs] at this
      refine h.push hi fun y hy => ?_
      simp only [newNeeds, Obj.refs, List.mem_cons, List.not_mem_nil, or_false] at hy
      rcases hy with rfl | rfl | rfl
      · exact this _ (by simp)
      · exact this _ (by simp)
      · exact hs _ (by simp [Op.names])
    · exact h
  | addMatrix w b =>
    simp only [Lifetimes.effect, State.addMatrix]
    split
    · rename_i lhs rhs e
      refine ⟨h.sorted, fun x hx y hy => ?_⟩
      rcases needs_set e (b := b) (by intro x; simp only [List.mem_append, List.mem_cons, List.not_mem_nil, or_false]; tauto) x y hy with hy | ⟨-, p, e'⟩
      · exact h.older x hx y hy
      · exact (hs.2.2 x hx p e').elim
    · exact h
  | addSource w b =>
    simp only [Lifetimes.effect, State.addSource]
    split
    · rename_i lhs rhs e
      refine ⟨h.sorted, fun x hx y hy => ?_⟩
      rcases needs_set e (b := b) (by intro x; simp only [List.mem_append, List.mem_cons, List.not_mem_nil, or_false]; tauto) x y hy with hy | ⟨-, p, e'⟩
      · exact h.older x hx y hy
      · exact (hs.2.2 x hx p e').elim
    · exact h
  | destroy x =>
    exact ⟨h.sorted.sublist List.erase_sublist, fun y hy z hz => h.older y (List.mem_of_mem_erase hy) z hz⟩
  | _ => exact h

theorem step_supported {s : State} (h : Inv s) {op : Op} (hs : Supported s op) : step s op = some (effect s op) :=
  if_pos (h.uses hs)

theorem run_supported : ∀ (ops : List Op) {s : State}, Inv s → Always Supported s ops → ∃ s', run s ops = some s' ∧ Inv s'
  | [], s, h, _ => ⟨s, rfl, h⟩
  | op :: ops, s, h, hs => by
    have e := step_supported h hs.1
    obtain ⟨s', h1, h2⟩ := run_supported ops (h.effect hs.1) (hs.2 _ e)
    exact ⟨s', by simp [run, e, h1], h2⟩

theorem scoped_supported : ∀ (ops : List Op) {s : State}, Inv s → Ord s → Always Scoped s ops → Always Supported s ops
  | [], _, _, _, _ => trivial
  | op :: ops, s, hi, h, hs => by
    have h1 := Scoped.supported h hs.1
    have e := step_supported hi h1
    refine ⟨h1, fun s' e' => ?_⟩
    rw [e] at e'
    cases e'
    exact scoped_supported ops (hi.effect h1) (h.effect hi hs.1) (hs.2 _ e)

end Mito.Lifetimes
