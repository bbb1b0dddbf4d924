import Verif.Spec.MeshPrograms
import Verif.Mesh.MeshLemmas
import Verif.Topology.ProgramLemmas
import Verif.Topology.HandlesLemmas

/-! # Lemmas on programs that use the topology and a mesh -/

namespace Mito.MeshPrograms

open Mito.Topology Mito.Meshes

/-! ### what a call of the topology leaves -/

/-- the data of the simplices alive do not change -/
theorem step_data {t t1 : Topo} (hok : Ok t) {op : Op} (h : step t op = some t1) :
    (∀ N, ∀ o ∈ (t.lvl N).ors, t1.fp N o = t.fp N o ∧ t1.sg N o = t.sg N o) ∧
      ∀ N, ∀ f ∈ (t.lvl N).fps, t1.compF N f = t.compF N f := by
  by_cases hop : ∀ N o, op ≠ .erase N o
  · obtain ⟨u, hle, hl, _, _⟩ := step_le hok op hop h
    refine ⟨fun N o ho => ⟨?_, ?_⟩, fun N f hf => ?_⟩
    · rw [← hle.ofp N o ho]; unfold Topo.fp; rw [hl]
    · rw [← hle.osg N o ho]; unfold Topo.sg; rw [hl]
    · rw [← hle.comp N f hf]; unfold Topo.compF; rw [hl]
  · push Not at hop
    obtain ⟨M, x, rfl⟩ := hop
    simp only [step] at h
    split at h
    · rename_i hpos
      simp only [Option.some.injEq] at h
      subst h
      have hs := erase_spec M t x hok.inv hpos
      exact ⟨fun N o _ => ⟨by rw [hs.shr.fp], by rw [hs.shr.sg]⟩, fun N f _ => by rw [hs.shr.compF]⟩
    · simp at h

theorem step_facets {t t1 : Topo} (hok : Ok t) {op : Op} (h : step t op = some t1) {n : Nat} {o : Id} (ho : o ∈ (t.lvl (n + 1)).ors) :
    (t1.composition (n + 1) o).map (fun x => (t1.fp n x, t1.sg n x)) = (t.composition (n + 1) o).map fun x => (t.fp n x, t.sg n x) := by
  obtain ⟨h1, h2⟩ := step_data hok h
  have hc : t1.composition (n + 1) o = t.composition (n + 1) o := by
    unfold Topo.composition
    rw [(h1 _ o ho).1, (h1 _ o ho).2, h2 _ _ (hok.inv.fp_live _ o ho)]
  rw [hc]
  refine List.map_congr_left fun x hx => ?_
  have hx' := composition_live hok.inv ho x hx
  rw [(h1 n x hx').1, (h1 n x hx').2]

/-- the environment after a call -/
theorem exec_env {σ σ1 : Machine} {c : Cmd} (h : exec σ c = some σ1) :
    (σ1 = σ) ∨ ∃ op t1, c.op σ.topo σ.env = some op ∧ step σ.topo op = some t1 ∧
      σ1 = ⟨t1, c.left σ.topo σ.env ++ (result σ.topo op).toList.map some⟩ := by
  unfold exec at h
  split at h
  · split at h
    · simp at h; exact Or.inl h.symm
    · simp at h
  · rename_i op hop
    split at h
    · simp at h
    · rename_i t1 ht1
      simp only [Option.some.injEq] at h
      exact Or.inr ⟨op, t1, hop, ht1, h.symm⟩

theorem left_get {t : Topo} {env : Env} {c : Cmd} {v : Nat} (hv : v ∉ resets c) : (c.left t env)[v]? = env[v]? := by
  cases c with
  | drop w =>
    simp [resets] at hv
    simp only [Cmd.left]
    rw [List.getElem?_set_ne hv]
  | erase w =>
    simp [resets] at hv
    simp only [Cmd.left]
    split
    · split
      · rw [List.getElem?_set_ne hv]
      · rfl
    · rfl
  | _ => rfl

theorem left_length {t : Topo} {env : Env} {c : Cmd} : (c.left t env).length = env.length := by
  cases c with
  | drop w => simp [Cmd.left]
  | erase w =>
    simp only [Cmd.left]
    split
    · split <;> simp
    · rfl
  | _ => rfl

theorem exec_length {σ σ1 : Machine} {c : Cmd} (h : exec σ c = some σ1) : σ.env.length ≤ σ1.env.length := by
  rcases exec_env h with rfl | ⟨op, t1, _, _, rfl⟩
  · exact le_rfl
  · simp [left_length]

theorem look_lt {env : Env} {v : Nat} {x : Topology.Val} (h : look env v = some x) : v < env.length := by
  have := look_get h
  exact (List.getElem?_eq_some_iff.mp this).1

/-- a variable that a call does not reset keeps its handle, and the facets of its simplex do not change -/
theorem exec_keeps {σ σ1 : Machine} (hg : Good σ) {c : Cmd} (h : exec σ c = some σ1) {v : Nat} (hv : v ∉ resets c)
    (hl : v < σ.env.length) : look σ1.env v = look σ.env v ∧ ∀ n, facetsOf σ1 n v = facetsOf σ n v := by
  rcases exec_env h with rfl | ⟨op, t1, hop, ht1, rfl⟩
  · exact ⟨rfl, fun _ => rfl⟩
  · have hk : look (c.left σ.topo σ.env ++ (result σ.topo op).toList.map some) v = look σ.env v := by
      unfold look
      rw [List.getElem?_append_left (by rw [left_length]; exact hl), left_get hv]
    refine ⟨hk, fun n => ?_⟩
    unfold facetsOf
    have hO : lookO (c.left σ.topo σ.env ++ (result σ.topo op).toList.map some) v = lookO σ.env v := by
      unfold lookO; rw [hk]
    show (match lookO (c.left σ.topo σ.env ++ (result σ.topo op).toList.map some) v with
      | some (N, o) => _
      | none => none) = _
    rw [hO]
    cases e : lookO σ.env v with
    | none => rfl
    | some p =>
      obtain ⟨N, o⟩ := p
      by_cases hN : N = n + 1
      · subst hN
        have := step_facets hg.ok ht1 (hg.liveO (lookO_iff.mp e))
        simp only [if_true]
        rw [this]
      · simp [hN]

theorem release_good {σ σ1 : Machine} (hg : Good σ) {w : Nat} (h : release σ w = some σ1) : Good σ1 := by
  unfold release at h
  split at h
  · exact exec_good hg h
  · simp at h; exact h ▸ hg

theorem release_length {σ σ1 : Machine} {w : Nat} (h : release σ w = some σ1) : σ1.env.length = σ.env.length := by
  unfold release at h
  split at h
  · rcases exec_env h with rfl | ⟨op, t1, hop, _, rfl⟩
    · rfl
    · have : result σ.topo op = none := by
        simp only [Cmd.op] at hop
        split at hop <;> simp at hop <;> subst hop <;> rfl
      simp [left_length, this]
  · simp at h; exact h ▸ rfl

theorem release_keeps {σ σ1 : Machine} (hg : Good σ) {w : Nat} (h : release σ w = some σ1) {v : Nat} (hv : v ≠ w)
    (hl : v < σ.env.length) : look σ1.env v = look σ.env v ∧ ∀ n, facetsOf σ1 n v = facetsOf σ n v := by
  unfold release at h
  split at h
  · exact exec_keeps hg h (by simp [resets]; exact fun e => hv e.symm) hl
  · simp at h; subst h; exact ⟨rfl, fun _ => rfl⟩

theorem release_null {σ σ1 : Machine} {w : Nat} (h : release σ w = some σ1) : look σ1.env w = none := by
  unfold release at h
  split at h
  · rename_i hw
    rcases exec_env h with rfl | ⟨op, t1, hop, ht1, rfl⟩
    · exfalso
      unfold exec at h
      cases e : look σ1.env w with
      | none => simp [e] at hw
      | some x =>
        cases x with
        | fp N f =>
          simp only [Cmd.op, e] at h
          split at h
          · simp at h
          · rename_i t1 ht
            simp only [Option.some.injEq] at h
            have : σ1.env.length = σ1.env.length := rfl
            have h2 : look ((Cmd.drop w).left σ1.topo σ1.env ++ (result σ1.topo (.dropF N f)).toList.map some) w = look σ1.env w := by
              conv_rhs => rw [← h]
            have hl := look_lt e
            unfold look at h2
            rw [List.getElem?_append_left (by rw [left_length]; exact hl)] at h2
            simp only [Cmd.left, List.getElem?_set_self hl, Option.join_some] at h2
            unfold look at e
            rw [← h2] at e
            simp at e
        | or N o =>
          simp only [Cmd.op, e] at h
          split at h
          · simp at h
          · rename_i t1 ht
            simp only [Option.some.injEq] at h
            have h2 : look ((Cmd.drop w).left σ1.topo σ1.env ++ (result σ1.topo (.drop N o)).toList.map some) w = look σ1.env w := by
              conv_rhs => rw [← h]
            have hl := look_lt e
            unfold look at h2
            rw [List.getElem?_append_left (by rw [left_length]; exact hl)] at h2
            simp only [Cmd.left, List.getElem?_set_self hl, Option.join_some] at h2
            unfold look at e
            rw [← h2] at e
            simp at e
    · have hl : w < σ.env.length := by
        cases e : look σ.env w with
        | none => simp [e] at hw
        | some x => exact look_lt e
      unfold look
      simp only
      rw [List.getElem?_append_left (by rw [left_length]; exact hl)]
      simp only [Cmd.left, List.getElem?_set_self hl, Option.join_some]
  · rename_i hw
    simp at h hw
    exact h ▸ hw

/-! ### lists of slots -/

theorem set_split {α : Type*} {l : List α} {i : Nat} {a : α} (h : l[i]? = some a) (b : α) :
    ∃ A B, l = A ++ a :: B ∧ l.set i b = A ++ b :: B := by
  obtain ⟨hi, e⟩ := List.getElem?_eq_some_iff.mp h
  refine ⟨l.take i, l.drop (i + 1), ?_, ?_⟩
  · rw [← e, List.cons_getElem_drop_succ, List.take_append_drop]
  · rw [List.set_eq_take_append_cons_drop, if_pos hi]

/-- what holds between the calls of a careful program -/
structure MInv (s : State) : Prop where
  good : Good s.base
  vars : (s.slots.map Prod.fst).Nodup
  lt : ∀ p ∈ s.slots, p.1 < s.base.env.length
  nodup : s.free.Nodup
  free : ∀ i ∈ s.free, ∃ w, s.slots[i]? = some (w, false)
  refs : ∀ i ∈ s.refs, i < s.slots.length
  live : ∀ w, (w, true) ∈ s.slots → ∃ F, facetsOf s.base s.order w = some F
  orient : s.orient = recount (facetList s)
  count : s.count = (cells s).length

theorem mem_cells {s : State} {w : Nat} : w ∈ cells s ↔ (w, true) ∈ s.slots := by
  simp [cells]

theorem MInv.init (supply : List Id) (n : Nat) : MInv (mstart supply n) where
  good := Good.start supply
  vars := by simp [mstart]
  lt := by simp [mstart]
  nodup := by simp [mstart]
  free := by simp [mstart]
  refs := by simp [mstart]
  live := by simp [mstart]
  orient := by simp [mstart, facetList, cells, recount_nil]
  count := by simp [mstart, cells]

theorem facetList_congr {s s1 : State} (ho : s1.order = s.order) (hc : cells s1 = cells s)
    (hf : ∀ v ∈ cells s, facetsOf s1.base s.order v = facetsOf s.base s.order v) : facetList s1 = facetList s := by
  unfold facetList
  rw [hc, ho]
  exact List.flatMap_congr fun v hv => by rw [hf v hv]

/-- a call of the topology that does not reset the handles of live cells -/
theorem MInv.topology {s : State} (h : MInv s) {c : Cmd} {σ : Machine} (e : exec s.base c = some σ)
    (hr : ∀ w, (w, true) ∈ s.slots → w ∉ resets c) : MInv { s with base := σ } := by
  have hk : ∀ v, (v, true) ∈ s.slots → facetsOf σ s.order v = facetsOf s.base s.order v := fun v hv =>
    (exec_keeps h.good e (hr v hv) (h.lt _ hv)).2 _
  refine ⟨exec_good h.good e, h.vars, fun p hp => lt_of_lt_of_le (h.lt p hp) (exec_length e), h.nodup, h.free, h.refs, ?_, ?_, h.count⟩
  · intro w hw
    obtain ⟨F, hF⟩ := h.live w hw
    exact ⟨F, by rw [← hF]; exact hk w hw⟩
  · show s.orient = _
    rw [h.orient]
    exact congrArg recount (facetList_congr (s := s) (s1 := { s with base := σ }) rfl rfl fun v hv => hk v (mem_cells.mp hv)).symm

theorem unregister {F G : List (Nat × Int)} {o : Id → Option (Int × Int)} (h : o = recount (F ++ G)) : F.foldl unbump o = recount G := by
  rw [h, unregister_recount]

theorem MInv.eraseSlot {s s1 : State} (h : MInv s) {i : Nat} (e : eraseSlot s i = some s1) :
    MInv s1 ∧ s1.base = s.base ∧ s1.order = s.order ∧ s1.refs = s.refs ∧ s1.slots.length = s.slots.length := by
  unfold MeshPrograms.eraseSlot at e
  split at e
  · simp at e
  · simp at e; subst e; exact ⟨h, rfl, rfl, rfl, rfl⟩
  · rename_i w hw
    split at e
    · simp at e
    · rename_i F hF
      simp only [Option.some.injEq] at e
      subst e
      obtain ⟨A, B, e1, e2⟩ := set_split hw (w, false)
      refine ⟨⟨h.good, ?_, ?_, ?_, ?_, ?_, ?_, ?_, ?_⟩, rfl, rfl, rfl, by simp⟩
      · have := h.vars
        simp only [e2]
        rw [e1] at this
        simpa using this
      · intro p hp
        simp only [e2] at hp
        rcases List.mem_append.mp hp with hp | hp
        · exact h.lt p (by rw [e1]; simp [hp])
        · rcases List.mem_cons.mp hp with rfl | hp
          · exact h.lt (w, true) (by rw [e1]; simp)
          · exact h.lt p (by rw [e1]; simp [hp])
      · rw [List.nodup_append]
        refine ⟨h.nodup, by simp, ?_⟩
        intro a ha b hb
        simp only [List.mem_singleton] at hb
        subst hb
        rintro rfl
        obtain ⟨w', hw'⟩ := h.free a ha
        rw [hw] at hw'
        simp at hw'
      · intro j hj
        simp only
        rcases List.mem_append.mp hj with hj | hj
        · obtain ⟨w', hw'⟩ := h.free j hj
          refine ⟨w', ?_⟩
          rw [List.getElem?_set_ne]
          · exact hw'
          · rintro rfl
            rw [hw] at hw'
            simp at hw'
        · simp only [List.mem_singleton] at hj
          subst hj
          exact ⟨w, List.getElem?_set_self (List.getElem?_eq_some_iff.mp hw).1⟩
      · intro j hj
        simpa using h.refs j hj
      · intro v hv
        simp only [e2] at hv
        apply h.live v
        rw [e1]
        simp only [List.mem_append, List.mem_cons, Prod.mk.injEq, Bool.true_eq_false, and_false, false_or] at hv
        rcases hv with hv | hv <;> simp [hv]
      · simp only
        apply unregister
        rw [h.orient]
        apply recount_perm
        simp only [facetList, cells, e2]
        rw [e1]
        simp only [List.filter_append, List.map_append, List.flatMap_append, List.filter_cons_of_pos, List.map_cons,
          List.flatMap_cons, hF, Option.getD_some, List.filter_cons_of_neg, Bool.false_eq_true, not_false_eq_true]
        rw [← List.append_assoc, ← List.append_assoc]
        exact List.Perm.append_right _ List.perm_append_comm
      · simp only [cells, e2]
        rw [h.count]
        simp only [cells]
        rw [e1]
        simp
        omega

theorem MInv.eraseSlot_succeeds {s : State} (h : MInv s) {i : Nat} (hi : i < s.slots.length) : ∃ s1, MeshPrograms.eraseSlot s i = some s1 := by
  unfold MeshPrograms.eraseSlot
  cases e : s.slots[i]? with
  | none => simp at e; omega
  | some p =>
    obtain ⟨w, b⟩ := p
    cases b with
    | false => exact ⟨s, rfl⟩
    | true =>
      obtain ⟨F, hF⟩ := h.live w (List.mem_of_getElem? e)
      simp only [hF]
      exact ⟨_, rfl⟩

theorem MInv.eraseDuplicatesIn {b : Bool} {is : List Nat} {s s1 : State} {seen : List Id} (h : MInv s)
    (e : eraseDuplicatesIn b s is seen = some s1) : MInv s1 ∧ s1.base = s.base ∧ s1.order = s.order ∧ s1.refs = s.refs := by
  induction is generalizing s seen with
  | nil => simp [MeshPrograms.eraseDuplicatesIn] at e; subst e; exact ⟨h, rfl, rfl, rfl⟩
  | cons i is ih =>
    simp only [MeshPrograms.eraseDuplicatesIn] at e
    split at e
    · split at e
      · simp at e
      · split at e
        · split at e
          · simp at e
          · rename_i s2 e2
            obtain ⟨h2, a, b', c, _⟩ := h.eraseSlot e2
            obtain ⟨h3, a', b'', c'⟩ := ih h2 e
            exact ⟨h3, a'.trans a, b''.trans b', c'.trans c⟩
        · exact ih h e
    · exact ih h e

theorem facetsOf_some {σ : Machine} {n v : Nat} {F : List (Nat × Int)} (h : facetsOf σ n v = some F) :
    ∃ o, lookO σ.env v = some (n + 1, o) ∧ F = (σ.topo.composition (n + 1) o).map fun x => (σ.topo.fp n x, σ.topo.sg n x) := by
  unfold facetsOf at h
  split at h
  · rename_i N o e
    split at h
    · rename_i hN
      subst hN
      simp at h
      exact ⟨o, e, h.symm⟩
    · simp at h
  · simp at h

theorem MInv.eraseDuplicatesIn_succeeds {b : Bool} {is : List Nat} {s : State} {seen : List Id} (h : MInv s) :
    ∃ s1, MeshPrograms.eraseDuplicatesIn b s is seen = some s1 := by
  induction is generalizing s seen with
  | nil => exact ⟨s, rfl⟩
  | cons i is ih =>
    simp only [MeshPrograms.eraseDuplicatesIn]
    split
    · rename_i w hw
      obtain ⟨F, hF⟩ := h.live w (List.mem_of_getElem? hw)
      obtain ⟨o, ho, _⟩ := facetsOf_some hF
      have hkey : ∃ k, keyOf s.base b w = some k := by
        unfold keyOf
        rw [ho]
        cases b <;> exact ⟨_, rfl⟩
      obtain ⟨k, hkey⟩ := hkey
      rw [hkey]
      simp only
      split
      · obtain ⟨s2, e2⟩ := h.eraseSlot_succeeds (List.getElem?_eq_some_iff.mp hw).1
        rw [e2]
        exact ih (h.eraseSlot e2).1
      · exact ih h
    · exact ih h

theorem emplace_orient (s : State) (b : Bool) (c : Cmd) (o : Id → Option (Int × Int)) :
    emplace { s with orient := o } b c = (emplace s b c).map fun s1 => { s1 with orient := o } := by
  unfold emplace
  simp only
  cases s.free with
  | nil =>
    simp only
    cases exec s.base c <;> rfl
  | cons i f =>
    simp only
    cases s.slots[i]? with
    | none => rfl
    | some p =>
      simp only
      cases release s.base p.1 with
      | none => rfl
      | some σ1 =>
        simp only
        cases exec σ1 c <;> rfl

theorem resets_none {c : Cmd} (h : resets c = none) (v : Nat) : v ∉ resets c := by simp [h]

/-- a new cell -/
theorem MInv.emplace {s s1 : State} (h : MInv s) {c : Cmd} (hr : resets c = none) (e : emplace s true c = some s1) {F : List (Nat × Int)}
    (hF : facetsOf s1.base s.order s.base.env.length = some F) :
    MInv { s1 with orient := recount (F ++ facetList s) } ∧ s1.order = s.order ∧ s1.orient = s.orient := by
  have hlt : s.base.env.length < s1.base.env.length := by
    obtain ⟨o, ho, _⟩ := facetsOf_some hF
    exact look_lt (lookO_iff.mp ho)
  unfold MeshPrograms.emplace at e
  split at e
  · rename_i hfree
    split at e
    · simp at e
    · rename_i σ he
      simp only [Option.some.injEq] at e
      subst e
      simp only at hF hlt ⊢
      have hk : ∀ v, (v, true) ∈ s.slots → facetsOf σ s.order v = facetsOf s.base s.order v := fun v hv =>
        (exec_keeps h.good he (resets_none hr v) (h.lt _ hv)).2 _
      refine ⟨⟨exec_good h.good he, ?_, ?_, ?_, ?_, ?_, ?_, ?_, ?_⟩, trivial, trivial⟩
      · simp only [List.map_append, List.map_cons, List.map_nil, List.nodup_append, List.nodup_singleton, List.mem_singleton, true_and]
        refine ⟨h.vars, ?_⟩
        rintro a ha b rfl rfl
        obtain ⟨p, hp, e⟩ := List.mem_map.mp ha
        have := h.lt p hp
        omega
      · intro p hp
        simp only at hp ⊢
        rcases List.mem_append.mp hp with hp | hp
        · have := h.lt p hp; omega
        · simp at hp; subst hp; exact hlt
      · simp [hfree]
      · simp [hfree]
      · intro i hi
        simp only [List.mem_append, List.mem_singleton, List.length_append, List.length_cons, List.length_nil] at hi ⊢
        rcases hi with hi | rfl
        · have := h.refs i hi; omega
        · omega
      · intro w hw
        simp only [List.mem_append, List.mem_singleton, Prod.mk.injEq] at hw ⊢
        rcases hw with hw | ⟨rfl, _⟩
        · obtain ⟨G, hG⟩ := h.live w hw
          exact ⟨G, by rw [hk w hw]; exact hG⟩
        · exact ⟨F, hF⟩
      · apply recount_perm
        simp only [facetList, cells, List.filter_append, List.map_append, List.flatMap_append]
        simp only [List.filter_cons_of_pos, List.filter_nil, List.map_cons, List.map_nil, List.flatMap_cons, List.flatMap_nil, hF,
          Option.getD_some, List.append_nil]
        refine List.perm_append_comm.trans (List.Perm.append_right _ ?_)
        refine List.Perm.of_eq (List.flatMap_congr fun v hv => ?_)
        rw [hk v (mem_cells.mp hv)]
      · simp [cells, h.count]
  · rename_i i f hfree
    split at e
    · simp at e
    · rename_i w b hw
      obtain ⟨w', hw'⟩ := h.free i (by simp [hfree])
      rw [hw] at hw'
      simp only [Option.some.injEq, Prod.mk.injEq] at hw'
      obtain ⟨rfl, rfl⟩ := hw'
      split at e
      · simp at e
      · rename_i σ1 hrel
        split at e
        · simp at e
        · rename_i σ he
          simp only [Option.some.injEq] at e
          subst e
          simp only at hF hlt ⊢
          have hg1 := release_good h.good hrel
          have hl1 := release_length hrel
          obtain ⟨A, B, e1, e2⟩ := set_split hw (s.base.env.length, true)
          have hne : ∀ v, (v, true) ∈ s.slots → v ≠ w := by
            rintro v hv rfl
            have hv' := h.vars
            rw [e1] at hv'
            simp only [List.map_append, List.map_cons, List.nodup_append, List.nodup_cons, List.mem_cons] at hv'
            rw [e1] at hv
            simp only [List.mem_append, List.mem_cons, Prod.mk.injEq, Bool.true_eq_false, and_false, false_or] at hv
            rcases hv with hv | hv
            · exact hv'.2.2 v (List.mem_map.mpr ⟨_, hv, rfl⟩) v (Or.inl rfl) rfl
            · exact hv'.2.1.1 (List.mem_map.mpr ⟨_, hv, rfl⟩)
          have hk : ∀ v, (v, true) ∈ s.slots → facetsOf σ s.order v = facetsOf s.base s.order v := fun v hv => by
            rw [(exec_keeps hg1 he (resets_none hr v) (by rw [hl1]; exact h.lt _ hv)).2,
              (release_keeps h.good hrel (hne v hv) (h.lt _ hv)).2]
          have hfn : i ∉ f ∧ f.Nodup := by
            have := h.nodup
            rw [hfree] at this
            simpa using this
          refine ⟨⟨exec_good hg1 he, ?_, ?_, ?_, ?_, ?_, ?_, ?_, ?_⟩, trivial, trivial⟩
          · simp only [e2]
            have hv' := h.vars
            rw [e1] at hv'
            have hnew : ∀ p ∈ A ++ B, p.1 ≠ s.base.env.length := by
              intro p hp
              have := h.lt p (by rw [e1]; simp at hp ⊢; tauto)
              omega
            simp only [List.map_append, List.map_cons, List.nodup_append, List.nodup_cons, List.mem_cons] at hv' ⊢
            refine ⟨hv'.1, ⟨?_, hv'.2.1.2⟩, ?_⟩
            · intro hm
              obtain ⟨p, hp, e⟩ := List.mem_map.mp hm
              exact hnew p (by simp [hp]) e
            · intro a ha b hb
              rcases hb with rfl | hb
              · obtain ⟨p, hp, e⟩ := List.mem_map.mp ha
                rw [← e]
                exact hnew p (by simp [hp])
              · exact hv'.2.2 a ha b (Or.inr hb)
          · intro p hp
            simp only [e2] at hp ⊢
            rcases List.mem_append.mp hp with hp | hp
            · have := h.lt p (by rw [e1]; simp [hp]); omega
            · rcases List.mem_cons.mp hp with rfl | hp
              · exact hlt
              · have := h.lt p (by rw [e1]; simp [hp]); omega
          · exact hfn.2
          · intro j hj
            simp only at hj ⊢
            obtain ⟨w', hw'⟩ := h.free j (by rw [hfree]; simp [hj])
            refine ⟨w', ?_⟩
            rw [List.getElem?_set_ne]
            · exact hw'
            · rintro rfl
              exact hfn.1 hj
          · intro j hj
            simp only [List.mem_append, List.mem_singleton, List.length_set] at hj ⊢
            rcases hj with hj | rfl
            · exact h.refs j hj
            · exact (List.getElem?_eq_some_iff.mp hw).1
          · intro v hv
            simp only [e2, List.mem_append, List.mem_cons, Prod.mk.injEq] at hv ⊢
            have hold : (v, true) ∈ s.slots → ∃ F, facetsOf σ s.order v = some F := fun hv => by
              obtain ⟨G, hG⟩ := h.live v hv
              exact ⟨G, by rw [hk v hv]; exact hG⟩
            rcases hv with hv | ⟨rfl, _⟩ | hv
            · exact hold (by rw [e1]; simp [hv])
            · exact ⟨F, hF⟩
            · exact hold (by rw [e1]; simp [hv])
          · apply recount_perm
            have key : facetList s = (A.filter (·.2) ++ B.filter (·.2)).flatMap fun p => (facetsOf σ s.order p.1).getD [] := by
              simp only [facetList, cells]
              rw [e1]
              simp only [List.filter_append, Bool.false_eq_true, not_false_eq_true, List.filter_cons_of_neg,
                List.flatMap_map]
              refine List.flatMap_congr fun p hp => ?_
              rw [hk]
              rw [e1]
              obtain ⟨x, y⟩ := p
              simp only [List.mem_append, List.mem_filter] at hp
              simp only [List.mem_append, List.mem_cons]
              rcases hp with ⟨hp, rfl⟩ | ⟨hp, rfl⟩
              · exact Or.inl hp
              · exact Or.inr (Or.inr hp)
            rw [key]
            simp only [facetList, cells, e2, List.filter_append, List.filter_cons_of_pos, List.map_append, List.map_cons,
              List.flatMap_append, List.flatMap_cons, hF, Option.getD_some, List.flatMap_map]
            rw [← List.append_assoc, ← List.append_assoc]
            exact List.Perm.append_right _ List.perm_append_comm
          · simp only [cells, e2]
            rw [h.count]
            simp only [cells]
            rw [e1]
            simp
            omega

theorem register_fold (F G : List (Nat × Int)) : F.foldl (bump 1) (recount G) = recount (F ++ G) :=
  register_recount (fac := id) G F

theorem builds_resets {c : Cmd} (h : builds c = true) : resets c = none := by
  cases c <;> simp_all [builds, resets]

theorem MInv.insertNodes {s s1 : State} (h : MInv s) {c : Cmd} (hc : builds c = true) (e : insertNodes s c = some s1) : MInv s1 := by
  unfold MeshPrograms.insertNodes at e
  split at e
  · simp at e
  · rename_i s2 e2
    unfold MeshPrograms.count at e
    split at e
    · simp at e
    · rename_i F hF
      simp only [Option.some.injEq] at e
      subst e
      have ho : s2.order = s.order := by
        unfold MeshPrograms.emplace at e2
        split at e2
        · split at e2 <;> simp at e2
          subst e2; rfl
        · split at e2
          · simp at e2
          · split at e2
            · simp at e2
            · split at e2 <;> simp at e2
              subst e2; rfl
      rw [ho] at hF
      obtain ⟨h1, h2, h3⟩ := h.emplace (builds_resets hc) e2 hF
      rw [h3, h.orient, register_fold]
      exact h1

theorem exec_copy {σ σ1 : Machine} (hg : Good σ) {v N : Nat} {o : Id} (hv : lookO σ.env v = some (N, o)) (h : exec σ (.copy v) = some σ1) :
    (∀ n, facetsOf σ1 n σ.env.length = facetsOf σ n v) ∧ lookO σ1.env σ.env.length = some (N, o) := by
  have hk := exec_keeps hg h (v := v) (by simp [resets]) (look_lt (lookO_iff.mp hv))
  unfold exec at h
  simp only [Cmd.op, lookO_iff.mp hv] at h
  split at h
  · simp at h
  · rename_i t1 ht1
    simp only [Option.some.injEq] at h
    have hnew : lookO σ1.env σ.env.length = some (N, o) := by
      rw [← h, lookO_iff]
      simp [look, Cmd.left, result]
    refine ⟨fun n => ?_, hnew⟩
    rw [← hk.2 n]
    have hold : lookO σ1.env v = some (N, o) := by
      rw [lookO_iff, hk.1]; exact lookO_iff.mp hv
    unfold facetsOf
    rw [hnew, hold]

theorem exec_copy_look {σ σ1 : Machine} {v : Nat} (h : exec σ (.copy v) = some σ1) : ∃ x, look σ.env v = some x := by
  unfold exec at h
  cases e : look σ.env v with
  | none =>
    simp [Cmd.op, e, Cmd.idle] at h
  | some x => exact ⟨x, rfl⟩

/-- the copy in `emplace` reads the simplex of the variable -/
theorem emplace_copy {s s1 : State} (hg : Good s.base) {v N : Nat} {o : Id} {b : Bool} (hv : lookO s.base.env v = some (N, o))
    (e : emplace s b (.copy v) = some s1) : ∀ n, facetsOf s1.base n s.base.env.length = facetsOf s.base n v := by
  unfold emplace at e
  split at e
  · split at e
    · simp at e
    · rename_i σ he
      simp only [Option.some.injEq] at e
      subst e
      exact (exec_copy hg hv he).1
  · split at e
    · simp at e
    · rename_i w b' hw
      split at e
      · simp at e
      · rename_i σ1 hrel
        split at e
        · simp at e
        · rename_i σ he
          simp only [Option.some.injEq] at e
          subst e
          by_cases hvw : v = w
          · subst hvw
            obtain ⟨x, hx⟩ := exec_copy_look he
            rw [release_null hrel] at hx
            simp at hx
          · have hk := release_keeps hg hrel hvw (look_lt (lookO_iff.mp hv))
            have hv1 : lookO σ1.env v = some (N, o) := by
              rw [lookO_iff, hk.1]; exact lookO_iff.mp hv
            intro n
            have := (exec_copy (release_good hg hrel) hv1 he).1 n
            rw [release_length hrel] at this
            simp only
            rw [this, hk.2]

theorem MInv.insertCell {s s1 : State} (h : MInv s) {v : Nat} (e : insertCell s v true = some s1) : MInv s1 := by
  unfold MeshPrograms.insertCell MeshPrograms.count at e
  cases hF : facetsOf s.base s.order v with
  | none => simp [hF] at e
  | some F =>
    simp only [hF] at e
    rw [emplace_orient] at e
    obtain ⟨s2, e2, e3⟩ := Option.map_eq_some_iff.mp e
    subst e3
    obtain ⟨o, ho, _⟩ := facetsOf_some hF
    have hF' : facetsOf s2.base s.order s.base.env.length = some F := by
      rw [emplace_copy h.good ho e2, hF]
    obtain ⟨h1, _, _⟩ := h.emplace (c := .copy v) rfl e2 hF'
    rw [h.orient, register_fold]
    exact h1

/-- The invariant holds after every careful call. -/
theorem MInv.mexec {s s1 : State} (h : MInv s) {c : Call} (hc : c.careful s) (e : mexec s c = some s1) : MInv s1 := by
  cases c with
  | topology c =>
    simp only [MeshPrograms.mexec] at e
    split at e
    · rename_i hr
      obtain ⟨σ, e1, e2⟩ := Option.map_eq_some_iff.mp e
      subst e2
      exact h.topology e1 fun w hw hm => hr w hm (List.mem_map.mpr ⟨_, hw, rfl⟩)
    · simp at e
  | insert c =>
    simp only [MeshPrograms.mexec] at e
    split at e
    · rename_i hb; exact h.insertNodes hb e
    · simp at e
  | insertCell v => exact h.insertCell e
  | insertAgain k =>
    simp only [MeshPrograms.mexec] at e
    split at e
    · simp at e
    · rename_i i hi
      split at e
      · simp at e
      · rename_i w b hw
        cases b with
        | true => exact h.insertCell e
        | false => exact absurd (by simp [flag, hi, hw]) hc
  | erase k =>
    simp only [MeshPrograms.mexec] at e
    split at e
    · simp at e
    · exact (h.eraseSlot e).1
  | eraseSimplex k =>
    simp only [MeshPrograms.mexec] at e
    split at e
    · simp at e
    · rename_i i hi
      split at e
      · simp at e
      · rename_i w b hw
        obtain ⟨σ, e1, e2⟩ := Option.map_eq_some_iff.mp e
        subst e2
        cases b with
        | true => exact absurd (by simp [flag, hi, hw]) hc
        | false =>
          refine h.topology e1 fun v hv hm => ?_
          simp only [resets, Option.mem_def, Option.some.injEq] at hm
          subst hm
          obtain ⟨A, B, e3, _⟩ := set_split hw (w, false)
          have hv' := h.vars
          rw [e3] at hv' hv
          simp only [List.map_append, List.map_cons, List.nodup_append, List.nodup_cons, List.mem_cons] at hv'
          simp only [List.mem_append, List.mem_cons, Prod.mk.injEq, Bool.true_eq_false, and_false, false_or] at hv
          rcases hv with hv | hv
          · exact hv'.2.2 w (List.mem_map.mpr ⟨_, hv, rfl⟩) w (Or.inl rfl) rfl
          · exact hv'.2.1.1 (List.mem_map.mpr ⟨_, hv, rfl⟩)
  | eraseDuplicates b =>
    simp only [MeshPrograms.mexec] at e
    exact (h.eraseDuplicatesIn e).1

theorem MInv.run {p : MProg} {s s1 : State} {m : Int} (h : MInv s) (hc : p.careful s) (e : p.run s = some (s1, m)) : MInv s1 := by
  induction p generalizing s with
  | done n => simp [MProg.run] at e; exact e.1 ▸ h
  | call c p ih =>
    simp only [MProg.run] at e
    split at e
    · simp at e
    · rename_i s2 e2
      exact ih (h.mexec hc.1 e2) (hc.2 s2 e2) e
  | ask q k ih => exact ih _ h hc e

theorem MReach.inv {s : State} (h : MReach s) : MInv s := by
  obtain ⟨supply, n, p, m, hc, e⟩ := h
  exact (MInv.init supply n).run hc e

end Mito.MeshPrograms
