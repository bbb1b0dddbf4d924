import Verif.Mesh.ProgramsLemmas

/-! # Lemmas on programs that use the topology and a mesh: addresses -/

namespace Mito.MeshPrograms

open Mito.Topology Mito.Meshes

variable {φ ω : Nat → Id → Id}

theorem facetsOf_rename {σ σ' : Machine} (hg : Good σ) (hiso : Iso φ ω σ.topo σ'.topo) (henv : σ'.env = rename φ ω σ.env) (n v : Nat) :
    facetsOf σ' n v = (facetsOf σ n v).map (List.map fun f => (φ n f.1, f.2)) := by
  unfold facetsOf
  rw [henv, lookO_rename]
  cases e : lookO σ.env v with
  | none => rfl
  | some p =>
    obtain ⟨N, o⟩ := p
    simp only [Option.map_some]
    by_cases hN : N = n + 1
    · subst hN
      have ho := hg.liveO (lookO_iff.mp e)
      simp only [if_true, Option.map_some, Option.some.injEq]
      rw [hiso.composition hg.ok.inv ho, List.map_map, List.map_map]
      refine List.map_congr_left fun x hx => ?_
      have hx' := composition_live hg.ok.inv ho x hx
      simp [hiso.fp n x hx', hiso.sg n x hx']
    · simp [hN]

theorem facets_alive {σ : Machine} (hg : Good σ) {n v : Nat} {F : List (Nat × Int)} (h : facetsOf σ n v = some F) :
    ∀ f ∈ F, f.1 ∈ (σ.topo.lvl n).fps := by
  obtain ⟨o, ho, rfl⟩ := facetsOf_some h
  intro f hf
  obtain ⟨x, hx, rfl⟩ := List.mem_map.mp hf
  exact hg.ok.inv.fp_live _ _ (composition_live hg.ok.inv (hg.liveO (lookO_iff.mp ho)) x hx)

theorem facetsOf_isSome {σ σ' : Machine} (hg : Good σ) (h : SameUpToAddresses σ σ') {n v : Nat} {F : List (Nat × Int)}
    (e : facetsOf σ n v = some F) : ∃ F', facetsOf σ' n v = some F' := by
  obtain ⟨φ, ω, hiso, henv⟩ := h
  exact ⟨_, by rw [facetsOf_rename hg hiso henv, e]; rfl⟩

theorem same_length {σ σ' : Machine} (h : SameUpToAddresses σ σ') : σ'.env.length = σ.env.length := by
  obtain ⟨φ, ω, _, henv⟩ := h
  rw [henv]; simp [rename]

theorem same_isSome {σ σ' : Machine} (h : SameUpToAddresses σ σ') (v : Nat) : (look σ'.env v).isSome = (look σ.env v).isSome := by
  obtain ⟨φ, ω, _, henv⟩ := h
  rw [henv, look_rename]; simp

theorem release_matches {σ σ' σ1 : Machine} (hg : Good σ) (hg' : Good σ') (h : SameUpToAddresses σ σ') {w : Nat}
    (h1 : release σ w = some σ1) :
    (∀ σ1', release σ' w = some σ1' → SameUpToAddresses σ1 σ1') ∧
    (∀ k, Fresh σ'.topo (k + 58) → ∃ σ1', release σ' w = some σ1' ∧ Fresh σ1'.topo k) := by
  unfold release at h1 ⊢
  rw [same_isSome h]
  split
  · rename_i hw
    rw [if_pos hw] at h1
    exact exec_matches hg hg' h h1
  · rename_i hw
    rw [if_neg hw] at h1
    simp only [Option.some.injEq] at h1
    subst h1
    refine ⟨fun σ1' e => ?_, fun k hf => ⟨σ', rfl, hf.mono (by omega)⟩⟩
    simp only [Option.some.injEq] at e
    exact e ▸ h

theorem emplace_order {s s1 : State} {b : Bool} {c : Cmd} (e : emplace s b c = some s1) : s1.order = s.order := by
  unfold emplace at e
  split at e
  · split at e <;> simp at e
    subst e; rfl
  · split at e
    · simp at e
    · split at e
      · simp at e
      · split at e <;> simp at e
        subst e; rfl

theorem emplace_good {s s1 : State} (hg : Good s.base) {b : Bool} {c : Cmd} (e : emplace s b c = some s1) : Good s1.base := by
  unfold emplace at e
  split at e
  · split at e
    · simp at e
    · rename_i σ he
      simp only [Option.some.injEq] at e
      subst e
      exact exec_good hg he
  · split at e
    · simp at e
    · split at e
      · simp at e
      · rename_i σ1 hrel
        split at e
        · simp at e
        · rename_i σ he
          simp only [Option.some.injEq] at e
          subst e
          exact exec_good (release_good hg hrel) he

theorem emplace_matches {s s' s1 : State} (hg : Good s.base) (hg' : Good s'.base) (h : MSame s s') {b : Bool} {c : Cmd}
    (h1 : emplace s b c = some s1) :
    (∀ s1', emplace s' b c = some s1' → MSame s1 s1') ∧
    (∀ k, Fresh s'.base.topo (k + 116) → ∃ s1', emplace s' b c = some s1' ∧ Fresh s1'.base.topo k) := by
  have hlen := same_length h.base
  unfold emplace at h1 ⊢
  rw [h.free, h.slots, h.refs, h.count, hlen]
  split
  · rename_i hfree
    rw [hfree] at h1
    simp only at h1
    split at h1
    · simp at h1
    · rename_i σ he
      simp only [Option.some.injEq] at h1
      subst h1
      obtain ⟨m1, m2⟩ := exec_matches hg hg' h.base he
      constructor
      · intro s1' e'
        split at e'
        · simp at e'
        · rename_i σ' he'
          simp only [Option.some.injEq] at e'
          subst e'
          exact ⟨m1 σ' he', h.order, rfl, hfree, rfl, rfl⟩
      · intro k hf
        obtain ⟨σ', he', fr⟩ := m2 k (hf.mono (by omega))
        rw [he']
        exact ⟨_, rfl, fr⟩
  · rename_i i f hfree
    rw [hfree] at h1
    simp only at h1
    cases hw : s.slots[i]? with
    | none => rw [hw] at h1; simp at h1
    | some p =>
      rw [hw] at h1
      simp only at h1 ⊢
      split at h1
      · simp at h1
      · rename_i σ1 hrel
        split at h1
        · simp at h1
        · rename_i σ he
          simp only [Option.some.injEq] at h1
          subst h1
          obtain ⟨r1, r2⟩ := release_matches hg hg' h.base hrel
          constructor
          · intro s1' e'
            split at e'
            · simp at e'
            · rename_i σ1' hrel'
              split at e'
              · simp at e'
              · rename_i σ' he'
                simp only [Option.some.injEq] at e'
                subst e'
                have m1 := (exec_matches (release_good hg hrel) (release_good hg' hrel') (r1 σ1' hrel') he).1
                exact ⟨m1 σ' he', h.order, rfl, rfl, rfl, rfl⟩
          · intro k hf
            obtain ⟨σ1', hrel', fr1⟩ := r2 (k + 58) (hf.mono (by omega))
            obtain ⟨σ', he', fr⟩ := (exec_matches (release_good hg hrel) (release_good hg' hrel') (r1 σ1' hrel') he).2 k fr1
            rw [hrel']
            simp only
            rw [he']
            exact ⟨_, rfl, fr⟩

theorem count_matches {s s' s1 : State} (hg : Good s.base) (h : MSame s s') {v : Nat} (h1 : count s v = some s1) :
    (∀ s1', count s' v = some s1' → MSame s1 s1') ∧ s1.base = s.base ∧ (∃ s1', count s' v = some s1') ∧
      ∀ s1', count s' v = some s1' → s1'.base = s'.base := by
  unfold count at h1 ⊢
  split at h1
  · simp at h1
  · rename_i F hF
    simp only [Option.some.injEq] at h1
    subst h1
    obtain ⟨F', hF'⟩ := facetsOf_isSome hg h.base hF
    rw [h.order, hF']
    simp only [Option.some.injEq]
    refine ⟨?_, trivial, ⟨_, rfl⟩, ?_⟩
    · rintro s1' rfl
      exact ⟨h.base, rfl, h.slots, h.free, h.refs, h.count⟩
    · rintro s1' rfl; rfl

theorem insertNodes_matches {s s' s1 : State} (hg : Good s.base) (hg' : Good s'.base) (h : MSame s s') {c : Cmd}
    (h1 : insertNodes s c = some s1) :
    (∀ s1', insertNodes s' c = some s1' → MSame s1 s1') ∧
    (∀ k, Fresh s'.base.topo (k + 116) → ∃ s1', insertNodes s' c = some s1' ∧ Fresh s1'.base.topo k) := by
  unfold insertNodes at h1 ⊢
  rw [same_length h.base]
  split at h1
  · simp at h1
  · rename_i s2 e2
    obtain ⟨m1, m2⟩ := emplace_matches hg hg' h e2
    constructor
    · intro s1' e'
      split at e'
      · simp at e'
      · rename_i s2' e2'
        exact (count_matches (emplace_good hg e2) (m1 s2' e2') h1).1 s1' e'
    · intro k hf
      obtain ⟨s2', e2', fr⟩ := m2 k hf
      obtain ⟨_, _, ⟨s1', e1'⟩, hb⟩ := count_matches (emplace_good hg e2) (m1 s2' e2') h1
      rw [e2']
      exact ⟨s1', e1', by rw [hb s1' e1']; exact fr⟩

theorem insertCell_matches {s s' s1 : State} (hg : Good s.base) (hg' : Good s'.base) (h : MSame s s') {v : Nat} {b : Bool}
    (h1 : insertCell s v b = some s1) :
    (∀ s1', insertCell s' v b = some s1' → MSame s1 s1') ∧
    (∀ k, Fresh s'.base.topo (k + 116) → ∃ s1', insertCell s' v b = some s1' ∧ Fresh s1'.base.topo k) := by
  unfold insertCell at h1 ⊢
  split at h1
  · simp at h1
  · rename_i s2 e2
    obtain ⟨c1, c2, ⟨s2', e2'⟩, c4⟩ := count_matches hg h e2
    rw [e2']
    have := emplace_matches (s := s2) (s' := s2') (by rw [c2]; exact hg) (by rw [c4 s2' e2']; exact hg') (c1 s2' e2') h1
    rw [c4 s2' e2'] at this
    exact this

theorem eraseSlot_matches {s s' s1 s1' : State} (h : MSame s s') {i : Nat} (e : eraseSlot s i = some s1) (e' : eraseSlot s' i = some s1') :
    MSame s1 s1' := by
  unfold eraseSlot at e e'
  rw [h.slots, h.order, h.free, h.count] at e'
  split at e
  · simp at e
  · rename_i w hw
    rw [hw] at e'
    simp only [Option.some.injEq] at e e'
    subst e; subst e'
    exact h
  · rename_i w hw
    rw [hw] at e'
    simp only at e'
    split at e
    · simp at e
    · split at e'
      · simp at e'
      · simp only [Option.some.injEq] at e e'
        subst e; subst e'
        exact ⟨h.base, rfl, rfl, rfl, h.refs, rfl⟩

/-- the new name of what is compared -/
def keyName (φ ω : Nat → Id → Id) (b : Bool) (n : Nat) (k : Id) : Id := if b then φ n k else ω n k

/-- what is compared is alive -/
def keyAlive (s : State) (b : Bool) (k : Id) : Prop :=
  k ∈ (if b then (s.base.topo.lvl (s.order + 1)).fps else (s.base.topo.lvl (s.order + 1)).ors)

theorem keyOf_rename {s s' : State} (h : MInv s) (hiso : Iso φ ω s.base.topo s'.base.topo) (henv : s'.base.env = rename φ ω s.base.env)
    {w : Nat} (hw : (w, true) ∈ s.slots) (b : Bool) :
    ∃ k, keyOf s.base b w = some k ∧ keyOf s'.base b w = some (keyName φ ω b (s.order + 1) k) ∧ keyAlive s b k := by
  obtain ⟨F, hF⟩ := h.live w hw
  obtain ⟨o, ho, _⟩ := facetsOf_some hF
  have hol := h.good.liveO (lookO_iff.mp ho)
  have hfl := h.good.ok.inv.fp_live _ o hol
  have ho' : lookO s'.base.env w = some (s.order + 1, ω (s.order + 1) o) := by
    rw [henv, lookO_rename, ho]; rfl
  unfold keyOf
  rw [ho, ho']
  cases b with
  | false => exact ⟨o, by simp, by simp [keyName], by simpa [keyAlive] using hol⟩
  | true =>
    refine ⟨s.base.topo.fp (s.order + 1) o, by simp, ?_, by simpa [keyAlive] using hfl⟩
    simp [keyName, hiso.fp _ o hol]

theorem keyName_mem {s s' : State} (hiso : Iso φ ω s.base.topo s'.base.topo) {b : Bool} {k : Id} (hk : keyAlive s b k) {seen : List Id}
    (hs : ∀ x ∈ seen, keyAlive s b x) : keyName φ ω b (s.order + 1) k ∈ seen.map (keyName φ ω b (s.order + 1)) ↔ k ∈ seen := by
  constructor
  · intro hm
    obtain ⟨x, hx, e⟩ := List.mem_map.mp hm
    have hx' := hs x hx
    have : x = k := by
      cases b with
      | false =>
        simp only [keyName, keyAlive, Bool.false_eq_true, if_false] at e hx' hk
        exact hiso.injO _ hx' hk e
      | true =>
        simp only [keyName, keyAlive, if_true] at e hx' hk
        exact hiso.injF _ hx' hk e
    exact this ▸ hx
  · exact fun hm => List.mem_map.mpr ⟨k, hm, rfl⟩

theorem eraseDuplicatesIn_matches {b : Bool} {is : List Nat} {s s' s1 s1' : State} {seen : List Id} (h : MInv s) (h' : MInv s') (hs : MSame s s')
    (hiso : Iso φ ω s.base.topo s'.base.topo) (henv : s'.base.env = rename φ ω s.base.env) (hseen : ∀ x ∈ seen, keyAlive s b x)
    (e : eraseDuplicatesIn b s is seen = some s1)
    (e' : eraseDuplicatesIn b s' is (seen.map (keyName φ ω b (s.order + 1))) = some s1') : MSame s1 s1' := by
  induction is generalizing s s' seen with
  | nil =>
    simp only [eraseDuplicatesIn, Option.some.injEq] at e e'
    subst e; subst e'
    exact hs
  | cons i is ih =>
    simp only [eraseDuplicatesIn] at e e'
    rw [hs.slots] at e'
    cases hw : s.slots[i]? with
    | none =>
      rw [hw] at e e'
      exact ih h h' hs hiso henv hseen e e'
    | some p =>
      obtain ⟨w, v⟩ := p
      cases v with
      | false =>
        rw [hw] at e e'
        exact ih h h' hs hiso henv hseen e e'
      | true =>
        rw [hw] at e e'
        simp only at e e'
        obtain ⟨k, hk, hk', hka⟩ := keyOf_rename h hiso henv (List.mem_of_getElem? hw) b
        rw [hk] at e
        rw [hk'] at e'
        simp only at e e'
        by_cases hm : k ∈ seen
        · rw [if_pos hm] at e
          rw [if_pos ((keyName_mem hiso hka hseen).mpr hm)] at e'
          split at e
          · simp at e
          · rename_i s2 e2
            split at e'
            · simp at e'
            · rename_i s2' e2'
              obtain ⟨h2, hb, ho, _⟩ := h.eraseSlot e2
              obtain ⟨h2', hb', ho', _⟩ := h'.eraseSlot e2'
              refine ih h2 h2' (eraseSlot_matches hs e2 e2') ?_ ?_ ?_ e ?_
              · rw [hb, hb']; exact hiso
              · rw [hb, hb']; exact henv
              · intro x hx
                have := hseen x hx
                unfold keyAlive at this ⊢
                rw [hb, ho]; exact this
              · rw [ho]; exact e'
        · rw [if_neg hm] at e
          rw [if_neg (fun hc => hm ((keyName_mem hiso hka hseen).mp hc))] at e'
          refine ih h h' hs hiso henv ?_ e (by simpa using e')
          intro x hx
          rcases List.mem_cons.mp hx with rfl | hx
          · exact hka
          · exact hseen x hx

theorem flag_same {s s' : State} (h : MSame s s') (k : Nat) : flag s' k = flag s k := by
  unfold flag; rw [h.refs, h.slots]

theorem careful_same {s s' : State} (h : MSame s s') {c : Call} (hc : c.careful s) : c.careful s' := by
  cases c <;> simp only [Call.careful, flag_same h] at hc ⊢ <;> exact hc

theorem base_matches {s s' s1 : State} (hg : Good s.base) (hg' : Good s'.base) (h : MSame s s') {c : Cmd}
    (h1 : ((exec s.base c).map fun σ => { s with base := σ }) = some s1) :
    (∀ s1', ((exec s'.base c).map fun σ => { s' with base := σ }) = some s1' → MSame s1 s1') ∧
    (∀ k, Fresh s'.base.topo (k + 116) → ∃ s1', ((exec s'.base c).map fun σ => { s' with base := σ }) = some s1' ∧ Fresh s1'.base.topo k) := by
  obtain ⟨σ, e, e2⟩ := Option.map_eq_some_iff.mp h1
  subst e2
  obtain ⟨m1, m2⟩ := exec_matches hg hg' h.base e
  constructor
  · intro s1' e'
    obtain ⟨σ', e3, e2'⟩ := Option.map_eq_some_iff.mp e'
    subst e2'
    exact ⟨m1 σ' e3, h.order, h.slots, h.free, h.refs, h.count⟩
  · intro k hf
    obtain ⟨σ', e', fr⟩ := m2 k (hf.mono (by omega))
    exact ⟨_, by rw [e']; rfl, fr⟩

/-- A careful call does the same for all addresses. -/
theorem mexec_matches {s s' s1 : State} (h : MInv s) (h' : MInv s') (hs : MSame s s') {c : Call} (h1 : mexec s c = some s1) :
    (∀ s1', mexec s' c = some s1' → MSame s1 s1') ∧
    (∀ k, Fresh s'.base.topo (k + 116) → ∃ s1', mexec s' c = some s1' ∧ Fresh s1'.base.topo k) := by
  cases c with
  | topology c =>
    simp only [mexec] at h1 ⊢
    split at h1
    · rename_i hr
      rw [if_pos (by rw [hs.slots]; exact hr)]
      exact base_matches h.good h'.good hs h1
    · simp at h1
  | insert c =>
    simp only [mexec] at h1 ⊢
    split at h1
    · rename_i hb
      simp only [hb, if_true]
      exact insertNodes_matches h.good h'.good hs h1
    · simp at h1
  | insertCell v => exact insertCell_matches h.good h'.good hs h1
  | insertAgain k =>
    simp only [mexec] at h1 ⊢
    cases hi : s.refs[k]? with
    | none => simp [hi] at h1
    | some i =>
      have hi' : s'.refs[k]? = some i := by rw [hs.refs]; exact hi
      cases hw : s.slots[i]? with
      | none => simp [hi, hw] at h1
      | some p =>
        have hw' : s'.slots[i]? = some p := by rw [hs.slots]; exact hw
        simp only [hi, hw] at h1
        simp only [hi', hw']
        exact insertCell_matches h.good h'.good hs h1
  | erase k =>
    simp only [mexec] at h1 ⊢
    cases hi : s.refs[k]? with
    | none => simp [hi] at h1
    | some i =>
      have hi' : s'.refs[k]? = some i := by rw [hs.refs]; exact hi
      simp only [hi] at h1
      simp only [hi']
      refine ⟨fun s1' e' => eraseSlot_matches hs h1 e', fun k hf => ?_⟩
      obtain ⟨s1', e'⟩ := h'.eraseSlot_succeeds (h'.refs i (List.mem_of_getElem? hi'))
      exact ⟨s1', e', by rw [(h'.eraseSlot e').2.1]; exact hf.mono (by omega)⟩
  | eraseSimplex k =>
    simp only [mexec] at h1 ⊢
    cases hi : s.refs[k]? with
    | none => simp [hi] at h1
    | some i =>
      have hi' : s'.refs[k]? = some i := by rw [hs.refs]; exact hi
      cases hw : s.slots[i]? with
      | none => simp [hi, hw] at h1
      | some p =>
        have hw' : s'.slots[i]? = some p := by rw [hs.slots]; exact hw
        simp only [hi, hw] at h1
        simp only [hi', hw']
        exact base_matches h.good h'.good hs h1
  | eraseDuplicates b =>
    simp only [mexec] at h1 ⊢
    rw [hs.slots]
    obtain ⟨φ, ω, hiso, henv⟩ := hs.base
    refine ⟨fun s1' e' => eraseDuplicatesIn_matches h h' hs hiso henv (by simp) h1 (by simpa using e'), fun k hf => ?_⟩
    obtain ⟨s1', e'⟩ := h'.eraseDuplicatesIn_succeeds (b := b) (is := List.range s.slots.length) (seen := [])
    exact ⟨s1', e', by rw [(h'.eraseDuplicatesIn e').2.1]; exact hf.mono (by omega)⟩

/-! ### answers -/

theorem recount_rename (g : Nat → Nat) (F : List (Nat × Int)) (k : Nat) (hg : ∀ f ∈ F, g f.1 = g k → f.1 = k) :
    recount (F.map fun f => (g f.1, f.2)) (g k) = recount F k := by
  have e1 : (F.map fun f => (g f.1, f.2)).countP (fun f => f.1 = g k) = F.countP (fun f => f.1 = k) := by
    rw [List.countP_map]
    refine List.countP_congr fun f hf => ?_
    simp only [Function.comp, decide_eq_true_eq]
    exact ⟨hg f hf, fun e => by rw [e]⟩
  have e2 : ∀ P : Int → Prop, [DecidablePred P] → (F.map fun f => (g f.1, f.2)).countP (fun f => f.1 = g k ∧ P f.2) = F.countP (fun f => f.1 = k ∧ P f.2) := by
    intro P _
    rw [List.countP_map]
    refine List.countP_congr fun f hf => ?_
    simp only [Function.comp, decide_eq_true_eq]
    exact ⟨fun e => ⟨hg f hf e.1, e.2⟩, fun e => ⟨by rw [e.1], e.2⟩⟩
  unfold recount
  rw [e1, e2 (fun x => x = 1), e2 (fun x => x ≠ 1)]

theorem facetList_rename {s s' : State} (h : MInv s) (hs : MSame s s') (hiso : Iso φ ω s.base.topo s'.base.topo)
    (henv : s'.base.env = rename φ ω s.base.env) : facetList s' = (facetList s).map fun f => (φ s.order f.1, f.2) := by
  unfold facetList
  have hc : cells s' = cells s := by unfold cells; rw [hs.slots]
  rw [hc, List.map_flatMap, hs.order]
  refine List.flatMap_congr fun v hv => ?_
  obtain ⟨F, hF⟩ := h.live v (mem_cells.mp hv)
  rw [facetsOf_rename h.good hiso henv, hF]
  rfl

theorem facetList_alive {s : State} (h : MInv s) : ∀ f ∈ facetList s, f.1 ∈ (s.base.topo.lvl s.order).fps := by
  intro f hf
  obtain ⟨v, hv, hf⟩ := List.mem_flatMap.mp hf
  obtain ⟨F, hF⟩ := h.live v (mem_cells.mp hv)
  rw [hF] at hf
  exact facets_alive h.good hF f hf

theorem allFacets_eq {s : State} (h : MInv s) {l : List Nat} (hl : ∀ v ∈ l, v ∈ cells s) :
    allFacets s l = some (l.flatMap fun v => (facetsOf s.base s.order v).getD []) := by
  induction l with
  | nil => rfl
  | cons v l ih =>
    obtain ⟨F, hF⟩ := h.live v (mem_cells.mp (hl v (by simp)))
    simp only [allFacets, hF, ih fun w hw => hl w (by simp [hw]), List.flatMap_cons, Option.getD_some]

theorem orient_rename {s s' : State} (h : MInv s) (h' : MInv s') (hs : MSame s s') (hiso : Iso φ ω s.base.topo s'.base.topo)
    (henv : s'.base.env = rename φ ω s.base.env) {f : Id} (hf : f ∈ (s.base.topo.lvl s.order).fps) :
    s'.orient (φ s.order f) = s.orient f := by
  rw [h'.orient, h.orient, facetList_rename h hs hiso henv]
  exact recount_rename (φ s.order) _ f fun g hg e => hiso.injF _ (facetList_alive h g hg) hf e

theorem countBoundary_rename {s s' : State} (g : Nat → Nat) {L : List (Nat × Int)} (hL : ∀ f ∈ L, s'.orient (g f.1) = s.orient f.1) :
    countBoundary s' (L.map fun f => (g f.1, f.2)) = countBoundary s L := by
  induction L with
  | nil => rfl
  | cons f L ih =>
    simp only [List.map_cons, countBoundary]
    rw [ih fun x hx => hL x (by simp [hx])]
    have : isOnBoundary s' (g f.1, f.2) = isOnBoundary s f := by
      unfold isOnBoundary
      simp only
      rw [hL f (by simp)]
    rw [this]

theorem mask_same {s s' : State} (h : MInv s) (h' : MInv s') (hs : MSame s s') (q : MQuery) : mask s' q = mask s q := by
  obtain ⟨φ, ω, hiso, henv⟩ := hs.base
  have hc : cells s' = cells s := by unfold cells; rw [hs.slots]
  cases q with
  | topology q => exact ask_same h.good h'.good.ok hs.base q
  | nCells => simp [mask, hs.count]
  | boundarySize =>
    simp only [mask]
    rw [allFacets_eq h fun _ hv => hv, allFacets_eq h' fun _ hv => hv]
    have := facetList_rename h hs hiso henv
    unfold facetList at this
    simp only
    rw [this]
    exact countBoundary_rename _ fun f hf => orient_rename h h' hs hiso henv (facetList_alive h f hf)
  | isOnBoundary v =>
    simp only [mask]
    rw [henv, lookO_rename]
    cases e : lookO s.base.env v with
    | none => rfl
    | some p =>
      obtain ⟨N, o⟩ := p
      simp only [Option.map_some]
      rw [hs.order]
      by_cases hN : N = s.order
      · subst hN
        have ho := h.good.liveO (lookO_iff.mp e)
        simp only [if_true]
        rw [hiso.fp _ o ho, hiso.sg _ o ho]
        unfold isOnBoundary
        simp only
        rw [orient_rename h h' hs hiso henv (h.good.ok.inv.fp_live _ o ho)]
      · simp [hN]
  | isValid k => simp only [mask]; rw [hs.refs, hs.slots]
  | visited => simp only [mask]; rw [hc]
  | cellIs j v =>
    simp only [mask]
    rw [hc]
    cases (cells s)[j]? with
    | none => rfl
    | some w => exact ask_same h.good h'.good.ok hs.base _
  | isNull k =>
    simp only [mask]
    rw [hs.refs, hs.slots]
    cases s.refs[k]? with
    | none => rfl
    | some i =>
      simp only
      cases s.slots[i]? with
      | none => rfl
      | some p => exact ask_same h.good h'.good.ok hs.base _

theorem mstart_same (a b : List Id) (n : Nat) : MSame (mstart a n) (mstart b n) :=
  ⟨start_same a b, rfl, rfl, rfl, rfl, rfl⟩

theorem MProg.run_same {p : MProg} {s s' s1 s1' : State} {m m' : Int} (h : MInv s) (h' : MInv s') (hs : MSame s s') (hc : p.careful s)
    (e : p.run s = some (s1, m)) (e' : p.run s' = some (s1', m')) : MSame s1 s1' ∧ m' = m := by
  induction p generalizing s s' with
  | done n =>
    simp [MProg.run] at e e'
    rw [← e.1, ← e'.1, ← e.2, ← e'.2]
    exact ⟨hs, rfl⟩
  | call c p ih =>
    simp only [MProg.run] at e e'
    split at e
    · simp at e
    · rename_i s2 e2
      split at e'
      · simp at e'
      · rename_i s2' e2'
        exact ih (h.mexec hc.1 e2) (h'.mexec (careful_same hs hc.1) e2') ((mexec_matches h h' hs e2).1 s2' e2') (hc.2 s2 e2) e e'
  | ask q k ih =>
    simp only [MProg.run] at e e'
    rw [mask_same h h' hs] at e'
    exact ih _ h h' hs hc e e'

theorem MProg.run_succeeds {p : MProg} {s s' s1 : State} {m : Int} (h : MInv s) (h' : MInv s') (hs : MSame s s') (hc : p.careful s)
    (e : p.run s = some (s1, m)) (k : Nat) (hf : Fresh s'.base.topo (k + 116 * p.calls s)) :
    ∃ s1', p.run s' = some (s1', m) ∧ Fresh s1'.base.topo k := by
  induction p generalizing s s' with
  | done n =>
    simp [MProg.run] at e
    exact ⟨s', by simp [MProg.run, e.2], hf.mono (by omega)⟩
  | call c p ih =>
    simp only [MProg.run] at e ⊢
    simp only [MProg.calls] at hf
    split at e
    · simp at e
    · rename_i s2 e2
      rw [e2] at hf
      simp only at hf
      obtain ⟨m1, m2⟩ := mexec_matches h h' hs e2
      obtain ⟨s2', e2', fr⟩ := m2 (k + 116 * p.calls s2) (hf.mono (by omega))
      rw [e2']
      exact ih (h.mexec hc.1 e2) (h'.mexec (careful_same hs hc.1) e2') (m1 s2' e2') (hc.2 s2 e2) e fr
  | ask q c ih =>
    simp only [MProg.run, MProg.calls] at e hf ⊢
    rw [mask_same h h' hs]
    exact ih _ h h' hs hc e hf

end Mito.MeshPrograms
