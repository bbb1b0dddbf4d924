import Verif.Topology.HistoryLemmas

/-! # Lemmas on the handles of the user -/

namespace Mito.Topology

/-- what an operation other than `erase` does to the simplices and to the handles -/
theorem step_le {t t' : Topo} (hok : Ok t) (op : Op) (hop : ∀ N o, op ≠ .erase N o)
    (h : step t op = some t') :
    ∃ u : Topo, Le t u ∧ t'.lvl = u.lvl ∧
      (∀ N o, t'.ext N o + givesUp t N o op = t.ext N o + (if returned t op = some (N, o) then 1 else 0) +
        (if op = .hold N o then 1 else 0)) ∧
      (∀ N f, t'.extF N f + (if givesUpF N f op then 1 else 0) = t.extF N f +
        (if op = .holdF N f then 1 else 0) +
        (if op = .vertex ∧ N = 0 ∧ t.vertex.map Prod.snd = some f then 1 else 0)) := by
  have hkeep : ∀ M (r : Option (Topo × Id)), keep M r = some t' →
      (∀ u x, r = some (u, x) → Le t u) → ∃ u : Topo, Le t u ∧ t'.lvl = u.lvl ∧
      (∀ N o, t'.ext N o = t.ext N o + (if (r.map fun r => (M, r.2)) = some (N, o) then 1 else 0)) ∧
      ∀ N f, t'.extF N f = t.extF N f := by
    intro M r hk hr
    cases r with
    | none => simp [keep] at hk
    | some p =>
      obtain ⟨u, x⟩ := p
      simp only [keep, Option.some.injEq] at hk
      subst hk
      have hle := hr u x rfl
      refine ⟨u, hle, rfl, ?_, ?_⟩
      · intro N o
        rw [← hle.ext]
        by_cases e : M = N
        · subst e
          by_cases e' : x = o
          · subst e'; simp [Topo.hold, Topo.setExt]
          · simp [Topo.hold, Topo.setExt, e', Ne.symm e']
        · simp [Topo.hold, Topo.setExt, e, Ne.symm e]
      · intro N f
        rw [← hle.extF]
        rfl
  have hkeep' : ∀ M (r : Option (Topo × Id)), keep M r = some t' →
      (∀ u x, r = some (u, x) → Le t u) → returned t op = (r.map fun r => (M, r.2)) →
      (∀ N o, givesUp t N o op = 0) → (∀ N o, op ≠ .hold N o) → (∀ N f, givesUpF N f op = false) →
      (∀ N f, op ≠ .holdF N f) → op ≠ .vertex → ∃ u : Topo, Le t u ∧ t'.lvl = u.lvl ∧
      (∀ N o, t'.ext N o + givesUp t N o op = t.ext N o + (if returned t op = some (N, o) then 1 else 0) +
        (if op = .hold N o then 1 else 0)) ∧
      (∀ N f, t'.extF N f + (if givesUpF N f op then 1 else 0) = t.extF N f +
        (if op = .holdF N f then 1 else 0) +
        (if op = .vertex ∧ N = 0 ∧ t.vertex.map Prod.snd = some f then 1 else 0)) := by
    intro M r hk hr h1 h2 h3 h4 h5 h6
    obtain ⟨u, a, b, c, d⟩ := hkeep M r hk hr
    refine ⟨u, a, b, fun N o => ?_, fun N f => ?_⟩
    · rw [c, h1, h2, if_neg (h3 N o)]
    · simp [d, h4, h5 N f, h6]
  cases op with
  | vertex =>
    simp only [step] at h
    split at h
    · simp at h
    · rename_i u v hv
      simp only [Option.some.injEq] at h
      subst h
      have hle := (vertex_ok hok hv).2.1
      refine ⟨u, hle, rfl, fun N o => ?_, fun N f => ?_⟩
      · rw [← hle.ext]
        simp [givesUp, returned, Topo.setExtF]
      · rw [← hle.extF, hv]
        by_cases e : N = 0
        · subst e
          by_cases e' : v = f
          · subst e'; simp [Topo.setExtF, givesUpF]
          · simp [Topo.setExtF, givesUpF, e', Ne.symm e']
        · simp [Topo.setExtF, givesUpF, e]
  | oriented M f s =>
    simp only [step] at h
    split at h
    · rename_i hc
      exact hkeep' _ _ h (fun u x hr => (orientedF_ok hok hc.1 hc.2 hr).2.1) rfl (fun _ _ => rfl)
        (by simp) (fun _ _ => rfl) (by simp) (by simp)
    · simp at h
  | simplex M c =>
    simp only [step] at h
    split at h
    · rename_i hc
      exact hkeep' _ _ h (fun u x hr => (simplex_spec hok.inv hc.1 hc.2.1 hc.2.2 hr).2.1) rfl
        (fun _ _ => rfl) (by simp) (fun _ _ => rfl) (by simp) (by simp)
    · simp at h
  | segment a b =>
    simp only [step] at h
    split at h
    · rename_i hc
      exact hkeep' _ _ h (fun u x hr => (segment_ok hok hc.1 hc.2 hr).2.1) rfl
        (fun _ _ => rfl) (by simp) (fun _ _ => rfl) (by simp) (by simp)
    · simp at h
  | triangle a b c =>
    simp only [step] at h
    split at h
    · rename_i hc
      exact hkeep' _ _ h (fun u x hr => (triangle_ok hok hc.1 hc.2.1 hc.2.2 hr).2.1) rfl
        (fun _ _ => rfl) (by simp) (fun _ _ => rfl) (by simp) (by simp)
    · simp at h
  | tetrahedron a b c d =>
    simp only [step] at h
    split at h
    · rename_i hc
      exact hkeep' _ _ h (fun u x hr => (tetrahedron_ok hok hc.1 hc.2.1 hc.2.2.1 hc.2.2.2 hr).2.1) rfl
        (fun _ _ => rfl) (by simp) (fun _ _ => rfl) (by simp) (by simp)
    · simp at h
  | flip M x =>
    simp only [step] at h
    split at h
    · rename_i hc
      refine hkeep' _ _ h (fun u y hr => ?_) rfl
        (fun _ _ => rfl) (by simp) (fun _ _ => rfl) (by simp) (by simp)
      refine (orientedF_ok hok (hok.inv.fp_live M x hc) ?_ hr).2.1
      rcases hok.inv.sg M x hc with e | e <;> rw [e] <;> simp
    · simp at h
  | hold M x =>
    simp only [step] at h
    split at h
    · simp only [Option.some.injEq] at h
      subst h
      refine ⟨t, Le.refl _, rfl, fun N o => ?_, fun N f => ?_⟩
      · by_cases e : M = N
        · subst e
          by_cases e' : x = o
          · subst e'; simp [Topo.hold, Topo.setExt, givesUp, returned]
          · simp [Topo.hold, Topo.setExt, e', Ne.symm e', givesUp, returned]
        · simp [Topo.hold, Topo.setExt, e, Ne.symm e, givesUp, returned]
      · simp [Topo.hold, Topo.setExt, givesUpF]
    · simp at h
  | drop M x =>
    simp only [step] at h
    split at h
    · rename_i hpos
      simp only [Option.some.injEq] at h
      subst h
      refine ⟨t, Le.refl _, rfl, fun N o => ?_, fun N f => ?_⟩
      · by_cases e : M = N
        · subst e
          by_cases e' : x = o
          · subst e'; simp [Topo.drop, Topo.setExt, givesUp, returned]; omega
          · simp [Topo.drop, Topo.setExt, e', Ne.symm e', givesUp, returned]
        · simp [Topo.drop, Topo.setExt, e, Ne.symm e, givesUp, returned]
      · simp [Topo.drop, Topo.setExt, givesUpF]
    · simp at h
  | holdF M x =>
    simp only [step] at h
    split at h
    · simp only [Option.some.injEq] at h
      subst h
      refine ⟨t, Le.refl _, rfl, fun N o => ?_, fun N f => ?_⟩
      · simp [Topo.setExtF, givesUp, returned]
      · by_cases e : M = N
        · subst e
          by_cases e' : x = f
          · subst e'; simp [Topo.setExtF, givesUpF]
          · simp [Topo.setExtF, e', Ne.symm e', givesUpF]
        · simp [Topo.setExtF, e, Ne.symm e, givesUpF]
    · simp at h
  | dropF M x =>
    simp only [step] at h
    split at h
    · rename_i hpos
      simp only [Option.some.injEq] at h
      subst h
      refine ⟨t, Le.refl _, rfl, fun N o => ?_, fun N f => ?_⟩
      · simp [Topo.setExtF, givesUp, returned]
      · by_cases e : M = N
        · subst e
          by_cases e' : x = f
          · subst e'; simp [Topo.setExtF, givesUpF]; omega
          · simp [Topo.setExtF, e', Ne.symm e', givesUpF]
        · simp [Topo.setExtF, e, Ne.symm e, givesUpF]
    · simp at h
  | erase M x => exact absurd rfl (hop M x)

theorem givesUp_le (t : Topo) (N : Nat) (o : Id) (op : Op) :
    givesUp t N o op ≤ if mayGiveUp N o op then 1 else 0 := by
  cases op with
  | drop M x => by_cases h : M = N ∧ x = o <;> simp [givesUp, mayGiveUp, h]
  | erase M x =>
    by_cases h : M = N ∧ x = o
    · simp only [givesUp, mayGiveUp, h, true_and, decide_true, if_true]
      split <;> omega
    · simp only [givesUp, mayGiveUp, h, decide_false, Bool.false_eq_true, if_false]
      rw [if_neg (fun h' => h ⟨h'.1, h'.2.1⟩)]
  | _ => simp [givesUp]

end Mito.Topology
