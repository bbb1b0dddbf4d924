import Verif.Props.Topology
import Verif.Topology.HandlesLemmas

/-! # C20: the handles of the user over histories -/

namespace Mito.Topology

/-- **C20.**  The ledger of handles: an operation takes a handle on the simplex it returns or copies,
gives up those it drops or resets, and changes no other. -/
theorem step_handles (t t' : Topo) (ht : Reachable t) (op : Op) (h : step t op = some t') :
    (∀ N o, t'.ext N o + givesUp t N o op = t.ext N o +
      (if returned t op = some (N, o) then 1 else 0) + (if op = .hold N o then 1 else 0)) ∧
    (∀ N f, t'.extF N f + (if givesUpF N f op then 1 else 0) = t.extF N f +
      (if op = .holdF N f then 1 else 0) +
      (if op = .vertex ∧ N = 0 ∧ t.vertex.map Prod.snd = some f then 1 else 0)) := by
  by_cases hop : ∀ N o, op ≠ .erase N o
  · obtain ⟨_, _, _, h1, h2⟩ := step_le ht.ok op hop h
    exact ⟨h1, h2⟩
  · push Not at hop
    obtain ⟨M, x, rfl⟩ := hop
    simp only [step] at h
    split at h
    · rename_i hpos
      simp only [Option.some.injEq] at h
      subst h
      have hs := erase_spec M t x ht.ok.inv hpos
      refine ⟨fun N o => ?_, fun N f => ?_⟩
      · by_cases e : M = N
        · subst e
          rw [hs.ext]
          by_cases e' : x = o
          · subst e'
            by_cases e'' : (Topo.erase M t x).2 = true
            · simp [givesUp, returned, e'']; omega
            · simp [givesUp, returned, e'']
          · simp [givesUp, returned, e', Ne.symm e']
        · rw [hs.shr.ext_ne N (Ne.symm e)]
          simp [givesUp, returned, e]
      · rw [hs.shr.extF]
        simp [givesUpF]
    · simp at h

/-- **C20.**  A simplex on which the user holds more handles than are dropped or passed to `erase` in the
rest of the history is alive at its end, with the same footprint, orientation and composition. -/
theorem held_simplex_survives (t t' : Topo) (ht : Reachable t) (ops : List Op) (h : run t ops = some t')
    (N : Nat) (o : Id) (ho : ops.countP (mayGiveUp N o) < t.ext N o) :
    o ∈ (t'.lvl N).ors ∧ t'.fp N o = t.fp N o ∧ t'.sg N o = t.sg N o ∧
      t'.compF N (t.fp N o) = t.compF N (t.fp N o) := by
  have hok := ht.ok
  clear ht
  induction ops generalizing t with
  | nil =>
    simp only [run, Option.some.injEq] at h
    subst h
    exact ⟨hok.inv.ext_live N o (by simpa using ho), rfl, rfl, rfl⟩
  | cons op ops ih =>
    simp only [run] at h
    split at h
    · simp at h
    rename_i t1 h1
    have hok1 := step_ok hok h1
    have hlive := hok.inv.ext_live N o (by omega)
    have key : ops.countP (mayGiveUp N o) < t1.ext N o ∧ t1.fp N o = t.fp N o ∧ t1.sg N o = t.sg N o ∧
        t1.compF N (t.fp N o) = t.compF N (t.fp N o) := by
      rw [List.countP_cons] at ho
      by_cases hop : ∀ N o, op ≠ .erase N o
      · obtain ⟨u, hle, hl, he, _⟩ := step_le hok op hop h1
        have := he N o
        have := givesUp_le t N o op
        refine ⟨by omega, ?_, ?_, ?_⟩
        · rw [← hle.ofp N o hlive]; unfold Topo.fp; rw [hl]
        · rw [← hle.osg N o hlive]; unfold Topo.sg; rw [hl]
        · rw [← hle.comp N _ (hok.inv.fp_live N o hlive)]; unfold Topo.compF; rw [hl]
      · push Not at hop
        obtain ⟨M, x, rfl⟩ := hop
        simp only [step] at h1
        split at h1
        · rename_i hpos
          simp only [Option.some.injEq] at h1
          subst h1
          have hs := erase_spec M t x hok.inv hpos
          refine ⟨?_, by rw [hs.shr.fp], by rw [hs.shr.sg], by rw [hs.shr.compF]⟩
          by_cases e : M = N
          · subst e
            rw [hs.ext]
            by_cases e' : x = o
            · subst e'
              simp only [mayGiveUp, and_self, decide_true, if_true] at ho
              split <;> omega
            · simp only [Ne.symm e', and_false, if_false]; omega
          · rw [hs.shr.ext_ne N (Ne.symm e)]; omega
        · simp at h1
    obtain ⟨a, b, c, d⟩ := ih t1 h key.1 hok1
    rw [key.2.1] at b d
    exact ⟨a, b, c.trans key.2.2.1, d.trans key.2.2.2⟩

/-- **C20.**  The same for footprints, such as vertices: a footprint on which the user holds more handles
than are dropped in the rest of the history is alive at its end, with the same composition. -/
theorem held_footprint_survives (t t' : Topo) (ht : Reachable t) (ops : List Op)
    (h : run t ops = some t') (N : Nat) (f : Id) (hf : ops.countP (givesUpF N f) < t.extF N f) :
    f ∈ (t'.lvl N).fps ∧ t'.compF N f = t.compF N f := by
  have hok := ht.ok
  clear ht
  induction ops generalizing t with
  | nil =>
    simp only [run, Option.some.injEq] at h
    subst h
    exact ⟨hok.inv.extF_live N f (by simpa using hf), rfl⟩
  | cons op ops ih =>
    simp only [run] at h
    split at h
    · simp at h
    rename_i t1 h1
    have hok1 := step_ok hok h1
    have hlive := hok.inv.extF_live N f (by omega)
    have key : ops.countP (givesUpF N f) < t1.extF N f ∧ t1.compF N f = t.compF N f := by
      rw [List.countP_cons] at hf
      by_cases hop : ∀ N o, op ≠ .erase N o
      · obtain ⟨u, hle, hl, _, he⟩ := step_le hok op hop h1
        have := he N f
        refine ⟨by omega, ?_⟩
        rw [← hle.comp N _ hlive]; unfold Topo.compF; rw [hl]
      · push Not at hop
        obtain ⟨M, x, rfl⟩ := hop
        simp only [step] at h1
        split at h1
        · rename_i hpos
          simp only [Option.some.injEq] at h1
          subst h1
          have hs := erase_spec M t x hok.inv hpos
          exact ⟨by rw [hs.shr.extF]; omega, by rw [hs.shr.compF]⟩
        · simp at h1
    obtain ⟨a, b⟩ := ih t1 h key.1 hok1
    exact ⟨a, b.trans key.2⟩

/-- a triangle held twice and erased through one handle, and a vertex held and dropped -/
@[irreducible] def exHeld : Topo :=
  (run (.init (List.range 80)) [.vertex, .vertex, .vertex, .triangle 0 1 2, .hold 2 16, .holdF 0 1]).getD
    (.init [])

example : Reachable exHeld ∧ exHeld.ext 2 16 = 2 ∧ exHeld.extF 0 1 = 2 ∧
    (run exHeld [.erase 2 16, .dropF 0 1]).isSome = true ∧
    [Op.erase 2 16, .dropF 0 1].countP (mayGiveUp 2 16) = 1 ∧
    [Op.erase 2 16, .dropF 0 1].countP (givesUpF 0 1) = 1 := by
  refine ⟨⟨List.range 80, [.vertex, .vertex, .vertex, .triangle 0 1 2, .hold 2 16, .holdF 0 1], ?_⟩, ?_, ?_, ?_,
    by decide, by decide⟩
  · unfold exHeld
    exact run_eq_some _ (by decide +kernel)
  all_goals decide +kernel

end Mito.Topology
