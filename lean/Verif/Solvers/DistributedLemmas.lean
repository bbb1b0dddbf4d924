import Verif.Spec.Distributed
import Verif.Fem.DiscreteSystemLemmas
import Verif.Props.DiscreteSystem

/-! # Lemmas about linear systems with several tasks -/

namespace Mito.Distributed

open Mito.Assoc Mito.DiscreteSystem

variable {R : Type} [CommRing R]

/-! ### the ranges of rows -/

theorem firstRow_zero (n k : Nat) : firstRow n k 0 = 0 := rfl

theorem firstRow_succ (n k r : Nat) : firstRow n k (r + 1) = firstRow n k r + localSize n k r := by
  simp [firstRow, List.range_succ]

theorem firstRow_eq (n k r : Nat) : firstRow n k r = r * (n / k) + min r (n % k) := by
  induction r with
  | zero => simp [firstRow_zero]
  | succ r ih =>
    rw [firstRow_succ, ih, localSize, Nat.succ_mul]
    split <;> omega

theorem firstRow_last {n k : Nat} (hk : 0 < k) : firstRow n k k = n := by
  rw [firstRow_eq, Nat.min_eq_right (Nat.mod_lt n hk).le]
  exact Nat.div_add_mod n k

theorem firstRow_mono (n k : Nat) {r r' : Nat} (h : r ≤ r') : firstRow n k r ≤ firstRow n k r' := by
  induction r', h using Nat.le_induction with
  | base => exact le_rfl
  | succ r' _ ih => rw [firstRow_succ]; omega

theorem owns_iff (n k r i : Nat) : owns n k r i = true ↔ firstRow n k r ≤ i ∧ i < firstRow n k (r + 1) := by
  rw [owns, Bool.and_eq_true, decide_eq_true_eq, decide_eq_true_eq, firstRow_succ]

theorem owner_unique {n k r r' i : Nat} (h : owns n k r i = true) (h' : owns n k r' i = true) : r = r' := by
  rw [owns_iff] at h h'
  by_contra hne
  rcases Nat.lt_or_gt_of_ne hne with hl | hl
  · have := firstRow_mono n k (Nat.succ_le_of_lt hl)
    simp only [Nat.succ_eq_add_one] at this
    omega
  · have := firstRow_mono n k (Nat.succ_le_of_lt hl)
    simp only [Nat.succ_eq_add_one] at this
    omega

theorem owner_exists {n k i : Nat} (hk : 0 < k) (hi : i < n) : ∃ r < k, owns n k r i = true := by
  by_contra hn
  push Not at hn
  have : ∀ r ≤ k, firstRow n k r ≤ i := by
    intro r
    induction r with
    | zero => simp [firstRow_zero]
    | succ r ih =>
      intro hr
      have h1 := hn r (by omega)
      rw [Ne, owns_iff] at h1
      have := ih (by omega)
      omega
  have := this k le_rfl
  rw [firstRow_last hk] at this
  omega

theorem not_owned {n k r i : Nat} (hr : r < k) (hi : n ≤ i) : owns n k r i = false := by
  rw [Bool.eq_false_iff, Ne, owns_iff]
  have := firstRow_mono n k (Nat.succ_le_of_lt hr)
  rw [firstRow_last (by omega)] at this
  simp only [Nat.succ_eq_add_one] at this
  omega

/-! ### sums -/

theorem onMatrix_add {c : Call R} (h : c.adds = true) (i j : Nat) (x : R) :
    c.onMatrix i j x = x + (c.matrixValue i j).getD 0 := by
  cases c with
  | insertMatrix => simp [Call.adds] at h
  | addMatrix i' j' v => by_cases e : i = i' ∧ j = j' <;> simp [Call.onMatrix, Call.matrixValue, e]
  | insertRhs => simp [Call.adds] at h
  | addRhs => simp [Call.onMatrix, Call.matrixValue]

theorem onRhs_add {c : Call R} (h : c.adds = true) (i : Nat) (x : R) :
    c.onRhs i x = x + (c.rhsValue i).getD 0 := by
  cases c with
  | insertMatrix => simp [Call.adds] at h
  | addMatrix i' j' v => simp [Call.onRhs, Call.rhsValue]
  | insertRhs => simp [Call.adds] at h
  | addRhs i' v => by_cases e : i = i' <;> simp [Call.onRhs, Call.rhsValue, e]

theorem foldl_onMatrix {cs : List (Call R)} (h : ∀ c ∈ cs, c.adds = true) (i j : Nat) (x : R) :
    cs.foldl (Call.onMatrix i j) x = x + serialMatrix cs i j := by
  have key : ∀ y, cs.foldl (Call.onMatrix i j) y = y + (cs.map fun c => (c.matrixValue i j).getD 0).sum := by
    induction cs with
    | nil => simp
    | cons c cs ih =>
      intro y
      rw [List.foldl_cons, ih (fun c hc => h c (by simp [hc])), onMatrix_add (h c (by simp)), List.map_cons, List.sum_cons, add_assoc]
  rw [serialMatrix, key, key 0, zero_add]

theorem foldl_onRhs {cs : List (Call R)} (h : ∀ c ∈ cs, c.adds = true) (i : Nat) (x : R) :
    cs.foldl (Call.onRhs i) x = x + serialRhs cs i := by
  have key : ∀ y, cs.foldl (Call.onRhs i) y = y + (cs.map fun c => (c.rhsValue i).getD 0).sum := by
    induction cs with
    | nil => simp
    | cons c cs ih =>
      intro y
      rw [List.foldl_cons, ih (fun c hc => h c (by simp [hc])), onRhs_add (h c (by simp)), List.map_cons, List.sum_cons, add_assoc]
  rw [serialRhs, key, key 0, zero_add]

theorem serialMatrix_append {cs cs' : List (Call R)} (h : ∀ c ∈ cs', c.adds = true) (i j : Nat) :
    serialMatrix (cs ++ cs') i j = serialMatrix cs i j + serialMatrix cs' i j := by
  rw [serialMatrix, List.foldl_append, foldl_onMatrix h]
  rfl

theorem serialRhs_append {cs cs' : List (Call R)} (h : ∀ c ∈ cs', c.adds = true) (i : Nat) :
    serialRhs (cs ++ cs') i = serialRhs cs i + serialRhs cs' i := by
  rw [serialRhs, List.foldl_append, foldl_onRhs h]
  rfl

theorem serialMatrix_flatMap {β : Type} (l : List β) (f : β → List (Call R)) (h : ∀ b ∈ l, ∀ c ∈ f b, c.adds = true) (i j : Nat) :
    serialMatrix (l.flatMap f) i j = (l.map fun b => serialMatrix (f b) i j).sum := by
  induction l with
  | nil => rfl
  | cons b l ih =>
    rw [List.flatMap_cons, serialMatrix_append, ih (fun b hb => h b (by simp [hb])), List.map_cons, List.sum_cons]
    intro c hc
    obtain ⟨b', hb, hc⟩ := List.mem_flatMap.1 hc
    exact h b' (by simp [hb]) c hc

theorem serialRhs_flatMap {β : Type} (l : List β) (f : β → List (Call R)) (h : ∀ b ∈ l, ∀ c ∈ f b, c.adds = true) (i : Nat) :
    serialRhs (l.flatMap f) i = (l.map fun b => serialRhs (f b) i).sum := by
  induction l with
  | nil => rfl
  | cons b l ih =>
    rw [List.flatMap_cons, serialRhs_append, ih (fun b hb => h b (by simp [hb])), List.map_cons, List.sum_cons]
    intro c hc
    obtain ⟨b', hb, hc⟩ := List.mem_flatMap.1 hc
    exact h b' (by simp [hb]) c hc

/-- the lists of calls by their numbers -/
theorem zipIdx_eq (tasks : List (List (Call R))) :
    tasks.zipIdx = (List.range tasks.length).map fun r => (tasks.getD r [], r) := by
  apply List.ext_getElem
  · simp
  · intro i h1 h2
    have : i < tasks.length := by simpa using h1
    simp [this]

theorem own_eq (n : Nat) (tasks : List (List (Call R))) (i : Nat) :
    (tasks.zipIdx.filter fun t => owns n tasks.length t.2 i).flatMap Prod.fst =
      (List.range tasks.length).flatMap fun r => if owns n tasks.length r i then tasks.getD r [] else [] := by
  rw [zipIdx_eq, List.filter_map, List.flatMap_map]
  generalize List.range tasks.length = l
  induction l with
  | nil => rfl
  | cons r l ih =>
    simp only [List.filter_cons, Function.comp_apply, List.flatMap_cons]
    by_cases h : owns n tasks.length r i = true
    · simp only [h, if_true, List.flatMap_cons]
      rw [ih]
    · simp only [h, List.nil_append, Bool.false_eq_true, if_false]
      rw [ih]

theorem getD_mem {tasks : List (List (Call R))} {P : Call R → Prop} (h : ∀ cs ∈ tasks, ∀ c ∈ cs, P c) (r : Nat) :
    ∀ c ∈ tasks.getD r [], P c := by
  intro c hc
  by_cases hr : r < tasks.length
  · have : tasks.getD r [] = tasks[r] := by simp [hr]
    rw [this] at hc
    exact h _ (List.getElem_mem hr) c hc
  · have : tasks.getD r [] = [] := by simp [List.getElem?_eq_none (by omega : tasks.length ≤ r)]
    rw [this] at hc
    simp at hc

theorem sum_split {k : Nat} (p : Nat → Bool) (S : Nat → R) {arrival : List Nat} (ha : arrival.Perm (List.range k)) :
    ((List.range k).map fun r => if p r then S r else 0).sum + (arrival.map fun r => if p r then 0 else S r).sum =
      ((List.range k).map S).sum := by
  rw [(ha.map _).sum_eq, ← List.sum_map_add]
  congr 1
  refine List.map_congr_left fun r _ => ?_
  cases p r <;> simp

/-! ### the calls of a discrete system -/

/-- the system after some calls -/
def after (cs : List (Call R)) (s : LinearSystem R) : LinearSystem R :=
  ⟨fun i j => cs.foldl (Call.onMatrix i j) (s.matrix i j), fun i => cs.foldl (Call.onRhs i) (s.rhs i)⟩

theorem after_append (cs cs' : List (Call R)) (s : LinearSystem R) : after (cs ++ cs') s = after cs' (after cs s) := by
  simp [after, List.foldl_append]

theorem addRow_calls (m : List (Nat × Int)) (eqA : Nat) (row : Nat → R) (l : List (Nat × Nat)) (s : LinearSystem R) :
    addRow m eqA row l s = (rowCalls m eqA row l).map fun cs => after cs s := by
  induction l generalizing s with
  | nil => rfl
  | cons p l ih =>
    obtain ⟨nb, b⟩ := p
    rw [addRow, rowCalls]
    cases get m nb with
    | none => rfl
    | some eqB =>
      simp only [ih, Option.map_map]
      congr 1
      funext cs
      by_cases e : eqB = -1
      · simp [e]
      · simp only [e, if_false, Function.comp_apply]
        rfl

theorem addRows_calls (m : List (Nat × Int)) (B : Blocks R) (conn l : List (Nat × Nat)) (s : LinearSystem R) :
    addRows m B conn l s = (elementCalls m B conn l).map fun cs => after cs s := by
  induction l generalizing s with
  | nil => rfl
  | cons p l ih =>
    obtain ⟨na, a⟩ := p
    rw [addRows, elementCalls]
    cases get m na with
    | none => rfl
    | some eqA =>
      by_cases e : eqA = -1
      · simp only [e, if_true, ih]
      · simp only [e, if_false, addRow_calls]
        cases rowCalls m eqA.toNat (B.matrix a) conn with
        | none => rfl
        | some cs =>
          simp only [Option.map_some, ih]
          cases elementCalls m B conn l with
          | none => rfl
          | some cs' =>
            simp only [Option.map_some, List.cons_append]
            rw [← List.singleton_append, after_append, after_append]
            rfl

theorem assemble_calls (m : List (Nat × Int)) (blocks : Nat → Blocks R) (l : List (Conn × Nat)) (s : LinearSystem R) :
    assemble m blocks l s = (assembleCalls m blocks l).map fun cs => after cs s := by
  induction l generalizing s with
  | nil => rfl
  | cons p l ih =>
    obtain ⟨c, e⟩ := p
    rw [assemble, assembleCalls, addRows_calls]
    cases elementCalls m (blocks e) c.zipIdx c.zipIdx with
    | none => rfl
    | some cs =>
      simp only [Option.map_some, ih]
      cases assembleCalls m blocks l with
      | none => rfl
      | some cs' => simp only [Option.map_some, after_append]

theorem rowCalls_adds (m : List (Nat × Int)) (eqA : Nat) (row : Nat → R) (l : List (Nat × Nat)) (cs : List (Call R))
    (h : rowCalls m eqA row l = some cs) : ∀ c ∈ cs, c.adds = true := by
  induction l generalizing cs with
  | nil => obtain rfl := Option.some.inj h; simp
  | cons p l ih =>
    obtain ⟨nb, b⟩ := p
    rw [rowCalls] at h
    cases hg : get m nb with
    | none => simp [hg] at h
    | some eqB =>
      simp only [hg] at h
      obtain ⟨cs', h1, rfl⟩ := Option.map_eq_some_iff.1 h
      have := ih cs' h1
      by_cases e : eqB = -1
      · simpa [e] using this
      · simpa [e, Call.adds] using this

theorem elementCalls_adds (m : List (Nat × Int)) (B : Blocks R) (conn l : List (Nat × Nat)) (cs : List (Call R))
    (h : elementCalls m B conn l = some cs) : ∀ c ∈ cs, c.adds = true := by
  induction l generalizing cs with
  | nil => obtain rfl := Option.some.inj h; simp
  | cons p l ih =>
    obtain ⟨na, a⟩ := p
    rw [elementCalls] at h
    cases hg : get m na with
    | none => simp [hg] at h
    | some eqA =>
      simp only [hg] at h
      by_cases e : eqA = -1
      · simp only [e, if_true] at h
        exact ih cs h
      · simp only [e, if_false] at h
        cases h1 : rowCalls m eqA.toNat (B.matrix a) conn with
        | none => simp [h1] at h
        | some c1 =>
          cases h2 : elementCalls m B conn l with
          | none => simp [h1, h2] at h
          | some c2 =>
            simp only [h1, h2, Option.some.injEq] at h
            subst h
            intro c hc
            simp only [List.cons_append, List.mem_cons, List.mem_append] at hc
            rcases hc with rfl | hc | hc
            · rfl
            · exact rowCalls_adds _ _ _ _ _ h1 c hc
            · exact ih c2 h2 c hc

theorem assembleCalls_adds (m : List (Nat × Int)) (blocks : Nat → Blocks R) (l : List (Conn × Nat)) (cs : List (Call R))
    (h : assembleCalls m blocks l = some cs) : ∀ c ∈ cs, c.adds = true := by
  induction l generalizing cs with
  | nil => obtain rfl := Option.some.inj h; simp
  | cons p l ih =>
    obtain ⟨c0, e⟩ := p
    rw [assembleCalls] at h
    cases h1 : elementCalls m (blocks e) c0.zipIdx c0.zipIdx with
    | none => simp [h1] at h
    | some c1 =>
      cases h2 : assembleCalls m blocks l with
      | none => simp [h1, h2] at h
      | some c2 =>
        simp only [h1, h2, Option.some.injEq] at h
        subst h
        intro c hc
        rcases List.mem_append.1 hc with hc | hc
        · exact elementCalls_adds _ _ _ _ _ h1 c hc
        · exact ih c2 h2 c hc

/-- the calls of a task add its matrix and its right-hand side -/
theorem Task.calls_eq (t : Task R) : ∃ cs, t.calls = some cs ∧ (∀ c ∈ cs, c.adds = true) ∧
    (∀ i j, serialMatrix cs i j = K t.space t.blocks i j) ∧ ∀ i, serialRhs cs i = F t.space t.blocks i := by
  obtain ⟨s', h1, h2, h3⟩ := assemble_sum t.space t.blocks LinearSystem.create
  rw [assemble_calls] at h1
  obtain ⟨cs, h4, rfl⟩ := Option.map_eq_some_iff.1 h1
  refine ⟨cs, h4, assembleCalls_adds _ _ _ _ h4, fun i j => ?_, fun i => ?_⟩
  · have := h2 i j
    simpa [LinearSystem.create, after, serialMatrix] using this
  · have := h3 i
    simpa [LinearSystem.create, after, serialRhs] using this

theorem F_beyond (V : FunctionSpace R) (blocks : Nat → Blocks R) {i : Nat} (hi : (buildEquationMap V).2 ≤ i) : F V blocks i = 0 := by
  rw [F]
  refine Finset.sum_eq_zero fun e _ => Finset.sum_eq_zero fun a _ => if_neg fun h => ?_
  have := (equations_number V).1.lt _ _ h
  omega

/-! ### reading -/

theorem readSolution_congr {u u' : Nat → R} (m : List (Nat × Int)) (h : ∀ p ∈ m, p.2 ≠ -1 → u p.2.toNat = u' p.2.toNat)
    (f : DiscreteField.Field Nat R) : readSolution u m f = readSolution u' m f := by
  induction m generalizing f with
  | nil => rfl
  | cons p m ih =>
    obtain ⟨n, eq⟩ := p
    have ih := ih fun p hp => h p (by simp [hp])
    rw [readSolution, readSolution]
    by_cases e : eq = -1
    · simp only [e, if_true, ih]
    · simp only [e, if_false]
      rw [show u eq.toNat = u' eq.toNat from h (n, eq) (by simp) e]
      cases get f n with
      | none => rfl
      | some _ => exact ih _

theorem equations_lt (V : FunctionSpace R) : ∀ p ∈ (buildEquationMap V).1, p.2 ≠ -1 → p.2.toNat < (buildEquationMap V).2 := by
  intro p hp he
  have h1 := get_of_mem (buildEquationMap_eq V).2.1 (show (p.1, p.2) ∈ (buildEquationMap V).1 from hp)
  exact (equations_number V).1.lt p.1 p.2.toNat (by simp [equationOf, h1, he])

theorem readSolution_isSome (V : FunctionSpace R) (u : Nat → R) :
    ∃ f, readSolution u (buildEquationMap V).1 (create V).field = some f := by
  obtain ⟨f, hf, -⟩ := readSolution_field V u (create V).field (by
    intro x hx _
    rw [create_field, if_pos hx]; rfl)
  exact ⟨f, hf⟩

theorem getSolution_isSome (n k r : Nat) (u : Nat → R) : (getSolution n k r u).isSome = true ↔ n ≤ localSize n k r := by
  unfold getSolution
  split <;> simp_all

/-! ### several tasks -/

theorem foldl_insert_again {β S : Type} (f : S → β → S) (cs : List β) (v : β → Option S)
    (hv : ∀ c ∈ cs, ∀ x, f x c = (v c).getD x) (x : S) : cs.foldl f (cs.foldl f x) = cs.foldl f x := by
  have key : ∀ l : List β, (∀ c ∈ l, ∀ x, f x c = (v c).getD x) → ∃ o : Option S, ∀ y, l.foldl f y = o.getD y := by
    intro l
    induction l with
    | nil => exact fun _ => ⟨none, fun _ => rfl⟩
    | cons c l ih =>
      intro h
      obtain ⟨o, ho⟩ := ih fun c hc => h c (by simp [hc])
      refine ⟨o.or (v c), fun y => ?_⟩
      rw [List.foldl_cons, ho, h c (by simp)]
      cases o <;> rfl
  obtain ⟨o, ho⟩ := key cs hv
  rw [ho, ho]
  cases o <;> rfl

theorem foldl_replicate {β S : Type} (f : S → β → S) (cs : List β) (hf : ∀ x, cs.foldl f (cs.foldl f x) = cs.foldl f x)
    (ls : List (List β)) (h : ∀ l ∈ ls, l = cs ∨ l = []) (hm : cs ∈ ls) (x : S) : ls.flatten.foldl f x = cs.foldl f x := by
  have key : ∀ ls : List (List β), (∀ l ∈ ls, l = cs ∨ l = []) →
      ls.flatten.foldl f (cs.foldl f x) = cs.foldl f x := by
    intro ls
    induction ls with
    | nil => intro _; rfl
    | cons l ls ih =>
      intro h
      rw [List.flatten_cons, List.foldl_append]
      rcases h l (by simp) with rfl | rfl
      · rw [hf]; exact ih fun l hl => h l (by simp [hl])
      · exact ih fun l hl => h l (by simp [hl])
  induction ls with
  | nil => cases hm
  | cons l ls ih =>
    rw [List.flatten_cons, List.foldl_append]
    rcases h l (by simp) with rfl | rfl
    · exact key ls fun l hl => h l (by simp [hl])
    · rcases List.mem_cons.1 hm with rfl | hm
      · exact key ls fun l hl => h l (by simp [hl])
      · exact ih (fun l hl => h l (by simp [hl])) hm

theorem mapM_calls (tasks : List (Task R)) : ∃ calls, tasks.mapM Task.calls = some calls ∧ calls.length = tasks.length ∧
    (∀ cs ∈ calls, ∀ c ∈ cs, c.adds = true) ∧
    (∀ i j, calls.map (fun cs => serialMatrix cs i j) = tasks.map fun t => K t.space t.blocks i j) ∧
    ∀ i, calls.map (fun cs => serialRhs cs i) = tasks.map fun t => F t.space t.blocks i := by
  induction tasks with
  | nil => exact ⟨[], rfl, rfl, by simp, by simp, by simp⟩
  | cons t tasks ih =>
    obtain ⟨cs, h1, h2, h3, h4⟩ := t.calls_eq
    obtain ⟨calls, k1, k2, k3, k4, k5⟩ := ih
    refine ⟨cs :: calls, ?_, by simp [k2], ?_, fun i j => by simp [h3, k4], fun i => by simp [h4, k5]⟩
    · rw [List.mapM_cons, h1, k1]; rfl
    · intro c hc
      rcases List.mem_cons.1 hc with rfl | hc
      · exact h2
      · exact k3 c hc

theorem replicate_calls (t : Task R) (k : Nat) : ∃ cs, t.calls = some cs ∧
    (List.replicate k t).mapM Task.calls = some (List.replicate k cs) ∧ (∀ c ∈ cs, c.adds = true) ∧
    (∀ i j, serialMatrix cs i j = K t.space t.blocks i j) ∧ ∀ i, serialRhs cs i = F t.space t.blocks i := by
  obtain ⟨cs, h1, h2, h3, h4⟩ := t.calls_eq
  refine ⟨cs, h1, ?_, h2, h3, h4⟩
  induction k with
  | zero => rfl
  | succ k ih => rw [List.replicate_succ, List.mapM_cons, h1, ih]; rfl

end Mito.Distributed
