import Verif.Spec.DiscreteSystem
import Verif.Utilities.AssocLemmas
import Mathlib.Data.List.NodupEquivFin
import Mathlib.Algebra.BigOperators.Fin
import Mathlib.Data.List.Induction

/-! # Helpers about discrete systems -/

namespace Mito.DiscreteSystem

open Mito.Assoc

/-! ### equation map -/

theorem mem_setInsert {x y : Nat} {l : List Nat} : y ∈ setInsert x l ↔ y = x ∨ y ∈ l := by
  induction l with
  | nil => simp [setInsert]
  | cons z l ih =>
    rw [setInsert]
    split
    · simp
    · split
      · rename_i h; subst h; simp
      · simp only [List.mem_cons, ih]; tauto

theorem setInsert_sorted {x : Nat} {l : List Nat} (h : l.Pairwise (· < ·)) :
    (setInsert x l).Pairwise (· < ·) := by
  induction l with
  | nil => simp [setInsert]
  | cons z l ih =>
    rw [List.pairwise_cons] at h
    rw [setInsert]
    split
    · rename_i hx
      rw [List.pairwise_cons, List.pairwise_cons]
      refine ⟨fun y hy => ?_, h⟩
      rcases List.mem_cons.mp hy with rfl | hy
      · exact hx
      · exact hx.trans (h.1 y hy)
    · split
      · rw [List.pairwise_cons]; exact h
      · rename_i h1 h2
        rw [List.pairwise_cons]
        refine ⟨fun y hy => ?_, ih h.2⟩
        rcases mem_setInsert.mp hy with rfl | hy
        · omega
        · exact h.1 y hy

theorem mem_setOf {l : List Nat} {x : Nat} : x ∈ setOf l ↔ x ∈ l := by
  induction l with
  | nil => simp [setOf]
  | cons y l ih =>
    rw [setOf, List.foldr_cons, mem_setInsert, List.mem_cons]
    exact or_congr Iff.rfl ih

theorem setOf_sorted (l : List Nat) : (setOf l).Pairwise (· < ·) := by
  induction l with
  | nil => simp [setOf]
  | cons y l ih => exact setInsert_sorted ih

theorem setOf_nodup (l : List Nat) : (setOf l).Nodup :=
  (setOf_sorted l).imp fun h => Nat.ne_of_lt h

theorem foldl_insert_get (l : List Nat) (x : Nat) :
    get (l.foldl (fun m n => Assoc.insert m n (-1 : Int)) []) x =
      if x ∈ l then some (-1) else none := by
  induction l using List.reverseRecOn with
  | nil => simp
  | append_singleton l n ih =>
    rw [List.foldl_append, List.foldl_cons, List.foldl_nil, get_insert]
    by_cases e : n = x
    · subst e
      by_cases h : n ∈ l
      · simp [ih, h]
      · simp [ih, h]
    · rw [if_neg e, ih]
      simp [Ne.symm e]

theorem foldl_insert_keys (l : List Nat) :
    (keys (l.foldl (fun m n => Assoc.insert m n (-1 : Int)) [])).Nodup := by
  induction l using List.reverseRecOn with
  | nil => simp [keys]
  | append_singleton l n ih =>
    rw [List.foldl_append, List.foldl_cons, List.foldl_nil]
    exact keys_insert_nodup ih _ _

theorem foldl_addEquation (m : List (Nat × Int)) (l : List Nat) (hl : l.Nodup)
    (hm : ∀ x ∈ l, get m x = none) :
    l.foldl addEquation (m, 0) =
      (m ++ l.zipIdx.map (fun e => (e.1, (e.2 : Int))), l.length) := by
  induction l using List.reverseRecOn with
  | nil => simp
  | append_singleton l n ih =>
    rw [List.nodup_append] at hl
    rw [List.foldl_append, ih hl.1 fun x hx => hm x (by simp [hx]), List.foldl_cons, List.foldl_nil,
      addEquation]
    have : get (m ++ l.zipIdx.map (fun e => (e.1, (e.2 : Int)))) n = none := by
      rw [get_none, keys, List.map_append, List.mem_append, not_or]
      refine ⟨get_none.mp (hm n (by simp)), ?_⟩
      simp only [List.map_map, Function.comp_def, List.zipIdx_map_fst]
      exact fun h => hl.2.2 n h n (by simp) rfl
    rw [this]
    simp [List.zipIdx_append]

variable {R : Type}

/-- the unconstrained nodes, in order -/
def interior (V : FunctionSpace R) : List Nat :=
  (nodes V).filter fun n => n ∉ setOf V.constrained

theorem mem_interior {V : FunctionSpace R} {x : Nat} :
    x ∈ interior V ↔ x ∈ V.elements.flatten ∧ x ∉ V.constrained := by
  simp [interior, nodes, mem_setOf]

theorem interior_nodup (V : FunctionSpace R) : (interior V).Nodup := (setOf_nodup _).filter _

theorem get_zipIdx_map (l : List Nat) (x : Nat) (s : Nat) :
    get ((l.zipIdx s).map (fun e => (e.1, (e.2 : Int)))) x =
      if x ∈ l then some ((s + l.idxOf x : Nat) : Int) else none := by
  induction l generalizing s with
  | nil => simp
  | cons n l ih =>
    rw [List.zipIdx_cons, List.map_cons, get_cons, ih]
    by_cases e : n = x
    · subst e; simp
    · rw [if_neg e, List.idxOf_cons_ne _ e]
      simp only [List.mem_cons, Ne.symm e, false_or]
      split <;> simp; omega

theorem buildEquationMap_eq (V : FunctionSpace R) :
    (buildEquationMap V).2 = (interior V).length ∧ (keys (buildEquationMap V).1).Nodup ∧
      ∀ x, get (buildEquationMap V).1 x =
        if x ∈ V.constrained then some (-1)
        else if x ∈ V.elements.flatten then some (((interior V).idxOf x : Nat) : Int) else none := by
  have hm : ∀ x ∈ interior V,
      get ((setOf V.constrained).foldl (fun m n => Assoc.insert m n (-1 : Int)) []) x = none := by
    intro x hx
    rw [foldl_insert_get, if_neg]
    rw [mem_setOf]
    exact (mem_interior.mp hx).2
  have e := foldl_addEquation _ (interior V) (interior_nodup V) hm
  have e' : buildEquationMap V = _ := e
  rw [e']
  refine ⟨rfl, ?_, fun x => ?_⟩
  · simp only [keys, List.map_append, List.map_map, Function.comp_def, List.zipIdx_map_fst]
    rw [List.nodup_append]
    refine ⟨foldl_insert_keys _, interior_nodup V, ?_⟩
    rintro a ha b hb rfl
    exact get_none.mp (hm a hb) ha
  · simp only
    rw [get_append, foldl_insert_get, get_zipIdx_map]
    by_cases h : x ∈ V.constrained
    · simp [h, mem_setOf]
    · have : x ∈ interior V ↔ x ∈ V.elements.flatten := by rw [mem_interior]; simp [h]
      simp [h, mem_setOf, this]

theorem equationOf_buildEquationMap (V : FunctionSpace R) (x : Nat) :
    equationOf (buildEquationMap V).1 x =
      if x ∈ interior V then some ((interior V).idxOf x) else none := by
  rw [equationOf, (buildEquationMap_eq V).2.2]
  simp only [mem_interior]
  by_cases h : x ∈ V.constrained
  · simp [h]
  · by_cases h' : x ∈ V.elements.flatten
    · simp only [if_neg h, if_pos h', h, not_false_eq_true, and_true]
      have : ¬ (((interior V).idxOf x : Nat) : Int) = -1 := by omega
      simp [this]
    · rw [if_neg h, if_neg h']
      simp only [h', false_and, if_false]

/-! ### assembly -/

variable [CommRing R]

theorem addRow_eq {m : List (Nat × Int)} (i0 : Nat) (row : Nat → R) (l : List (Nat × Nat))
    (hl : ∀ p ∈ l, (get m p.1).isSome = true) (s : LinearSystem R) :
    ∃ s', addRow m i0 row l s = some s' ∧ s'.rhs = s.rhs ∧
      ∀ i j, s'.matrix i j = s.matrix i j + if i = i0 then
        (l.map fun p => if equationOf m p.1 = some j then row p.2 else 0).sum else 0 := by
  induction l generalizing s with
  | nil => exact ⟨s, rfl, rfl, by simp⟩
  | cons p l ih =>
    obtain ⟨nb, b⟩ := p
    obtain ⟨e, he⟩ := Option.isSome_iff_exists.mp (hl (nb, b) (by simp))
    dsimp only at he
    obtain ⟨s', h1, h2, h3⟩ := ih (fun p hp => hl p (by simp [hp]))
      (if e = -1 then s else addMatrix s i0 e.toNat (row b))
    refine ⟨s', by rw [addRow, he]; exact h1, ?_, fun i j => ?_⟩
    · rw [h2]; split <;> rfl
    · rw [h3]
      by_cases hne : e = -1
      · simp [hne, equationOf, he]
      · simp only [if_neg hne, addMatrix, equationOf, he, List.map_cons, List.sum_cons,
          Option.some.injEq]
        by_cases hi : i = i0
        · by_cases hj : j = e.toNat
          · subst hj; simp [hi]; ring
          · simp [hi, hj, Ne.symm hj]
        · simp [hi]

theorem addRows_eq {m : List (Nat × Int)} (B : Blocks R) (conn l : List (Nat × Nat))
    (hc : ∀ p ∈ conn, (get m p.1).isSome = true) (hl : ∀ p ∈ l, (get m p.1).isSome = true)
    (s : LinearSystem R) :
    ∃ s', addRows m B conn l s = some s' ∧
      (∀ i, s'.rhs i = s.rhs i +
        (l.map fun p => if equationOf m p.1 = some i then B.vector p.2 else 0).sum) ∧
      ∀ i j, s'.matrix i j = s.matrix i j + (l.map fun p => if equationOf m p.1 = some i then
        (conn.map fun q => if equationOf m q.1 = some j then B.matrix p.2 q.2 else 0).sum else 0).sum := by
  induction l generalizing s with
  | nil => exact ⟨s, rfl, by simp, by simp⟩
  | cons p l ih =>
    obtain ⟨na, a⟩ := p
    obtain ⟨e, he⟩ := Option.isSome_iff_exists.mp (hl (na, a) (by simp))
    dsimp only at he
    by_cases hne : e = -1
    · obtain ⟨s', h1, h2, h3⟩ := ih (fun p hp => hl p (by simp [hp])) s
      refine ⟨s', by rw [addRows, he]; simp only [if_pos hne]; exact h1, fun i => ?_, fun i j => ?_⟩
      · rw [h2]; simp [equationOf, he, hne]
      · rw [h3]; simp [equationOf, he, hne]
    · obtain ⟨s1, g1, g2, g3⟩ := addRow_eq e.toNat (B.matrix a) conn hc
        (addRhs s e.toNat (B.vector a))
      obtain ⟨s', h1, h2, h3⟩ := ih (fun p hp => hl p (by simp [hp])) s1
      refine ⟨s', by rw [addRows, he]; simp only [if_neg hne, g1]; exact h1, fun i => ?_,
        fun i j => ?_⟩
      · have q : equationOf m na = some e.toNat := by simp [equationOf, he, hne]
        rw [h2, g2]
        simp only [addRhs, q, List.map_cons, List.sum_cons, Option.some.injEq]
        by_cases hi : i = e.toNat
        · subst hi; simp; ring
        · simp [hi, Ne.symm hi]
      · have q : equationOf m na = some e.toNat := by simp [equationOf, he, hne]
        rw [h3, g3]
        simp only [addRhs, q, List.map_cons, List.sum_cons, Option.some.injEq]
        by_cases hi : i = e.toNat
        · subst hi; simp; ring
        · simp [hi, Ne.symm hi]

theorem zipIdx_sum {α : Type} (c : List α) (g : α × Nat → R) :
    (c.zipIdx.map g).sum = ∑ a : Fin c.length, g (c[a], a) := by
  have : c.zipIdx.map g = List.ofFn fun a : Fin c.length => g (c[a], a) := by
    apply List.ext_getElem
    · simp
    · intro i h1 h2
      simp
  rw [this, List.sum_ofFn]

theorem assemble_eq {m : List (Nat × Int)} (blocks : Nat → Blocks R) (l : List (Conn × Nat))
    (hl : ∀ p ∈ l, ∀ x ∈ p.1, (get m x).isSome = true) (s : LinearSystem R) :
    ∃ s', assemble m blocks l s = some s' ∧
      (∀ i, s'.rhs i = s.rhs i +
        (l.map fun p => rhsContribution (equationOf m) p.1 (blocks p.2).vector i).sum) ∧
      ∀ i j, s'.matrix i j = s.matrix i j +
        (l.map fun p => matrixContribution (equationOf m) p.1 (blocks p.2).matrix i j).sum := by
  induction l generalizing s with
  | nil => exact ⟨s, rfl, by simp, by simp⟩
  | cons p l ih =>
    obtain ⟨c, e⟩ := p
    have hc : ∀ p ∈ c.zipIdx, (get m p.1).isSome = true := fun p hp =>
      hl (c, e) (by simp) _ (List.fst_mem_of_mem_zipIdx hp)
    obtain ⟨s1, g1, g2, g3⟩ := addRows_eq (blocks e) c.zipIdx c.zipIdx hc hc s
    obtain ⟨s', h1, h2, h3⟩ := ih (fun p hp => hl p (by simp [hp])) s1
    refine ⟨s', by rw [assemble, g1]; exact h1, fun i => ?_, fun i j => ?_⟩
    · rw [h2, g2, zipIdx_sum, List.map_cons, List.sum_cons, add_assoc]
      rfl
    · rw [h3, g3, zipIdx_sum, List.map_cons, List.sum_cons, add_assoc]
      congr 2
      unfold matrixContribution
      refine Finset.sum_congr rfl fun a _ => ?_
      rw [zipIdx_sum]
      simp only [Fin.getElem_fin]
      by_cases h : equationOf m c[a.val] = some i
      · rw [if_pos h]
        simp only [h, true_and]
      · rw [if_neg h]
        simp only [h, false_and, if_false, Finset.sum_const_zero]

/-! ### solution -/

theorem readSolution_eq (u : Nat → R) (m : List (Nat × Int)) (hm : (keys m).Nodup)
    (f : DiscreteField.Field Nat R)
    (hf : ∀ x, (equationOf m x).isSome = true → (get f x).isSome = true) :
    ∃ f', readSolution u m f = some f' ∧ ∀ x, get f' x =
      match equationOf m x with
      | some i => some (u i)
      | none => get f x := by
  induction m generalizing f with
  | nil => exact ⟨f, rfl, fun x => rfl⟩
  | cons p m ih =>
    obtain ⟨n, eq⟩ := p
    rw [keys, List.map_cons, List.nodup_cons] at hm
    have hn : get m n = none := get_none.mpr hm.1
    have heq : ∀ x, equationOf ((n, eq) :: m) x =
        if n = x then (if eq = -1 then none else some eq.toNat) else equationOf m x := by
      intro x
      simp only [equationOf, get_cons]
      by_cases h : n = x <;> simp [h]
    have hen : equationOf m n = none := by simp [equationOf, hn]
    have hfm : ∀ x, (equationOf m x).isSome = true → (get f x).isSome = true := by
      intro x hx
      refine hf x ?_
      rw [heq]
      by_cases h : n = x
      · subst h; rw [hen] at hx; simp at hx
      · rw [if_neg h]; exact hx
    by_cases hne : eq = -1
    · obtain ⟨f', h1, h2⟩ := ih hm.2 f hfm
      refine ⟨f', by rw [readSolution, if_pos hne]; exact h1, fun x => ?_⟩
      rw [h2, heq]
      by_cases h : n = x
      · subst h; simp [hen, hne]
      · rw [if_neg h]
    · obtain ⟨w, hw⟩ := Option.isSome_iff_exists.mp (hf n (by rw [heq]; simp [hne]))
      obtain ⟨f', h1, h2⟩ := ih hm.2 (Assoc.set f n (u eq.toNat)) (by
        intro x hx
        rw [get_set]
        split
        · rw [hw]; rfl
        · exact hfm x hx)
      refine ⟨f', by rw [readSolution, if_neg hne, hw]; exact h1, fun x => ?_⟩
      rw [h2, heq]
      by_cases h : n = x
      · subst h; simp [hen, hne, get_set, hw]
      · rw [if_neg h, get_set, if_neg h]

end Mito.DiscreteSystem
