import Verif.Solvers.Options
import Verif.Spec.Options

/-! # C66: options of the linear solver -/

namespace Mito.Options

theorem splitSpaces_ne_nil (s : List Char) : splitSpaces s ≠ [] := by
  cases s with
  | nil => simp [splitSpaces]
  | cons c s =>
    simp only [splitSpaces]
    split
    · simp
    · split <;> simp

theorem splitSpaces_append {a : List Char} (ha : ' ' ∉ a) (s : List Char) : splitSpaces (a ++ ' ' :: s) = a :: splitSpaces s := by
  induction a with
  | nil => simp [splitSpaces]
  | cons c a ih =>
    simp only [List.mem_cons, not_or] at ha
    rw [List.cons_append, splitSpaces, if_neg (fun h => ha.1 h.symm), ih ha.2]

theorem splitSpaces_single {a : List Char} (ha : ' ' ∉ a) : splitSpaces a = [a] := by
  induction a with
  | nil => simp [splitSpaces]
  | cons c a ih =>
    simp only [List.mem_cons, not_or] at ha
    rw [splitSpaces, if_neg (fun h => ha.1 h.symm), ih ha.2]

theorem find_some {s : List Char} {pos p : Nat} (h : find s pos = some p) :
    s.drop pos = substr s pos (p - pos) ++ ' ' :: s.drop (p + 1) ∧ ' ' ∉ substr s pos (p - pos) := by
  fun_induction find with
  | case1 pos h1 h2 =>
    cases h
    simp only [substr, Nat.sub_self, List.take_zero, List.nil_append, List.not_mem_nil, not_false_eq_true, and_true]
    rw [← h2]
    exact List.drop_eq_getElem_cons h1
  | case2 pos h1 h2 ih =>
    have hr := find_range h
    obtain ⟨h3, h4⟩ := ih h
    have e : substr s pos (p - pos) = s[pos] :: substr s (pos + 1) (p - (pos + 1)) := by
      unfold substr
      rw [List.drop_eq_getElem_cons h1, show p - pos = (p - (pos + 1)) + 1 by omega, List.take_succ_cons]
    rw [e]
    constructor
    · rw [List.drop_eq_getElem_cons h1, h3, List.cons_append]
    · simp only [List.mem_cons, not_or]
      exact ⟨fun h => h2 h.symm, h4⟩
  | case3 => cases h

theorem find_none {s : List Char} {pos : Nat} (h : find s pos = none) : ' ' ∉ s.drop pos := by
  fun_induction find with
  | case1 => cases h
  | case2 pos h1 h2 ih =>
    rw [List.drop_eq_getElem_cons h1, List.mem_cons, not_or]
    exact ⟨fun h => h2 h.symm, ih h⟩
  | case3 pos h1 =>
    rw [List.drop_of_length_le (by omega)]
    simp

theorem words_eq (s : List Char) (pos : Nat) (acc : List (List Char)) : words s pos acc = acc ++ splitSpaces (s.drop pos) := by
  fun_induction words with
  | case1 pos acc p h ih =>
    obtain ⟨h1, h2⟩ := find_some h
    rw [ih, h1, splitSpaces_append h2, List.append_assoc, List.singleton_append]
  | case2 pos acc h => rw [splitSpaces_single (find_none h)]

theorem foldl_join (ws : List (List Char)) (acc : List Char) :
    ws.foldl (fun prefixed_options word => prefixed_options ++ (word ++ [' '])) acc = acc ++ joinSpaces ws := by
  induction ws generalizing acc with
  | nil => simp [joinSpaces]
  | cons w ws ih => rw [List.foldl_cons, ih]; simp [joinSpaces]

/-- The words of the result are the words of the options, those that start with a dash with the prefix behind the dash. -/
theorem prefix_words (options pre : List Char) :
    prependOptionsPrefix options pre = joinSpaces ((splitSpaces options).map (prefixWord pre)) := by
  rw [prependOptionsPrefix, words_eq, foldl_join]
  simp

theorem splitSpaces_no_space (s : List Char) : ∀ w ∈ splitSpaces s, ' ' ∉ w := by
  induction s with
  | nil => simp [splitSpaces]
  | cons c s ih =>
    simp only [splitSpaces]
    split
    · simpa using ih
    · rename_i hc
      split
      · rename_i w ws e
        rw [e] at ih
        intro v hv
        rcases List.mem_cons.mp hv with rfl | hv
        · rw [List.mem_cons, not_or]
          exact ⟨fun h => hc h.symm, ih w List.mem_cons_self⟩
        · exact ih v (List.mem_cons_of_mem _ hv)
      · intro v hv
        rw [List.mem_singleton] at hv
        subst hv
        simpa using fun h : ' ' = c => hc h.symm

/-- no word but the words of the options -/
theorem splitSpaces_join (s : List Char) : joinSpaces (splitSpaces s) = s ++ [' '] := by
  induction s with
  | nil => rfl
  | cons c s ih =>
    simp only [splitSpaces]
    split
    · rename_i h
      subst h
      simp only [joinSpaces, List.map_cons, List.flatten_cons, List.nil_append, List.singleton_append, List.cons_append]
      exact congrArg _ ih
    · split
      · rename_i w ws e
        rw [e] at ih
        simpa [joinSpaces] using ih
      · rename_i e
        exact absurd e (splitSpaces_ne_nil s)

theorem join_splitSpaces (ws : List (List Char)) (h : ∀ w ∈ ws, ' ' ∉ w) : splitSpaces (joinSpaces ws) = ws ++ [[]] := by
  induction ws with
  | nil => simp [joinSpaces, splitSpaces]
  | cons w ws ih =>
    have e : joinSpaces (w :: ws) = w ++ ' ' :: joinSpaces ws := by simp [joinSpaces]
    rw [e, splitSpaces_append (h w List.mem_cons_self), ih fun v hv => h v (List.mem_cons_of_mem _ hv), List.cons_append]

/-- Reading the result back gives the prefixed words (and an empty one at the end). -/
theorem prefix_read_back (options pre : List Char) (hp : ' ' ∉ pre) :
    splitSpaces (prependOptionsPrefix options pre) = (splitSpaces options).map (prefixWord pre) ++ [[]] := by
  rw [prefix_words]
  apply join_splitSpaces
  intro w hw
  obtain ⟨v, hv, rfl⟩ := List.mem_map.mp hw
  have := splitSpaces_no_space options v hv
  unfold prefixWord
  split
  · rename_i rest
    simp only [List.mem_cons, not_or] at this
    simp only [List.mem_cons, List.mem_append, not_or]
    exact ⟨this.1, hp, this.2⟩
  · exact this

/-- Without a prefix the options do not change, but for a space at the end. -/
theorem prefix_empty (options : List Char) : prependOptionsPrefix options [] = options ++ [' '] := by
  have : prefixWord [] = id := by
    funext w
    unfold prefixWord
    split <;> simp
  rw [prefix_words, this, List.map_id, splitSpaces_join]

/-- One prefix after the other is the concatenated prefix. -/
theorem prefixWord_twice (p q w : List Char) : prefixWord q (prefixWord p w) = prefixWord (q ++ p) w := by
  unfold prefixWord
  split
  · split at * <;> simp_all
  · split at * <;> simp_all

/-- Different options stay different. -/
theorem prefix_injective (pre : List Char) (hp : ' ' ∉ pre) {s t : List Char}
    (h : prependOptionsPrefix s pre = prependOptionsPrefix t pre) : s = t := by
  have hw : ∀ v w, prefixWord pre v = prefixWord pre w → v = w := by
    intro v w e
    unfold prefixWord at e
    split at e <;> split at e
    · simp_all
    · rename_i h1; exact absurd e.symm (h1 _)
    · rename_i h1 _ _; exact absurd e (h1 _)
    · exact e
  have h1 := congrArg splitSpaces h
  rw [prefix_read_back _ _ hp, prefix_read_back _ _ hp] at h1
  have h2 := List.append_cancel_right h1
  have h3 : splitSpaces s = splitSpaces t := List.map_inj_right hw |>.mp h2
  have h4 := congrArg joinSpaces h3
  rw [splitSpaces_join, splitSpaces_join] at h4
  exact List.append_cancel_right h4

/-- The prefix goes to the names of options and nothing else if no value starts with a dash. -/
theorem prefix_keys_partial (options pre : List Char) (h : ∀ w ∈ splitSpaces options, w.head? = some '-' → isKey w = true) :
    prependOptionsPrefix options pre = joinSpaces ((splitSpaces options).map (withPrefix pre)) := by
  rw [prefix_words]
  congr 1
  apply List.map_congr_left
  intro w hw
  unfold prefixWord withPrefix
  split
  · rename_i rest
    rw [if_pos (h _ hw rfl)]
    rfl
  · rename_i h1
    rw [if_neg]
    intro hk
    unfold isKey at hk
    split at hk
    · exact h1 _ rfl
    · cases hk

/-- A negative value is taken for an option, and corrupted. -/
theorem prefix_corrupts_values : prependOptionsPrefix "-shift -1".toList "mito_".toList = "-mito_shift -mito_1 ".toList ∧
    joinSpaces ((splitSpaces "-shift -1".toList).map (withPrefix "mito_".toList)) = "-mito_shift -1 ".toList := by
  rw [prefix_words]
  decide

/-- Only spaces separate options: behind a tabulator, an option gets no prefix. -/
theorem prefix_misses_tab : prependOptionsPrefix "-a\t-b".toList "p_".toList = "-p_a\t-b ".toList := by
  rw [prefix_words]
  decide

/-- the options of the tests -/
example : prependOptionsPrefix "-ksp_type preonly -pc_type cholesky".toList "mysolver_".toList =
    "-mysolver_ksp_type preonly -mysolver_pc_type cholesky ".toList := by
  rw [prefix_words]
  decide

example : ∀ w ∈ splitSpaces "-ksp_type preonly -pc_type cholesky".toList, w.head? = some '-' → isKey w = true := by decide

end Mito.Options
