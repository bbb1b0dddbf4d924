import Verif.IO.CutCharsLemmas
import Verif.Props.CutFiles

/-!
# Reading the characters of a file (C140)

C46, C91 and C138 are about a reader that is given one number after the other.  `>>` takes them from the characters.
-/

namespace Mito.Printing

open Mito.Summit Mito.Numbering

variable {D type V : Nat} {coords : Nat → List ℚ} {order : List (Nat × Nat)} {cells : List Cell}

/-- the words of a file -/
theorem words_file (ho : order.Perm (points cells)) {text : List Char} (hw : writeChars D type coords [] order cells = some text) :
    words text = formatNat D :: formatNat (firsts (meshPoints cells)).length :: formatNat cells.length :: formatNat 1 ::
      (((firsts (meshPoints cells)).flatMap fun p => (coords p).map formatDouble) ++
        (cells.map fun c => c.map (fileIndex cells)).flatMap (cellWords type)) := by
  have hs : isSpace ' ' = true := by decide
  have hn : isSpace '\n' = true := by decide
  rw [writeChars_eq ho, Option.some.injEq] at hw
  have hfn : ∀ n, words (formatNat n) = [formatNat n] := fun n => words_single (NoSpace.formatNat n) (formatNat_ne n)
  have hfd : ∀ q, words (formatDouble q) = [formatDouble q] := fun q => words_single (NoSpace.formatDouble q) (formatDouble_ne q)
  have hp2 : ∀ l : List ℚ, words (l.flatMap (fun x => formatDouble x ++ [' ']) ++ ['\n']) = l.map formatDouble := by
    intro l
    rw [words_snoc _ hn, words_flatMap l fun x _ => Ended.snoc (formatDouble x) hs]
    simp only [words_snoc _ hs, hfd]
    rw [List.flatMap_def, flatten_singles]
  have hq2 : ∀ ids : List Nat, words (formatNat type ++ [' '] ++ ids.flatMap (fun i => formatNat i ++ [' ']) ++ formatNat 1 ++ [' '] ++ [] ++ ['\n']) =
      formatNat type :: ids.map formatNat ++ [formatNat 1] := by
    intro ids
    have hi := (Ended.flatMap ids fun i _ => Ended.snoc (formatNat i) hs).1
    rw [List.append_nil, words_snoc _ hn, words_snoc _ hs, ((Ended.snoc (formatNat type) hs).append hi).words, (Ended.snoc (formatNat type) hs).words,
      words_snoc _ hs, words_flatMap ids fun i _ => Ended.snoc (formatNat i) hs]
    simp only [words_snoc _ hs, hfn]
    rw [List.flatMap_def, flatten_singles]
    simp
  have h1 := Ended.snoc (formatNat D) hn
  have h2 := Ended.snoc (formatNat (firsts (meshPoints cells)).length) hs
  have h3 := Ended.snoc (formatNat cells.length) hs
  have h4 := Ended.snoc (formatNat 1) hn
  have hP : ∀ l ∈ (firsts (meshPoints cells)).map fun p => (coords p).map formatDouble, Ended (l.flatMap (fun x => x ++ [' ']) ++ ['\n']) :=
    fun l _ => Ended.snoc _ hn
  have hQ : ∀ ids ∈ cells.map fun c => c.map fun n => fileIndex cells n + 1,
      Ended (formatNat type ++ [' '] ++ ids.flatMap (fun i => formatNat i ++ [' ']) ++ formatNat 1 ++ [' '] ++ [] ++ ['\n']) := fun ids _ => Ended.snoc _ hn
  have e2 : formatNat D ++ ['\n'] ++ formatNat (firsts (meshPoints cells)).length ++ [' '] ++ formatNat cells.length ++ [' '] ++ formatNat 1 ++ ['\n'] =
      (formatNat D ++ ['\n']) ++ ((formatNat (firsts (meshPoints cells)).length ++ [' ']) ++ ((formatNat cells.length ++ [' ']) ++ (formatNat 1 ++ ['\n']))) := by
    simp only [List.append_assoc]
  have hh := h1.append (h2.append (h3.append h4))
  rw [← hw, e2, (hh.append (Ended.flatMap _ hP).1).words, hh.words, h1.words, h2.words, h3.words, words_flatMap _ hP, words_flatMap _ hQ]
  simp only [hq2]
  simp only [List.flatMap_map, hp2]
  simp only [words_snoc _ hn, words_snoc _ hs, hfn]
  simp [cellWords, Function.comp_def, List.flatMap_def]

/-- **C140.**  A written file is read from its characters as from its tokens, if the numbers of nodes and cells are numbers of type `int`. -/
theorem reader_chars (hD0 : D ≤ intMax) (ht : type ≤ intMax) (ho : order.Perm (points cells)) (hV : ∀ c ∈ cells, c.length = V)
    (hD : ∀ p ∈ meshPoints cells, (coords p).length = D) (hN : (firsts (meshPoints cells)).length ≤ intMax) (hC : cells.length ≤ intMax)
    {text : List Char} (hw : writeChars D type coords [] order cells = some text) :
    readerChars D type V text = reader D type V (tokens text) ∧
      readerChars D type V text = .ok ((firsts (meshPoints cells)).map fun p => (coords p).map decimal, cells.map fun c => c.map (fileIndex cells)) := by
  have htok := chars_tokens D type coords [] order cells
  rw [hw, tokens_nil, Option.map_some] at htok
  have hread := summit_read_write ho hV hD _ htok.symm
  suffices h : readerChars D type V text =
      .ok ((firsts (meshPoints cells)).map fun p => (coords p).map decimal, cells.map fun c => c.map (fileIndex cells)) by
    exact ⟨by rw [h, hread], h⟩
  obtain ⟨r1, a1, b1⟩ := readIntChars_word (words_file ho hw) hD0
  obtain ⟨r2, a2, b2⟩ := readIntChars_word b1 hN
  obtain ⟨r3, a3, b3⟩ := readIntChars_word b2 hC
  obtain ⟨r4, a4, b4⟩ := readIntChars_word b3 (by decide)
  have hlen : ∀ p ∈ firsts (meshPoints cells), (coords p).length = D := fun p hp => hD p (mem_firsts.mp hp)
  obtain ⟨r5, a5, b5⟩ := manyChars_words (read := manyChars readDoubleChars D)
    ((firsts (meshPoints cells)).map fun p => ((coords p).map decimal, (coords p).map formatDouble))
    (fun x hx text ws h => by
      obtain ⟨p, hp, rfl⟩ := List.mem_map.mp hx
      obtain ⟨r, c1, c2⟩ := manyChars_words (read := readDoubleChars) ((coords p).map fun q => (decimal q, [formatDouble q]))
        (fun x hx text ws h => by
          obtain ⟨q, hq, rfl⟩ := List.mem_map.mp hx
          exact readDoubleChars_word h (number_read q)) text ws (by
            rw [h, List.flatMap_map]
            congr 1
            rw [List.flatMap_def, flatten_singles])
      rw [List.length_map, hlen p hp, List.map_map] at c1
      exact ⟨r, c1, c2⟩)
    r4 ((cells.map fun c => c.map (fileIndex cells)).flatMap (cellWords type)) (by
      rw [b4]
      congr 1
      rw [List.flatMap_map])
  have hr : ∀ c ∈ cells.map (fun c => c.map (fileIndex cells)), ∀ i ∈ c, i < (firsts (meshPoints cells)).length := by
    intro c hc i hi
    obtain ⟨a, ha, rfl⟩ := List.mem_map.mp hc
    obtain ⟨n, hn, rfl⟩ := List.mem_map.mp hi
    exact idxOf_firsts_lt (mem_meshPoints ha hn)
  obtain ⟨s, a6⟩ := elementsChars_words ht hN (cells.map fun c => c.map (fileIndex cells)) (fun c hc => by
    obtain ⟨a, ha, rfl⟩ := List.mem_map.mp hc
    rw [List.length_map, hV a ha]) hr r5 b5
  rw [List.length_map] at a5 a6
  rw [List.map_map] at a5
  have hneg : ¬ ((firsts (meshPoints cells)).length : Int) < 0 := by omega
  simp only [readerChars, a1, a2, a3, a4, Int.toNat_natCast, ne_eq, not_true_eq_false, if_false, if_neg hneg, Nat.cast_one]
  rw [a5]
  simp only [Function.comp_def, List.length_map, a6, not_true_eq_false, if_false]

/-- **C140.**  This is also so for a file that is cut after any character; what is read from it is in C139. -/
theorem cut_chars (hD0 : D ≤ intMax) (ht0 : type ≠ 0) (ht : type ≤ intMax) (ho : order.Perm (points cells)) (hV : ∀ c ∈ cells, c.length = V)
    (hD : ∀ p ∈ meshPoints cells, (coords p).length = D) (hN : (firsts (meshPoints cells)).length ≤ intMax) (hC : cells.length ≤ intMax)
    {text : List Char} (hw : writeChars D type coords [] order cells = some text) (n : Nat) :
    readerChars D type V (text.take n) = reader D type V (tokens (text.take n)) := by
  have hws := words_file ho hw
  have hlen : ∀ p ∈ firsts (meshPoints cells), (coords p).length = D := fun p hp => hD p (mem_firsts.mp hp)
  have hr : ∀ c ∈ cells.map (fun c => c.map (fileIndex cells)), c.length = V ∧ ∀ i ∈ c, i < (firsts (meshPoints cells)).length := by
    intro c hc
    obtain ⟨a, ha, rfl⟩ := List.mem_map.mp hc
    refine ⟨by rw [List.length_map, hV a ha], fun i hi => ?_⟩
    obtain ⟨n, hn, rfl⟩ := List.mem_map.mp hi
    exact idxOf_firsts_lt (mem_meshPoints ha hn)
  have hfull : List.Forall₂ (fun k w => Kind.Written type k w) (fileKinds D V (firsts (meshPoints cells)).length cells.length) (words text) := by
    rw [hws, fileKinds]
    simp only [List.cons_append, List.nil_append]
    refine .cons ⟨_, IntWord.format hD0⟩ (.cons ⟨_, IntWord.format hN⟩ (.cons ⟨_, IntWord.format hC⟩ (.cons ⟨1, IntWord.format (by decide)⟩
      (List.rel_append ?_ ?_))))
    · refine forall₂_blocks _ fun p hp => ?_
      have := forall₂_blocks (R := fun k w => Kind.Written type k w) (L := [.double]) (f := fun q => [formatDouble q]) (coords p) fun q _ =>
        .cons ⟨_, number_read q⟩ .nil
      rw [hlen p hp] at this
      rwa [List.flatMap_def, flatten_singles] at this
    · have := forall₂_blocks (R := fun k w => Kind.Written type k w) (L := cellKinds V) (f := cellWords type)
        (cells.map fun c => c.map (fileIndex cells)) fun c hc => cellWords_written ht hN (hr c hc).1 (hr c hc).2
      rwa [List.length_map] at this
  obtain ⟨k, p, g1, -, g3⟩ := wordsFrom_take [] text n
  change words (text.take n) = (words text).take k ++ _ at g1
  change p ≠ [] → ∃ q, (words text)[k]? = some (p ++ q) at g3
  refine readers_same ht0 (by rw [g1]; exact fits_cut hfull k p g3) (fun h4 => ?_) hN hC
  rw [g1, hws] at h4 ⊢
  have hk : 3 ≤ k := by
    rw [List.length_append, List.length_take] at h4
    split_ifs at h4 <;> simp at h4 <;> omega
  obtain ⟨j, rfl⟩ : ∃ j, k = j + 3 := ⟨k - 3, by omega⟩
  simp only [List.take_succ_cons, List.cons_append, List.length_cons] at h4 ⊢
  match hrest : List.take j _ ++ (if p = [] then [] else [p]) with
  | [] =>
    rw [hrest] at h4
    simp at h4
  | w3 :: ws => exact ⟨_, w3, ws, rfl⟩

theorem readIntChars_failed (s : List Char) : readIntChars ⟨s, true⟩ = (0, ⟨s, true⟩) := rfl

/-- **C140.**  Files of meshes with more cells or nodes than there are positive numbers of type `int` are written but not read. -/
theorem too_many (hD0 : D ≤ intMax) (ho : order.Perm (points cells))
    (h : intMax < (firsts (meshPoints cells)).length ∨ intMax < cells.length)
    {text : List Char} (hw : writeChars D type coords [] order cells = some text) : readerChars D type V text = .assertion := by
  obtain ⟨r1, a1, b1⟩ := readIntChars_word (words_file ho hw) hD0
  by_cases hN : (firsts (meshPoints cells)).length ≤ intMax
  · obtain ⟨r2, a2, b2⟩ := readIntChars_word b1 hN
    obtain ⟨r3, a3⟩ := readIntChars_large b2 (h.resolve_left (by omega))
    have hneg : ¬ ((firsts (meshPoints cells)).length : Int) < 0 := by omega
    simp [readerChars, a1, a2, a3, readIntChars_failed, hneg]
  · obtain ⟨r2, a2⟩ := readIntChars_large b1 (Nat.lt_of_not_le hN)
    have hneg : ¬ (intMax : Int) < 0 := by decide
    simp [readerChars, a1, a2, readIntChars_failed, hneg]

theorem manyChars_length {α : Type} (read : CharStream → α × CharStream) (n : Nat) (s : CharStream) : (manyChars read n s).1.length = n := by
  induction n generalizing s with
  | zero => rfl
  | succ n ih => simp [manyChars, ih]

theorem elementsChars_valid {N n : Nat} {s s' : CharStream} {cs : List (List Nat)} (h : elementsChars type V N n s = some (cs, s')) :
    ∀ c ∈ cs, c.length = V ∧ ∀ i ∈ c, i < N := by
  induction n generalizing s cs with
  | zero =>
    simp only [elementsChars, Option.some.injEq, Prod.mk.injEq] at h
    rw [← h.1]
    simp
  | succ n ih =>
    rw [elementsChars] at h
    simp only at h
    split at h
    · split at h
      · simp at h
      · rename_i c hc
        split at h
        · simp at h
        · rename_i cs' s3 hel
          simp only [Option.some.injEq, Prod.mk.injEq] at h
          obtain ⟨rfl, rfl⟩ := h
          intro d hd
          rw [List.mem_cons] at hd
          rcases hd with rfl | hd
          · rw [inRange] at hc
            split at hc
            · rename_i hall
              simp only [Option.some.injEq] at hc
              subst hc
              refine ⟨by simp [manyChars_length], fun i hi => ?_⟩
              obtain ⟨j, hj, rfl⟩ := List.mem_map.mp hi
              have := List.all_eq_true.mp hall j hj
              simp at this
              omega
            · simp at hc
          · exact ih hel d hd
    · exact ih h

/-- **C140.**  Whatever the characters of a file are: what is accepted is a mesh. -/
theorem readerChars_valid {text : List Char} {nodes : List (List ℚ)} {read : List (List Nat)} (h : readerChars D type V text = .ok (nodes, read)) :
    (∀ p ∈ nodes, p.length = D) ∧ ∀ c ∈ read, c.length = V ∧ ∀ i ∈ c, i < nodes.length := by
  unfold readerChars at h
  simp only at h
  split at h
  · simp at h
  split at h
  · simp at h
  split at h
  · simp at h
  split at h
  · simp at h
  rename_i cs s6 hel
  split at h
  · simp at h
  split at h
  · simp at h
  simp only [Outcome.ok.injEq, Prod.mk.injEq] at h
  obtain ⟨rfl, rfl⟩ := h
  refine ⟨?_, elementsChars_valid hel⟩
  have key : ∀ n s, ∀ p ∈ (manyChars (manyChars readDoubleChars D) n s).1, p.length = D := by
    intro n
    induction n with
    | zero => intro s p hp; simp [manyChars] at hp
    | succ n ih =>
      intro s p hp
      simp only [manyChars, List.mem_cons] at hp
      rcases hp with rfl | hp
      · exact manyChars_length _ _ _
      · exact ih _ _ hp
  exact key _ _

/-- **C140.**  Integers with a sign: those from `-2^31` on are read; less than this is the least integer, and the stream has failed. -/
theorem signed_ints {text : List Char} {n : Nat} {ws : List (List Char)} :
    (words text = ('+' :: formatNat n) :: ws → n ≤ intMax → ∃ r, readIntChars ⟨text, false⟩ = ((n : Int), ⟨r, false⟩) ∧ words r = ws) ∧
    (words text = ('-' :: formatNat n) :: ws →
      (n ≤ 2 ^ 31 → ∃ r, readIntChars ⟨text, false⟩ = (-(n : Int), ⟨r, false⟩) ∧ words r = ws) ∧
      (2 ^ 31 < n → ∃ r, readIntChars ⟨text, false⟩ = (-2 ^ 31, ⟨r, true⟩))) := by
  have hd := natDigits_lt n
  have hne : (natDigits n).map digitChar ≠ [] := by simpa using natDigits_ne n
  have hsign : ∀ l, scanSign ('+' :: l) = (false, l) ∧ scanSign ('-' :: l) = (true, l) := fun l => by simp [scanSign]
  refine ⟨fun h hn => ?_, fun h => ⟨fun hn => ?_, fun hn => ?_⟩⟩ <;> obtain ⟨r, h1, -, -, h4, h5⟩ := words_cons h <;>
    obtain ⟨t1, t2⟩ := takeWhile_digits hd (r := r) fun c hc => isDigit_of_space (h4 c hc) <;>
    rw [formatNat, List.cons_append] at h1
  · refine ⟨r, ?_, h5⟩
    simp only [readIntChars, h1, (hsign _).1, t1, t2, map_charDigit hd, natDigits_value, if_neg hne, if_pos hn, Bool.false_eq_true, if_false]
  · refine ⟨r, ?_, h5⟩
    have hn' : n ≤ intMax + 1 := hn.trans (by decide)
    simp only [readIntChars, h1, (hsign _).2, t1, t2, map_charDigit hd, natDigits_value, if_neg hne, if_pos hn', Bool.false_eq_true, if_false, if_true]
  · refine ⟨r, ?_⟩
    have hn' : ¬ n ≤ intMax + 1 := fun h => absurd (h.trans (by decide : intMax + 1 ≤ 2 ^ 31)) (Nat.not_le.mpr hn)
    simp only [readIntChars, h1, (hsign _).2, t1, t2, map_charDigit hd, natDigits_value, if_neg hne, if_neg hn', Bool.false_eq_true, if_false, if_true]
    rfl

/-- **C140.**  A negative number of nodes ends with the exception of `reserve`. -/
theorem negative_nodes (hD0 : D ≤ intMax) {text : List Char} {n : Nat} (hn : 0 < n) {ws : List (List Char)}
    (h : words text = formatNat D :: ('-' :: formatNat n) :: ws) : readerChars D type V text = .throws := by
  obtain ⟨r1, a1, a2⟩ := readIntChars_word h hD0
  have h2 : ∃ (z : Int) (s : CharStream), readIntChars ⟨r1, false⟩ = (z, s) ∧ z < 0 := by
    rcases le_or_gt n (2 ^ 31) with hle | hlt
    · obtain ⟨r, b, -⟩ := (signed_ints.2 a2).1 hle
      exact ⟨_, _, b, by omega⟩
    · obtain ⟨r, b⟩ := (signed_ints.2 a2).2 hlt
      exact ⟨_, _, b, by norm_num⟩
  obtain ⟨z, s, b, hz⟩ := h2
  simp only [readerChars, a1, b, ne_eq, not_true_eq_false, if_false, if_pos hz]

/-- **C140, the code.**  A file that is damaged may be accepted with other coordinates: points and signs begin a new number, and numbers that
run into each other are taken apart again. -/
theorem glued : readerChars 2 3 3 "2\n3 1 1\n0 0 \n1 0.1.5-2 \n3 1 2 3 1 \n".toList = .ok ([[0, 0], [1, 1 / 10], [1 / 2, -2]], [[0, 1, 2]]) ∧
    readerChars 2 3 3 "2\n3 1 1.5 0 \n1 0 \n0 1 \n3 1 2 3 1 \n".toList = .ok ([[1 / 2, 0], [1, 0], [0, 1]], [[0, 1, 2]]) ∧
    reader 2 3 3 (tokens "2\n3 1 1.5 0 \n1 0 \n0 1 \n3 1 2 3 1 \n".toList) = .assertion := by
  decide +kernel

/-- **C140, the code.**  The file of C139 that lost its last digit is read from its characters as from its tokens. -/
theorem digit_lost_chars : ∃ text, writeChars 1 2 (fun p => [(p : ℚ)]) [] (points exRow) exRow = some text ∧
    readerChars 1 2 2 (text.take (text.length - 5)) =
      .ok ((List.range 10).map fun p => [(p : ℚ)], ((List.range 8).map fun i => [i, i + 1]) ++ [[8, 0]]) := by
  refine ⟨_, rfl, ?_⟩
  decide +kernel

/-- The theorems are not empty: a file is read. -/
example : (writeChars 2 3 exCoords [] (points exCells).reverse exCells).map (readerChars 2 3 3) =
    some (.ok ([[0, 0], [1, 0], [0, 1 / 2], [1, 1]], [[0, 1, 2], [2, 1, 3]])) := by
  decide +kernel

end Mito.Printing
