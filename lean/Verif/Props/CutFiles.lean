import Verif.IO.CutLemmas

/-!
# Files that are cut at a character (C139)

C91 is about files that are cut between tokens.  A file may be cut within a number too.
-/

namespace Mito.Printing

open Mito.Summit Mito.Numbering

variable {D type V : Nat} {coords : Nat → List ℚ} {order : List (Nat × Nat)} {cells : List Cell}

theorem words_tail (X : List Char) (ns : List Nat) (a b : Nat) :
    words (X ++ ' ' :: (ns.flatMap (fun i => formatNat i ++ [' ']) ++ (formatNat a ++ ' ' :: (formatNat b ++ ' ' :: ['\n'])))) =
      (words X ++ words (ns.flatMap fun i => formatNat i ++ [' '])) ++ [formatNat a, formatNat b] := by
  have hs : isSpace ' ' = true := by decide
  rw [words_append hs, (Ended.flatMap ns fun i _ => Ended.snoc (formatNat i) hs).1.words, words_append hs, words_append hs,
    words_single (NoSpace.formatNat a) (formatNat_ne a), words_single (NoSpace.formatNat b) (formatNat_ne b), show words ['\n'] = [] by decide]
  simp

/-- the last two words of a file are the last node of the last cell and the label -/
theorem words_last (hV0 : 0 < V) (hcells : cells ≠ []) (ho : order.Perm (points cells)) (hV : ∀ c ∈ cells, c.length = V)
    {text : List Char} (hw : writeChars D type coords [] order cells = some text) :
    ∃ front cs ns i, words text = front ++ [formatNat (i + 1), formatNat 1] ∧ (cells.map fun c => c.map (fileIndex cells)) = cs ++ [ns ++ [i]] := by
  have hs : isSpace ' ' = true := by decide
  have hn : isSpace '\n' = true := by decide
  have hne : (cells.map fun c => c.map (fileIndex cells)) ≠ [] := by simpa using hcells
  have hlen : ∀ c ∈ cells.map fun c => c.map (fileIndex cells), c.length = V := by
    intro c hc
    obtain ⟨a, ha, rfl⟩ := List.mem_map.mp hc
    rw [List.length_map, hV a ha]
  rw [writeChars_eq ho, Option.some.injEq] at hw
  have e : (cells.map fun c => c.map fun n => fileIndex cells n + 1) = (cells.map fun c => c.map (fileIndex cells)).map fun c => c.map (· + 1) := by
    simp [Function.comp_def]
  rw [e] at hw
  generalize (cells.map fun c => c.map (fileIndex cells)) = lines at *
  obtain ⟨cs, c, rfl⟩ := List.eq_nil_or_concat lines |>.resolve_left hne
  simp only [List.concat_eq_append] at *
  have hc : c ≠ [] := by
    rintro rfl
    have := hlen [] (by simp)
    simp at this
    omega
  obtain ⟨ns, i, rfl⟩ := List.eq_nil_or_concat c |>.resolve_left hc
  simp only [List.concat_eq_append] at *
  simp only [List.map_append, List.map_cons, List.map_nil, List.flatMap_append, List.flatMap_cons, List.flatMap_nil, List.append_nil] at hw
  have h := words_tail (formatNat D ++ ['\n'] ++ formatNat (firsts (meshPoints cells)).length ++ [' '] ++
      formatNat cells.length ++ [' '] ++ formatNat 1 ++ ['\n'] ++
      ((firsts (meshPoints cells)).map fun p => (coords p).map formatDouble).flatMap (fun w => w.flatMap (fun x => x ++ [' ']) ++ ['\n']) ++
      (cs.map fun c => c.map (· + 1)).flatMap (fun ids =>
        formatNat type ++ [' '] ++ ids.flatMap (fun i => formatNat i ++ [' ']) ++ formatNat 1 ++ [' '] ++ ['\n']) ++ formatNat type) (ns.map (· + 1)) (i + 1) 1
  refine ⟨_, cs, ns, i, (congrArg words (?_ : text = _)).trans h, rfl⟩
  rw [← hw]
  simp only [List.append_assoc, List.cons_append, List.nil_append]

/-- a token in place of the label or of one before it: there are not enough tokens -/
theorem not_ok_short (ht : type ≠ 0) {nodes : List (List ℚ)} {read : List (List Nat)} (hne : read ≠ []) {rest : List Token} (k : Nat) (last : List Token)
    (hl : last.length ≤ 1) (hk : k + last.length + 2 ≤ 4 + D * nodes.length + read.length * (V + 2)) (r : List (List ℚ) × List (List Nat)) :
    reader D type V (([Token.num (D : ℚ), .num nodes.length, .num read.length, .num 1] ++ rest).take k ++ last) ≠ .ok r := by
  intro h
  obtain ⟨nodes', read'⟩ := r
  obtain ⟨-, -, rest', he⟩ := reader_valid h
  have hn0 : 0 < read.length := List.length_pos_iff.mpr hne
  have hlen := congrArg List.length he
  simp only [List.length_append, List.length_take, List.length_cons, List.length_nil] at hlen
  have hk3 : 3 ≤ k := by omega
  obtain ⟨j, rfl⟩ : ∃ j, k = j + 3 := ⟨k - 3, by omega⟩
  simp only [List.cons_append, List.nil_append, List.take_succ_cons, List.cons.injEq, Token.num.injEq, Nat.cast_inj] at he
  obtain ⟨-, e1, e2, -⟩ := he
  have hne' : read' ≠ [] := by
    rintro rfl
    simp at e2
    exact hne e2
  have := reader_tokens ht h hne'
  rw [← e1, ← e2, List.length_append] at this
  have h3 := List.length_take_le (j + 3) ([Token.num (D : ℚ), .num nodes.length, .num read.length, .num 1] ++ rest)
  omega

/-- the last tokens of a file -/
theorem tokens_last (A : List Token) (cs : List (List Nat)) (ns : List Nat) :
    ∃ Z, ∀ i, A ++ cellTokens type (cs ++ [ns ++ [i]]) = Z ++ [.num (i + 1 : Nat), .num 1] :=
  ⟨A ++ (cellTokens type cs ++ (.num type :: ns.map fun n : Nat => Token.num (n + 1 : Nat))), fun i => by simp [cellTokens]⟩

/-- **C139.**  Reading a file that is cut after `n` characters.  The mesh is not read unless all words, or all but the last one, are there,
perhaps in part.  If all are there then the mesh is read as it was written.  If the label of the last cell is missing, then it is too, but the
last node of the last cell may have lost digits: another node takes its place. -/
theorem chars_cut (hD0 : 0 < D) (hV0 : 0 < V) (ht : type ≠ 0) (hcells : cells ≠ []) (ho : order.Perm (points cells)) (hV : ∀ c ∈ cells, c.length = V)
    (hD : ∀ p ∈ meshPoints cells, (coords p).length = D) {text : List Char} (hw : writeChars D type coords [] order cells = some text)
    {nodes : List (List ℚ)} {read : List (List Nat)} (hr : reader D type V (tokens text) = .ok (nodes, read)) (n : Nat) :
    ((words (text.take n)).length + 1 < (words text).length → ∀ r, reader D type V (tokens (text.take n)) ≠ .ok r) ∧
    ((words (text.take n)).length + 1 = (words text).length → ∃ cs ns i j, read = cs ++ [ns ++ [i]] ∧ (i + 1) / 10 ^ j ≠ 0 ∧
      reader D type V (tokens (text.take n)) = .ok (nodes, cs ++ [ns ++ [(i + 1) / 10 ^ j - 1]])) ∧
    ((words text).length ≤ (words (text.take n)).length → reader D type V (tokens (text.take n)) = .ok (nodes, read)) := by
  have htok := chars_tokens D type coords [] order cells
  rw [hw, tokens_nil, Option.map_some] at htok
  obtain ⟨hparts, h2, h3, h4, h5⟩ := write_parts ho hV hD htok.symm hr
  have hread : read = cells.map fun c => c.map (fileIndex cells) := by
    have := summit_read_write ho hV hD _ htok.symm
    rw [hr] at this
    simpa using congrArg (fun o => match o with | Outcome.ok r => r.2 | _ => []) this
  obtain ⟨front, cs, ns, i, hwords, hlines⟩ := words_last hV0 hcells ho hV hw
  rw [← hread] at hlines
  have hne : read ≠ [] := by rw [hlines]; simp
  have hl := vertices_length h2
  have hc := cellTokens_length (type := type) read h3
  have hL : (words text).length = 4 + (D * nodes.length + read.length * (V + 2)) := by
    have := congrArg List.length hparts
    rw [tokens, List.length_map] at this
    rw [this, List.length_append, List.length_append, hl, hc]
    rfl
  have hn0 : 0 < read.length := List.length_pos_iff.mpr hne
  have hpos : V + 2 ≤ read.length * (V + 2) := Nat.le_mul_of_pos_left _ hn0
  obtain ⟨k, p, g1, g2, g3⟩ := wordsFrom_take [] text n
  change words (text.take n) = (words text).take k ++ _ at g1
  change k ≤ (words text).length at g2
  change p ≠ [] → ∃ q, (words text)[k]? = some (p ++ q) at g3
  have htk : tokens (text.take n) = (tokens text).take k ++ (if p = [] then [] else [tokenOf p]) := by
    rw [tokens, g1, List.map_append, List.map_take, tokens]
    split_ifs <;> rfl
  have hm : (words (text.take n)).length = k + (if p = [] then 0 else 1) := by
    rw [g1, List.length_append, List.length_take, min_eq_left g2]
    split_ifs <;> rfl
  have hfl : front.length + 2 = (words text).length := by rw [hwords]; simp
  rw [hm, htk]
  refine ⟨fun hlt r => ?_, fun heq => ?_, fun hge => ?_⟩
  · rw [hparts]
    have e : (if p = [] then 0 else 1) = (if p = [] then ([] : List Token) else [tokenOf p]).length := by split_ifs <;> rfl
    rw [e] at hlt
    refine not_ok_short ht hne k _ (by split_ifs <;> simp) (by omega) r
  · by_cases hp : p = []
    · refine ⟨cs, ns, i, 0, hlines, by simp, ?_⟩
      simp only [hp, if_true, List.append_nil] at heq ⊢
      have := summit_truncated hD0 ht hcells ho hV hD htok.symm hr k (by rw [tokens, List.length_map]; omega)
      rw [tokens, List.length_map] at this
      rw [tokens, this, if_pos (by omega), hlines]
      simp
    · simp only [if_neg hp] at heq ⊢
      obtain ⟨q, hq⟩ := g3 hp
      have hk : k = front.length := by omega
      rw [hwords, hk, List.getElem?_append_right (by omega)] at hq
      simp only [Nat.sub_self, List.getElem?_cons_zero, Option.some.injEq] at hq
      obtain ⟨t1, t2⟩ := natDigits_prefix (by omega) hp hq
      refine ⟨cs, ns, i, q.length, hlines, t2, ?_⟩
      rw [t1]
      generalize hv : (i + 1) / 10 ^ q.length = v at *
      have hvi : v ≤ i + 1 := by rw [← hv]; exact Nat.div_le_self _ _
      have hvr : (cs ++ [ns ++ [v - 1]]).length = read.length := by rw [hlines]; simp
      have key := reader_without_label (D := D) (type := type) (V := V) (nodes := nodes) (read := cs ++ [ns ++ [v - 1]]) hD0 ht (by simp) h2
        (fun c hc => by
          rw [List.mem_append, List.mem_singleton] at hc
          rcases hc with hc | rfl
          · exact h3 c (by rw [hlines]; simp [hc])
          · have := h3 (ns ++ [i]) (by rw [hlines]; simp)
            simpa using this)
        (fun c hc j hj => by
          rw [List.mem_append, List.mem_singleton] at hc
          rcases hc with hc | rfl
          · exact h4 c (by rw [hlines]; simp [hc]) j hj
          · rw [List.mem_append, List.mem_singleton] at hj
            rcases hj with hj | rfl
            · exact h4 (ns ++ [i]) (by rw [hlines]; simp) j (by simp [hj])
            · have := h4 (ns ++ [i]) (by rw [hlines]; simp) i (by simp)
              omega)
      rw [hvr] at key
      rw [← key]
      congr 1
      obtain ⟨Z, hZ⟩ := tokens_last (type := type) ([Token.num (D : ℚ), .num nodes.length, .num read.length, .num 1] ++
        (nodes.flatMap fun p => p.map Token.num)) cs ns
      have e1 : tokens text = Z ++ [.num (i + 1 : Nat), .num 1] := by
        rw [← hZ, ← hlines, List.append_assoc, ← hparts]
      have hZl : Z.length = k := by
        have := congrArg List.length e1
        rw [tokens, List.length_map, List.length_append] at this
        simp at this
        omega
      have e2 := hZ (v - 1)
      rw [Nat.sub_add_cancel (by omega)] at e2
      rw [e1, List.take_left' hZl]
      have e3 := congrArg (List.take (4 + (D * nodes.length + read.length * (V + 2) - 1))) e2
      rw [List.append_assoc, List.take_append] at e3
      rw [List.take_of_length_le (by simp)] at e3
      simp only [List.length_cons, List.length_nil] at e3
      rw [show 4 + (D * nodes.length + read.length * (V + 2) - 1) - (0 + 1 + 1 + 1 + 1) = D * nodes.length + read.length * (V + 2) - 1 by omega] at e3
      rw [e3, List.take_append, List.take_of_length_le (by omega),
        show 4 + (D * nodes.length + read.length * (V + 2) - 1) - Z.length = 1 by omega]
      rfl
  · by_cases hp : p = []
    · simp only [hp, if_true, List.append_nil] at hge ⊢
      rw [List.take_of_length_le (by rw [tokens, List.length_map]; omega), hr]
    · simp only [if_neg hp] at hge ⊢
      obtain ⟨q, hq⟩ := g3 hp
      have hlt := (List.getElem?_eq_some_iff.mp hq).1
      have hk : k = front.length + 1 := by omega
      have h1 : formatNat 1 = ['1'] := by decide +kernel
      have hpw : (words text)[k] = p := by
        have := hq
        rw [hwords, hk, List.getElem?_append_right (by omega)] at this
        simp only [Nat.add_sub_cancel_left, List.getElem?_cons_succ, List.getElem?_cons_zero, Option.some.injEq, h1] at this
        match p, hp with
        | c :: p, _ =>
          simp only [List.cons_append, List.cons.injEq, List.nil_eq, List.append_eq_nil_iff] at this
          obtain ⟨rfl, rfl, rfl⟩ := this
          rw [List.getElem?_eq_getElem hlt] at hq
          simpa using hq
      have e : (tokens text).take k ++ [tokenOf p] = tokens text := by
        have hlt' : k < (tokens text).length := by rw [tokens, List.length_map]; exact hlt
        have : (tokens text)[k] = tokenOf p := by
          simp only [tokens, List.getElem_map, hpw]
        rw [← this, List.take_append_getElem, List.take_of_length_le (by rw [tokens, List.length_map]; omega)]
      rw [e, hr]

/-- **C139.**  Up to nine nodes every file that is cut somewhere is refused or read as the mesh that was written. -/
theorem small_cut (hD0 : 0 < D) (hV0 : 0 < V) (ht : type ≠ 0) (hcells : cells ≠ []) (ho : order.Perm (points cells)) (hV : ∀ c ∈ cells, c.length = V)
    (hD : ∀ p ∈ meshPoints cells, (coords p).length = D) {text : List Char} (hw : writeChars D type coords [] order cells = some text)
    {nodes : List (List ℚ)} {read : List (List Nat)} (hr : reader D type V (tokens text) = .ok (nodes, read)) (hnine : nodes.length ≤ 9) (n : Nat)
    {r : List (List ℚ) × List (List Nat)} (h : reader D type V (tokens (text.take n)) = .ok r) : r = (nodes, read) := by
  obtain ⟨h1, h2, h3⟩ := chars_cut hD0 hV0 ht hcells ho hV hD hw hr n
  rcases Nat.lt_trichotomy ((words (text.take n)).length + 1) (words text).length with hlt | heq | hgt
  · exact absurd h (h1 hlt r)
  · obtain ⟨cs, ns, i, j, e1, e2, e3⟩ := h2 heq
    rw [e3] at h
    have hi := ((reader_valid hr).2.1 (ns ++ [i]) (by rw [e1]; simp)).2 i (by simp)
    have hj : j = 0 := by
      by_contra hj
      refine e2 (Nat.div_eq_of_lt ?_)
      have : 10 ^ 1 ≤ 10 ^ j := Nat.pow_le_pow_right (by norm_num) (by omega)
      omega
    subst hj
    simp only [pow_zero, Nat.div_one, Nat.add_sub_cancel, ← e1, Outcome.ok.injEq] at h
    exact h.symm
  · rw [h3 (by omega)] at h
    exact (Outcome.ok.inj h).symm

/-- nine segments in a row -/
def exRow : List Cell := (List.range 9).map fun i => [⟨i, i⟩, ⟨i + 1, i + 1⟩]

/-- **C139, the code.**  With ten nodes this is not so: without the last five characters of the file the last segment ends at the first
node in place of the tenth one, and nothing is noticed. -/
theorem digit_lost : ∃ text, writeChars 1 2 (fun p => [(p : ℚ)]) [] (points exRow) exRow = some text ∧
    reader 1 2 2 (tokens text) = .ok ((List.range 10).map fun p => [(p : ℚ)], (List.range 9).map fun i => [i, i + 1]) ∧
    reader 1 2 2 (tokens (text.take (text.length - 5))) =
      .ok ((List.range 10).map fun p => [(p : ℚ)], ((List.range 8).map fun i => [i, i + 1]) ++ [[8, 0]]) := by
  refine ⟨_, rfl, ?_, ?_⟩ <;> decide +kernel

end Mito.Printing
