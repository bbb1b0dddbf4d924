import Verif.IO.CharactersLemmas
import Verif.Props.WrittenCoordinates

/-!
# The characters of written files (C138)

C46 and C137 are about the tokens of files.  Here are the characters.
-/

namespace Mito.Printing

open Mito.Quadrature (rnd)
open Mito.Summit Mito.Numbering

variable {D type V : Nat} {coords : Nat → List ℚ} {order : List (Nat × Nat)} {cells : List Cell}

/-- **C138.**  A number is read as the decimal number with 15 digits that is nearest to it, in whatever notation it is printed. -/
theorem number_read (q : ℚ) : parseNumber (formatDouble q) = some (decimal q) := parseNumber_format q

theorem flatten_singles {α β : Type} (f : α → β) (l : List α) : (l.map fun x => [f x]).flatten = l.map f := by
  induction l with
  | nil => rfl
  | cons a l ih => rw [List.map_cons, List.flatten_cons, ih]; rfl

/-- **C138.**  The words in the characters of a file are its tokens, for all meshes and also if writing fails: numbers do not run into each
other. -/
theorem chars_tokens (D type : Nat) (coords : Nat → List ℚ) (elementType : List Char) (order : List (Nat × Nat)) (cells : List Cell) :
    (writeChars D type coords elementType order cells).map tokens = write D type coords decimal (tokens elementType) order cells := by
  have hs : isSpace ' ' = true := by decide
  have hn : isSpace '\n' = true := by decide
  rw [writeChars, write]
  cases allSome (pointsVector (points cells).length order) with
  | none => rfl
  | some pts =>
    have e : (cells.map (writeCell type (points cells) (tokens elementType))) = cells.map fun c =>
        (allSome (c.map fun n => lookup (points cells) n.point)).map fun ids : List Nat =>
          Token.num type :: ids.map (fun i : Nat => Token.num (i : ℚ)) ++ [Token.num 1] ++ tokens elementType := rfl
    rw [e, allSome_map_map]
    cases allSome (cells.map fun c => allSome (c.map fun n => lookup (points cells) n.point)) with
    | none => rfl
    | some lines =>
      simp only [Option.map_some]
      congr 1
      -- the coordinates
      have hc : ∀ p ∈ pts, Ended ((coords p).flatMap (fun x => formatDouble x ++ [' ']) ++ ['\n']) := fun p _ => Ended.snoc _ hn
      have hp := Ended.flatMap pts hc
      have hp2 : ∀ p, tokens ((coords p).flatMap (fun x => formatDouble x ++ [' ']) ++ ['\n']) = (coords p).map fun x => Token.num (decimal x) := by
        intro p
        rw [tokens_snoc _ hn, (Ended.flatMap (coords p) fun x _ => Ended.snoc (formatDouble x) hs).2]
        simp only [tokens_snoc _ hs, tokens_formatDouble]
        rw [List.flatMap_def, flatten_singles]
      -- the cells
      have hl : ∀ ids ∈ lines, Ended (formatNat type ++ [' '] ++ ids.flatMap (fun i => formatNat i ++ [' ']) ++ formatNat 1 ++ [' '] ++ elementType ++ ['\n']) :=
        fun ids _ => Ended.snoc _ hn
      have hq := Ended.flatMap lines hl
      have hq2 : ∀ ids : List Nat, tokens (formatNat type ++ [' '] ++ ids.flatMap (fun i => formatNat i ++ [' ']) ++ formatNat 1 ++ [' '] ++ elementType ++ ['\n']) =
          Token.num type :: ids.map (fun i : Nat => Token.num (i : ℚ)) ++ [Token.num 1] ++ tokens elementType := by
        intro ids
        have hi := Ended.flatMap ids fun i _ => Ended.snoc (formatNat i) hs
        rw [tokens_snoc _ hn, ((((Ended.snoc (formatNat type) hs).append hi.1).append (Ended.snoc (formatNat 1) hs))
          |> fun h => by simpa only [List.append_assoc] using h : Ended (formatNat type ++ [' '] ++ ids.flatMap (fun i => formatNat i ++ [' ']) ++ formatNat 1 ++ [' '])).tokens]
        congr 1
        rw [tokens_snoc _ hs, ((Ended.snoc (formatNat type) hs).append hi.1).tokens, (Ended.snoc (formatNat type) hs).tokens, hi.2]
        simp only [tokens_snoc _ hs, tokens_formatNat]
        rw [List.flatMap_def]
        rw [flatten_singles]
        simp
      have h1 := Ended.snoc (formatNat D) hn
      have h2 := Ended.snoc (formatNat (points cells).length) hs
      have h3 := Ended.snoc (formatNat cells.length) hs
      have h4 := Ended.snoc (formatNat 1) hn
      have e2 : formatNat D ++ ['\n'] ++ formatNat (points cells).length ++ [' '] ++ formatNat cells.length ++ [' '] ++ formatNat 1 ++ ['\n'] =
          (formatNat D ++ ['\n']) ++ ((formatNat (points cells).length ++ [' ']) ++ ((formatNat cells.length ++ [' ']) ++ (formatNat 1 ++ ['\n']))) := by
        simp only [List.append_assoc]
      rw [e2, ((h1.append (h2.append (h3.append h4))).append hp.1).tokens, (h1.append (h2.append (h3.append h4))).tokens, h1.tokens, h2.tokens, h3.tokens, hp.2, hq.2]
      simp only [hp2, hq2]
      simp only [tokens_snoc _ hn, tokens_snoc _ hs, tokens_formatNat]
      simp [List.flatMap_def]

/-- the same digits are printed for numbers that are the same to 15 digits -/
theorem formatDouble_congr {q r : ℚ} (h : decimal q = decimal r) : formatDouble q = formatDouble r := by
  have h0 : q = 0 ↔ r = 0 := by rw [← decimal_zero_iff, ← decimal_zero_iff (q := r), h]
  have h1 : q < 0 ↔ r < 0 := by rw [← decimal_neg_iff, ← decimal_neg_iff (q := r), h]
  simp only [formatDouble, formatAbs, mantissa, h, h0, h1]

/-- the characters -/
theorem writeChars_eq {elementType : List Char} (ho : order.Perm (points cells)) :
    writeChars D type coords elementType order cells = some (formatNat D ++ ['\n'] ++ formatNat (firsts (meshPoints cells)).length ++ [' '] ++
      formatNat cells.length ++ [' '] ++ formatNat 1 ++ ['\n'] ++
      ((firsts (meshPoints cells)).map fun p => (coords p).map formatDouble).flatMap (fun w => w.flatMap (fun x => x ++ [' ']) ++ ['\n']) ++
      (cells.map fun c => c.map fun n => fileIndex cells n + 1).flatMap fun ids =>
        formatNat type ++ [' '] ++ ids.flatMap (fun i => formatNat i ++ [' ']) ++ formatNat 1 ++ [' '] ++ elementType ++ ['\n']) := by
  have h2 := allSome_map (l := cells) (f := fun c : Cell => allSome (c.map fun n => lookup (points cells) n.point))
    (g := fun c => c.map fun n => fileIndex cells n + 1) fun c hc =>
      allSome_map (l := c) (f := fun n : Node => lookup (points cells) n.point) (g := fun n => fileIndex cells n + 1) fun n hn => by
        rw [points, lookup_number (mem_meshPoints hc hn), Nat.add_comm]
        rfl
  simp only [writeChars, pointsVector_eq ho, h2]
  rw [points, number_length]
  simp only [List.flatMap_map]

/-- **C138.**  The characters of a file determine the mesh that is read, and this mesh is written to the same characters again. -/
theorem chars_twice (ho : order.Perm (points cells)) (hV : ∀ c ∈ cells, c.length = V) (hD : ∀ p ∈ meshPoints cells, (coords p).length = D)
    {text : List Char} (hw : writeChars D type coords [] order cells = some text) :
    ∃ pts cs, reader D type V (tokens text) = .ok (pts, cs) ∧ SameMesh coords decimal cells pts cs ∧
      ∀ order', order'.Perm (points (readCells cs)) → writeChars D type (readCoordinates rnd pts) [] order' (readCells cs) = some text := by
  have ht := chars_tokens D type coords [] order cells
  rw [hw, tokens_nil, Option.map_some] at ht
  obtain ⟨pts, cs, h1, h2⟩ := summit_round_trip_partial ho hV hD _ ht.symm
  have h3 := summit_read_write ho hV hD _ ht.symm
  rw [h1] at h3
  obtain ⟨rfl, rfl⟩ : pts = _ ∧ cs = _ := by simpa using h3
  refine ⟨_, _, h1, h2, fun order' ho' => ?_⟩
  rw [writeChars_eq ho] at hw
  rw [writeChars_eq ho', ← hw, points_readCells]
  congr 2
  · congr 1
    · simp [readCells]
    · congr 1
      refine List.ext_getElem (by simp) fun i h1 h2 => ?_
      simp only [List.getElem_map, List.getElem_range]
      have hi : i < (firsts (meshPoints cells)).length := by simpa using h2
      simp only [readCoordinates, List.getD_eq_getElem?_getD, List.getElem?_map, List.getElem?_eq_getElem hi, Option.map_some, Option.getD_some,
        List.map_map]
      refine List.map_congr_left fun x _ => ?_
      exact formatDouble_congr (print_read decimal_nearest rnd_nearest (decimal_nearest x).1)
  · congr 1
    rw [show readCells (cells.map fun c => c.map (fileIndex cells)) = cells.map fun c => c.map fun n => ⟨fileIndex cells n, fileIndex cells n⟩ by
      simp [readCells, Function.comp_def]]
    rw [List.map_map]
    refine List.map_congr_left fun c hc => ?_
    rw [Function.comp_apply, List.map_map]
    refine List.map_congr_left fun n hn => ?_
    have hp := points_readCells cells
    rw [show readCells (cells.map fun c => c.map (fileIndex cells)) = cells.map fun c => c.map fun n => ⟨fileIndex cells n, fileIndex cells n⟩ by
      simp [readCells, Function.comp_def]] at hp
    rw [Function.comp_apply]
    conv_lhs => rw [fileIndex, hp]
    have hlt := idxOf_firsts_lt (mem_meshPoints hc hn)
    have hr : (List.range (firsts (meshPoints cells)).length)[fileIndex cells n]'(by simpa [fileIndex] using hlt) = fileIndex cells n := by simp
    have := List.nodup_range.idxOf_getElem (fileIndex cells n) (by simpa [fileIndex] using hlt)
    rw [hr] at this
    rw [this]

/-- The theorems are not empty: the text of two triangles. -/
example : (writeChars 2 3 exCoords "T3".toList (points exCells).reverse exCells).map String.ofList =
    some "2\n4 2 1\n0 0 \n1 0 \n0 0.5 \n1 1 \n3 1 2 3 1 T3\n3 3 2 4 1 T3\n" := by
  decide +kernel

/-- how numbers are printed -/
example : ([1 / 3, -100, 1 / 10 ^ 5, 123456 / 10 ^ 3, 10 ^ 15, 10 ^ 14, -25 / 10 ^ 3] : List ℚ).map (fun q => String.ofList (formatDouble q)) =
    ["0.333333333333333", "-100", "1e-05", "123.456", "1e+15", "100000000000000", "-0.025"] := by
  decide +kernel

end Mito.Printing
