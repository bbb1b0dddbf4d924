import Verif.IO.SummitLemmas
import Verif.Spec.Summit

/-! # C46: Summit files -/

set_option linter.unusedVariables false

namespace Mito.Summit

open Mito.Numbering

variable {D type V : Nat} {coords : Nat → List ℚ} {printed : ℚ → ℚ} {order : List (Nat × Nat)}
  {cells : List Cell} {elementType : List Token}

/-- The file can always be written. -/
theorem summit_write_succeeds (ho : order.Perm (points cells)) :
    (write D type coords printed elementType order cells).isSome = true := by
  rw [write_eq ho]; rfl

/-- What the reader makes of a file of the writer, if no element type is given. -/
theorem summit_read_write (ho : order.Perm (points cells)) (hV : ∀ c ∈ cells, c.length = V)
    (hD : ∀ p ∈ meshPoints cells, (coords p).length = D) (file : List Token)
    (hw : write D type coords printed [] order cells = some file) :
    reader D type V file = .ok ((firsts (meshPoints cells)).map fun p => (coords p).map printed,
      cells.map fun c => c.map (fileIndex cells)) := by
  rw [write_eq ho] at hw
  obtain rfl := Option.some.inj hw
  set pts := (firsts (meshPoints cells)).map fun p => (coords p).map printed with hpts
  have hlen : (firsts (meshPoints cells)).length = pts.length := by simp [hpts]
  have hv := readMany_vertices (D := D) pts (by
    intro p hp
    obtain ⟨q, hq, rfl⟩ := List.mem_map.mp hp
    rw [List.length_map]
    exact hD q (mem_firsts.mp hq))
  have he := readElements_eq (type := type) (V := V) (nNodes := pts.length)
    (cells.map fun c => c.map (fileIndex cells)) (by
      intro c hc
      obtain ⟨d, hd, rfl⟩ := List.mem_map.mp hc
      rw [List.length_map]
      exact hV d hd) (by
      intro c hc i hi
      obtain ⟨d, hd, rfl⟩ := List.mem_map.mp hc
      obtain ⟨n, hn, rfl⟩ := List.mem_map.mp hi
      rw [← hlen]
      exact idxOf_firsts_lt (mem_meshPoints hd hn)) []
  rw [List.append_nil, List.flatMap_map] at he
  have he' : readElements type V pts.length cells.length
      ⟨cells.flatMap fun c => Token.num type ::
          c.map (fun n => .num ((fileIndex cells n + 1 : Nat) : ℚ)) ++ [.num 1] ++ [], false⟩ =
      some (cells.map fun c => c.map (fileIndex cells), ⟨[], false⟩) := by
    rw [← he]
    simp only [List.length_map, List.map_map, Function.comp_def, List.append_nil]
  have h1 : ∀ s, readInt ⟨Token.num (1 : ℚ) :: s, false⟩ = (1, ⟨s, false⟩) := by
    intro s
    have := readInt_nat 1
    simpa using this _
  rw [hlen]
  simp only [reader, List.cons_append, List.nil_append, readInt_nat, h1, hv, Int.toNat_natCast]
  simp only [List.append_assoc, List.cons_append, List.nil_append, List.append_nil] at he'
  have hn : ¬ (pts.length : Int) < 0 := by omega
  simp only [List.append_nil, List.append_assoc, List.cons_append, List.nil_append, ne_eq,
    not_true_eq_false, if_false, if_neg hn, he']
  simp

/-- Reading back a mesh that was written without an element type gives the same mesh. -/
theorem summit_round_trip_partial (ho : order.Perm (points cells)) (hV : ∀ c ∈ cells, c.length = V)
    (hD : ∀ p ∈ meshPoints cells, (coords p).length = D) (file : List Token)
    (hw : write D type coords printed [] order cells = some file) :
    ∃ nodes read, reader D type V file = .ok (nodes, read) ∧
      SameMesh coords printed cells nodes read := by
  refine ⟨_, _, summit_read_write ho hV hD file hw, ?_⟩
  have hget : ∀ (j k : Nat) (c : Cell) (n : Node), cells[j]? = some c → c[k]? = some n →
      (cells.map fun c => c.map (fileIndex cells))[j]? = some (c.map (fileIndex cells)) ∧
      (c.map (fileIndex cells))[k]? = some (fileIndex cells n) := by
    intro j k c n hc hn
    simp [hc, hn]
  constructor
  · simp
  · rw [List.length_map, ← List.toFinset_card_of_nodup (firsts_nodup (meshPoints cells))]
    congr 1
    ext p
    simp [mem_firsts]
  · intro j c hc
    simp [hc]
  · intro j k c n hc hn
    obtain ⟨h1, h2⟩ := hget j k c n hc hn
    refine ⟨_, _, h1, h2, ?_⟩
    have hm := mem_meshPoints (List.mem_of_getElem? hc) (List.mem_of_getElem? hn)
    rw [List.getElem?_map, fileIndex, getElem?_idxOf_firsts hm]
    rfl
  · intro j k j' k' c c' n n' r r' i i' hc hn hc' hn' hr hi hr' hi'
    obtain ⟨h1, h2⟩ := hget j k c n hc hn
    obtain ⟨h1', h2'⟩ := hget j' k' c' n' hc' hn'
    rw [h1] at hr
    rw [h1'] at hr'
    obtain rfl := Option.some.inj hr
    obtain rfl := Option.some.inj hr'
    rw [h2] at hi
    rw [h2'] at hi'
    obtain rfl := Option.some.inj hi
    obtain rfl := Option.some.inj hi'
    exact idxOf_firsts_inj (mem_meshPoints (List.mem_of_getElem? hc) (List.mem_of_getElem? hn))
      (mem_meshPoints (List.mem_of_getElem? hc') (List.mem_of_getElem? hn'))

theorem readElements_failed {nNodes n : Nat} (h : type ≠ 0) (r : List Token) :
    readElements type V nNodes n ⟨r, true⟩ = some ([], ⟨r, true⟩) := by
  induction n with
  | zero => rfl
  | succ n ih =>
    rw [readElements]
    have : ¬ (0 : Int) = type := by omega
    simp [readInt, this, ih]

/-- With an element type that is a word, no mesh of two or more cells can be read back: the reader takes
the word for the type of the next cell, and the check of the number of cells fails. -/
theorem summit_element_type_fails (ht : type ≠ 0) (ho : order.Perm (points cells))
    (hV : ∀ c ∈ cells, c.length = V) (hD : ∀ p ∈ meshPoints cells, (coords p).length = D)
    (h2 : 2 ≤ cells.length) (w : String) (rest : List Token) (file : List Token)
    (hw : write D type coords printed (.word w :: rest) order cells = some file) :
    reader D type V file = .assertion := by
  rw [write_eq ho] at hw
  obtain rfl := Option.some.inj hw
  set pts := (firsts (meshPoints cells)).map fun p => (coords p).map printed with hpts
  have hlen : (firsts (meshPoints cells)).length = pts.length := by simp [hpts]
  have hv := readMany_vertices (D := D) pts (by
    intro p hp
    obtain ⟨q, hq, rfl⟩ := List.mem_map.mp hp
    rw [List.length_map]
    exact hD q (mem_firsts.mp hq))
  -- the elements
  have he : ∃ r, readElements type V pts.length cells.length
      ⟨cells.flatMap fun c => Token.num type ::
          c.map (fun n => .num ((fileIndex cells n + 1 : Nat) : ℚ)) ++ [.num 1] ++
          (.word w :: rest), false⟩ = some r ∧ r.1.length ≤ 1 := by
    obtain ⟨c, cs, hcs⟩ : ∃ c cs, cells = c :: cs := by
      rcases cells with _ | ⟨c, cs⟩
      · simp at h2
      · exact ⟨c, cs, rfl⟩
    have hcm : c ∈ cells := by rw [hcs]; simp
    have e1 := readMany_nat (c.map fun n => fileIndex cells n + 1) (Token.num 1 :: .word w :: (rest ++
      cs.flatMap fun c => Token.num type ::
          c.map (fun n => .num ((fileIndex cells n + 1 : Nat) : ℚ)) ++ [.num 1] ++ (.word w :: rest)))
    rw [List.length_map, hV c hcm, List.map_map] at e1
    have h3 : inRange pts.length (((c.map fun n => fileIndex cells n + 1).map
        fun i : Nat => (i : Int)).map (· - 1)) = some (c.map (fileIndex cells)) := by
      have e : ((c.map fun n => fileIndex cells n + 1).map fun i : Nat => (i : Int)).map (· - 1) =
          c.map fun n => (fileIndex cells n : Int) := by
        simp [List.map_map, Function.comp_def]
      rw [e, inRange, if_pos]
      · simp [List.map_map, Function.comp_def]
      · simp only [List.all_eq_true, List.mem_map, Bool.and_eq_true, decide_eq_true_eq]
        rintro _ ⟨n, hn, rfl⟩
        have := idxOf_firsts_lt (mem_meshPoints hcm hn)
        rw [hlen] at this
        unfold fileIndex
        omega
    have hne : ¬ (0 : Int) = type := by omega
    have hsk : ∀ (m : Nat) (s : List Token),
        readElements type V pts.length m ⟨Token.word w :: s, false⟩ =
          some ([], ⟨Token.word w :: s, m != 0⟩) := by
      intro m s
      cases m with
      | zero => rfl
      | succ m =>
        rw [readElements]
        simp [readInt, hne, readElements_failed ht]
    generalize hI : fileIndex cells = I at *
    refine ⟨([c.map I], ⟨.word w :: (rest ++ cs.flatMap fun c => Token.num type ::
          c.map (fun n => .num ((I n + 1 : Nat) : ℚ)) ++ [.num 1] ++ (.word w :: rest)),
          cs.length != 0⟩), ?_, by simp⟩
    · rw [hcs]
      simp only [List.length_cons, List.flatMap_cons, List.cons_append, List.append_assoc,
        List.nil_append]
      rw [readElements, readInt_nat]
      simp only [Function.comp_def, List.cons_append, List.append_assoc, List.nil_append] at e1
      simp only [if_true, e1]
      rw [h3]
      simp only [skip, Bool.false_eq_true, if_false, hsk]
  obtain ⟨r, he, hr⟩ := he
  have h1 : ∀ s, readInt ⟨Token.num (1 : ℚ) :: s, false⟩ = (1, ⟨s, false⟩) := by
    intro s
    have := readInt_nat 1
    simpa using this _
  rw [hlen]
  simp only [reader, List.cons_append, List.nil_append, readInt_nat, h1, hv, Int.toNat_natCast]
  simp only [List.append_assoc, List.cons_append, List.nil_append] at he
  have hn : ¬ (pts.length : Int) < 0 := by omega
  have hc : ¬ (r.1.length : Int) = cells.length := by omega
  simp only [List.append_nil, List.append_assoc, List.cons_append, List.nil_append, ne_eq,
    not_true_eq_false, if_false, if_neg hn, he]
  simp [hc]

/-! ### Examples and findings -/

/-- two triangles on four points -/
def exCells : List Cell := [[⟨0, 10⟩, ⟨1, 11⟩, ⟨2, 12⟩], [⟨2, 12⟩, ⟨1, 11⟩, ⟨3, 13⟩]]
def exCoords : Nat → List ℚ
  | 10 => [0, 0]
  | 11 => [1, 0]
  | 12 => [0, 1 / 2]
  | _ => [1, 1]

example : (write 2 3 exCoords id [] (points exCells).reverse exCells).map (reader 2 3 3) =
    some (.ok ([[0, 0], [1, 0], [0, 1 / 2], [1, 1]], [[0, 1, 2], [2, 1, 3]])) := by decide +kernel

example : (points exCells).reverse.Perm (points exCells) ∧ (∀ c ∈ exCells, c.length = 3) ∧
    (∀ p ∈ meshPoints exCells, (exCoords p).length = 2) :=
  ⟨List.reverse_perm _, by decide, by decide⟩

example : (write 2 3 exCoords id [.word "T3"] (points exCells) exCells).map (reader 2 3 3) =
    some .assertion := by decide +kernel

/-- C46 is false for a mesh in which every cell has its own nodes (as the reader itself makes them for
discontinuous Galerkin meshes): six nodes are written, four are read. -/
theorem summit_nodes_fail : ∃ cells : List Cell, (cells.flatten.dedup).length = 6 ∧
    ∃ file nodes read, write 2 3 exCoords id [] (points cells) cells = some file ∧
      reader 2 3 3 file = .ok (nodes, read) ∧ nodes.length = 4 := by
  refine ⟨[[⟨0, 10⟩, ⟨1, 11⟩, ⟨2, 12⟩], [⟨3, 12⟩, ⟨4, 11⟩, ⟨5, 13⟩]], by decide, ?_⟩
  refine ⟨_, [[0, 0], [1, 0], [0, 1 / 2], [1, 1]], [[0, 1, 2], [2, 1, 3]], rfl, ?_, rfl⟩
  decide +kernel

end Mito.Summit
