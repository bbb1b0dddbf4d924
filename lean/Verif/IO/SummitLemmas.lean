import Verif.IO.Summit
import Verif.Utilities.NumberingLemmas

/-! # Helper lemmas for Summit files -/

namespace Mito.Summit

open Mito.Numbering

theorem readInt_nat (n : Nat) (r : List Token) :
    readInt ⟨.num n :: r, false⟩ = ((n : Int), ⟨r, false⟩) := by
  simp [readInt]

theorem readMany_num (xs : List ℚ) (r : List Token) :
    readMany readNum xs.length ⟨xs.map .num ++ r, false⟩ = (xs, ⟨r, false⟩) := by
  induction xs with
  | nil => rfl
  | cons x xs ih => simp [readMany, readNum, ih]

theorem readMany_nat (xs : List Nat) (r : List Token) :
    readMany readInt xs.length ⟨xs.map (fun i => .num (i : ℚ)) ++ r, false⟩ =
      (xs.map fun i : Nat => (i : Int), ⟨r, false⟩) := by
  induction xs with
  | nil => rfl
  | cons x xs ih => simp [readMany, readInt_nat, ih]

theorem readMany_vertices {D : Nat} (pts : List (List ℚ)) (h : ∀ p ∈ pts, p.length = D)
    (r : List Token) :
    readMany (readMany readNum D) pts.length ⟨pts.flatMap (fun p => p.map .num) ++ r, false⟩ =
      (pts, ⟨r, false⟩) := by
  induction pts with
  | nil => rfl
  | cons p pts ih =>
    have hp := readMany_num p (pts.flatMap (fun p => p.map .num) ++ r)
    rw [h p (by simp)] at hp
    simp only [List.length_cons, readMany, List.flatMap_cons, List.append_assoc, hp,
      ih fun q hq => h q (by simp [hq])]

/-- the index of a point in the file -/
def fileIndex (cells : List Cell) (n : Node) : Nat := (firsts (meshPoints cells)).idxOf n.point

theorem mem_meshPoints {cells : List Cell} {c : Cell} {n : Node} (hc : c ∈ cells) (hn : n ∈ c) :
    n.point ∈ meshPoints cells :=
  List.mem_flatMap.mpr ⟨c, hc, List.mem_map.mpr ⟨n, hn, rfl⟩⟩

theorem writeCell_eq {cells : List Cell} {c : Cell} (hc : c ∈ cells) (type : Nat)
    (elementType : List Token) :
    writeCell type (points cells) elementType c =
      some (.num type :: c.map (fun n => .num ((fileIndex cells n + 1 : Nat) : ℚ)) ++ [.num 1] ++
        elementType) := by
  have h := allSome_map (l := c) (f := fun n : Node => lookup (points cells) n.point)
    (g := fun n => fileIndex cells n + 1) (fun n hn => by
      rw [points, lookup_number (mem_meshPoints hc hn), Nat.add_comm]; rfl)
  simp [writeCell, h, List.map_map, Function.comp_def]

theorem pointsVector_eq {cells : List Cell} {order : List (Nat × Nat)}
    (h : order.Perm (points cells)) :
    allSome (pointsVector (points cells).length order) = some (firsts (meshPoints cells)) := by
  have h' : order.Perm ((firsts (meshPoints cells)).zipIdx 1) := by rwa [← number_eq]
  have := foldl_set_zipIdx (fun p : Nat => some p) (firsts (meshPoints cells)) none h'
  rw [pointsVector, points, number_length, this]
  simpa using allSome_map (l := firsts (meshPoints cells)) (f := fun p : Nat => some p) (g := id)
    fun _ _ => rfl

/-- the file -/
theorem write_eq {D type : Nat} {coords : Nat → List ℚ} {printed : ℚ → ℚ} {elementType : List Token}
    {order : List (Nat × Nat)} {cells : List Cell} (h : order.Perm (points cells)) :
    write D type coords printed elementType order cells =
      some ([.num D, .num ((firsts (meshPoints cells)).length : Nat), .num cells.length, .num 1] ++
        (((firsts (meshPoints cells)).map fun p => (coords p).map printed).flatMap
          (fun p => p.map .num) ++
        cells.flatMap fun c => .num type ::
          c.map (fun n => .num ((fileIndex cells n + 1 : Nat) : ℚ)) ++ [.num 1] ++ elementType)) := by
  have h2 := allSome_map (l := cells) (f := writeCell type (points cells) elementType)
    fun c hc => writeCell_eq hc type elementType
  simp only [write, pointsVector_eq h, h2]
  rw [points, number_length]
  congr 1
  simp [List.flatMap_map, List.flatMap_def, Function.comp_def]

theorem readElements_eq {type V nNodes : Nat} (cells : List (List Nat))
    (hV : ∀ c ∈ cells, c.length = V) (hr : ∀ c ∈ cells, ∀ i ∈ c, i < nNodes) (r : List Token) :
    readElements type V nNodes cells.length
      ⟨cells.flatMap (fun c => Token.num type :: c.map (fun i => .num ((i + 1 : Nat) : ℚ)) ++
        [.num 1]) ++ r, false⟩ = some (cells, ⟨r, false⟩) := by
  induction cells with
  | nil => rfl
  | cons c cells ih =>
    have h1 := readMany_nat (c.map (· + 1)) ([.num 1] ++
      (cells.flatMap (fun c => Token.num type :: c.map (fun i => .num ((i + 1 : Nat) : ℚ)) ++
        [.num 1]) ++ r))
    rw [List.length_map, hV c (by simp), List.map_map] at h1
    have h2 : inRange nNodes (((c.map (· + 1)).map fun i : Nat => (i : Int)).map (· - 1)) = some c := by
      have e : ((c.map (· + 1)).map fun i : Nat => (i : Int)).map (· - 1) =
          c.map fun i : Nat => (i : Int) := by
        simp [List.map_map, Function.comp_def]
      rw [e, inRange, if_pos]
      · simp [List.map_map, Function.comp_def]
      · simp only [List.all_eq_true, List.mem_map, Bool.and_eq_true, decide_eq_true_eq]
        rintro _ ⟨i, hi, rfl⟩
        have := hr c (by simp) i hi
        omega
    have ih' := ih (fun d hd => hV d (by simp [hd])) (fun d hd => hr d (by simp [hd]))
    have e : (List.flatMap (fun c => Token.num type :: c.map (fun i => .num ((i + 1 : Nat) : ℚ)) ++
        [.num 1]) (c :: cells) ++ r) = Token.num type :: (c.map ((fun i : Nat => Token.num (i : ℚ)) ∘
        (· + 1)) ++ ([.num 1] ++ (cells.flatMap (fun c => Token.num type ::
          c.map (fun i => .num ((i + 1 : Nat) : ℚ)) ++ [.num 1]) ++ r))) := by
      simp [Function.comp_def]
    rw [e, List.length_cons, readElements, readInt_nat]
    simp only [h1, h2, if_true]
    simp only [List.cons_append, List.nil_append] at ih' ⊢
    simp only [skip, Bool.false_eq_true, if_false, ih']

end Mito.Summit
