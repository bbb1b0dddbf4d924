import Verif.IO.Characters

/-!
# `>>` of characters

The Summit reader on the characters of a file.  In Verif/IO/Summit.lean a file is a list of tokens, and an integer is read from a token that is
an integer.  Here `>>` takes as many characters as it can use, and the rest stays in the stream.
Simplifications: a `double` does not overflow, and there are no hexadecimal numbers and no thousands separators ("C" locale).
-/

namespace Mito.Printing

open Mito.Summit (Outcome inRange)

/-- an input stream: the characters left and the fail bit -/
structure CharStream where
  chars : List Char
  failed : Bool
deriving DecidableEq, Repr

/-- is there a minus sign, and what follows the sign -/
def scanSign : List Char → Bool × List Char
  | c :: r => if c = '-' then (true, r) else if c = '+' then (false, r) else (false, c :: r)
  | [] => (false, [])

/-- the numbers of type `int` -/
def intMax : Nat := 2147483647

/-- `>>` to an `int`, as in lib/mito/io/summit/reader.h:54: white space, a sign and digits.  A number that is too large is replaced by the
largest one, or the smallest one, and the read has failed. -/
def readIntChars (s : CharStream) : Int × CharStream :=
  if s.failed then (0, s)
  else
    let (neg, r) := scanSign (s.chars.dropWhile isSpace)
    let ds := r.takeWhile isDigit
    let rest := r.dropWhile isDigit
    let v := digitsValue (ds.map charDigit)
    if ds = [] then (0, ⟨rest, true⟩)
    else if neg then
      if v ≤ intMax + 1 then (-(v : Int), ⟨rest, false⟩) else (-(intMax + 1 : Nat), ⟨rest, true⟩)
    else if v ≤ intMax then (v, ⟨rest, false⟩) else (intMax, ⟨rest, true⟩)

/-- an exponent, if there is one; `none`: there is an `e` without digits -/
def scanExponent : List Char → Option ℤ × List Char
  | c :: r =>
    if c = 'e' ∨ c = 'E' then
      let (neg, r1) := scanSign r
      let ds := r1.takeWhile isDigit
      let v := digitsValue (ds.map charDigit)
      (if ds = [] then none else some (if neg then -(v : ℤ) else v), r1.dropWhile isDigit)
    else (some 0, c :: r)
  | [] => (some 0, [])

/-- `>>` to a `double`, as in lib/mito/io/summit/reader.h:23: white space, a sign, digits with a point and an exponent -/
def readDoubleChars (s : CharStream) : ℚ × CharStream :=
  if s.failed then (0, s)
  else
    let (neg, r) := scanSign (s.chars.dropWhile isSpace)
    let i := r.takeWhile isDigit
    let r1 := r.dropWhile isDigit
    let f := fractionOf r1
    let r2 := behindFraction r1
    if i ++ f = [] then (0, ⟨r2, true⟩)
    else
      match scanExponent r2 with
      | (none, r3) => (0, ⟨r3, true⟩)
      | (some e, r3) =>
        let x := (digitsValue ((i ++ f).map charDigit) : ℚ) / 10 ^ f.length * (10 : ℚ) ^ e
        (if neg then -x else x, ⟨r3, false⟩)

/-- `>>` to a `std::string`, as in lib/mito/io/summit/reader.h:101: white space and characters up to the next white space -/
def skipChars (s : CharStream) : CharStream :=
  if s.failed then s
  else
    let r := s.chars.dropWhile isSpace
    if r = [] then ⟨[], true⟩ else ⟨r.dropWhile (fun c => !isSpace c), false⟩

/-- `n` reads in a row -/
def manyChars {α : Type} (read : CharStream → α × CharStream) : Nat → CharStream → List α × CharStream
  | 0, s => ([], s)
  | n + 1, s =>
    let (x, s1) := read s
    let (xs, s2) := manyChars read n s1
    (x :: xs, s2)

/-- `readElements`, lib/mito/io/summit/reader.h:107-127 with `readElement`, 40-105; `none`: an index is out of range, undefined behaviour -/
def elementsChars (type V nNodes : Nat) : Nat → CharStream → Option (List (List Nat) × CharStream)
  | 0, s => some ([], s)
  | n + 1, s =>
    let (cellType, s1) := readIntChars s
    if cellType = type then
      let (ids, s2) := manyChars readIntChars V s1
      match inRange nNodes (ids.map (· - 1)) with
      | none => none
      | some c =>
        match elementsChars type V nNodes n (skipChars s2) with
        | none => none
        | some (cs, s3) => some (c :: cs, s3)
    else elementsChars type V nNodes n s1

/-- `reader`, lib/mito/io/summit/reader.h:129-191, with `readVertices`, 11-38 -/
def readerChars (D type V : Nat) (text : List Char) : Outcome (List (List ℚ) × List (List Nat)) :=
  let (dim, s1) := readIntChars ⟨text, false⟩
  if (D : Int) ≠ dim then .assertion
  else
    let (nVertices, s2) := readIntChars s1
    -- `nodes.reserve`
    if nVertices < 0 then .throws
    else
      let (nCells, s3) := readIntChars s2
      let (nTypes, s4) := readIntChars s3
      if nTypes ≠ 1 then .assertion
      else
        let (nodes, s5) := manyChars (manyChars readDoubleChars D) nVertices.toNat s4
        match elementsChars type V nodes.length nCells.toNat s5 with
        | none => .undefined
        | some (cells, _) =>
          if (nodes.length : Int) ≠ nVertices then .assertion
          else if (cells.length : Int) ≠ nCells then .assertion
          else .ok (nodes, cells)

end Mito.Printing
