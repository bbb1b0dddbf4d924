import Verif.IO.Printing

/-!
# The characters of Summit files

`<<` of integers and numbers in the "C" locale, the characters that the writer puts into a file, and what `>>` makes of them.
Simplifications: there are no infinite numbers and no NaNs, zero has no sign, and a word that does not start like a number is not read
in part.
-/

namespace Mito.Printing

open Mito.Summit

/-- the character of a digit -/
def digitChar (n : Nat) : Char := Char.ofNat (48 + n)

/-- the decimal digits of a number -/
def natDigits (n : Nat) : List Nat := if n < 10 then [n] else natDigits (n / 10) ++ [n % 10]
decreasing_by omega

/-- the last `w` decimal digits of a number -/
def lastDigits : Nat → Nat → List Nat
  | 0, _ => []
  | w + 1, m => lastDigits w (m / 10) ++ [m % 10]

/-- `<<` of an integer that is not negative -/
def formatNat (n : Nat) : List Char := (natDigits n).map digitChar

/-- without zeros at the end -/
def stripZeros (l : List Nat) : List Nat := (l.reverse.dropWhile (· = 0)).reverse

/-- digits before and behind the point, which is left out if nothing is behind it -/
def formatPoint (i f : List Nat) : List Char :=
  i.map digitChar ++ if stripZeros f = [] then [] else '.' :: (stripZeros f).map digitChar

/-- the exponent, with two digits at least -/
def formatExponent (k : ℤ) : List Char :=
  'e' :: (if k < 0 then '-' else '+') :: ((if k.natAbs < 10 then [0] else []) ++ natDigits k.natAbs).map digitChar

/-- the first 15 digits of the number that is printed, as an integer -/
def mantissa (q : ℚ) : Nat := (|decimal q| / (10 : ℚ) ^ (Int.log 10 |decimal q| - 14)).floor.toNat

/-- `<<` of a number that is not negative with the default notation and a precision of 15, lib/mito/io/summit/MeshSummitWriter.h:88-90:
the format `%.15g` of `printf`.  The exponent decides between the notations. -/
def formatAbs (q : ℚ) : List Char :=
  let k := Int.log 10 |decimal q|
  let s := lastDigits 15 (mantissa q)
  if -4 ≤ k ∧ k < 15 then
    if 0 ≤ k then formatPoint (s.take (k.toNat + 1)) (s.drop (k.toNat + 1))
    else formatPoint [0] (List.replicate ((-k).toNat - 1) 0 ++ s)
  else formatPoint (s.take 1) (s.drop 1) ++ formatExponent k

/-- `<<` of a number -/
def formatDouble (q : ℚ) : List Char :=
  if q = 0 then ['0'] else (if q < 0 then ['-'] else []) ++ formatAbs q

/-- the characters of a file, lib/mito/io/summit/MeshSummitWriter.h:66-109: every number is followed by a space, except for the last one of the
first two lines -/
def writeChars (D type : Nat) (coords : Nat → List ℚ) (elementType : List Char) (order : List (Nat × Nat)) (cells : List Cell) :
    Option (List Char) :=
  match Numbering.allSome (pointsVector (points cells).length order) with
  | none => none
  | some pts =>
    match Numbering.allSome (cells.map fun c => Numbering.allSome (c.map fun n => Numbering.lookup (points cells) n.point)) with
    | none => none
    | some lines =>
      some (formatNat D ++ ['\n'] ++ formatNat (points cells).length ++ [' '] ++ formatNat cells.length ++ [' '] ++ formatNat 1 ++ ['\n'] ++
        pts.flatMap (fun p => (coords p).flatMap (fun x => formatDouble x ++ [' ']) ++ ['\n']) ++
        lines.flatMap fun ids => formatNat type ++ [' '] ++ ids.flatMap (fun i => formatNat i ++ [' ']) ++ formatNat 1 ++ [' '] ++ elementType ++ ['\n'])

/-! ### reading -/

/-- white space -/
def isSpace (c : Char) : Bool := c = ' ' || c = '\n'

/-- the words of a text; `w` is what is read of a word so far -/
def wordsFrom (w : List Char) : List Char → List (List Char)
  | [] => if w = [] then [] else [w]
  | c :: cs => if isSpace c then (if w = [] then wordsFrom [] cs else w :: wordsFrom [] cs) else wordsFrom (w ++ [c]) cs

def words (cs : List Char) : List (List Char) := wordsFrom [] cs

/-- the value of a digit -/
def charDigit (c : Char) : Nat := c.toNat - 48

def isDigit (c : Char) : Bool := 48 ≤ c.toNat && c.toNat ≤ 57

/-- the number with these digits -/
def digitsValue (l : List Nat) : Nat := l.foldl (fun a d => 10 * a + d) 0

/-- an exponent: a sign and digits -/
def parseExponent : List Char → Option ℤ
  | 'e' :: s :: cs =>
    if cs ≠ [] ∧ cs.all isDigit then
      if s = '-' then some (-(digitsValue (cs.map charDigit) : ℤ)) else if s = '+' then some (digitsValue (cs.map charDigit)) else none
    else none
  | [] => some 0
  | _ => none

/-- the digits behind a point -/
def fractionOf : List Char → List Char
  | c :: r => if c = '.' then r.takeWhile isDigit else []
  | [] => []

/-- what follows the digits behind a point -/
def behindFraction : List Char → List Char
  | c :: r => if c = '.' then r.dropWhile isDigit else c :: r
  | [] => []

/-- digits, a point with digits and an exponent, as `strtod` reads them -/
def parseAbs (cs : List Char) : Option ℚ :=
  let i := cs.takeWhile isDigit
  let r := cs.dropWhile isDigit
  if i = [] then none
  else
    match parseExponent (behindFraction r) with
    | none => none
    | some e => some ((digitsValue ((i ++ fractionOf r).map charDigit) : ℚ) / 10 ^ (fractionOf r).length * (10 : ℚ) ^ e)

/-- a number with a sign -/
def parseNumber : List Char → Option ℚ
  | '-' :: cs => (parseAbs cs).map fun x => -x
  | cs => parseAbs cs

/-- the token of a word -/
def tokenOf (cs : List Char) : Token :=
  match parseNumber cs with
  | some q => .num q
  | none => .word (String.ofList cs)

/-- the tokens of a text -/
def tokens (cs : List Char) : List Token := (words cs).map tokenOf

end Mito.Printing
