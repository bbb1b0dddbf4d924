/-!
# Specification of solver options

An options string is a sequence of words separated by single spaces.  An option starts with a dash followed by a letter (this
is the rule of PETSc); a word like `-1` or `-1e-6` is a value.
-/

namespace Mito.Options

/-- the words of a string -/
def splitSpaces : List Char → List (List Char)
  | [] => [[]]
  | c :: s => if c = ' ' then [] :: splitSpaces s else
    match splitSpaces s with
    | w :: ws => (c :: w) :: ws
    | [] => [[c]]

/-- the string made of the given words -/
def joinSpaces (ws : List (List Char)) : List Char := (ws.map fun w => w ++ [' ']).flatten

/-- the word is the name of an option -/
def isKey (w : List Char) : Bool :=
  match w with
  | '-' :: c :: _ => c.isAlpha
  | _ => false

/-- the word with the prefix, if it is the name of an option -/
def withPrefix (pre w : List Char) : List Char := if isKey w then '-' :: (pre ++ w.drop 1) else w

end Mito.Options
