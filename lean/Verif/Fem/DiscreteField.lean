import Verif.Utilities.Assoc

/-!
# Model of `mito::discrete::DiscreteField`, lib/mito/discrete/DiscreteField.h

The keys are compared and hashed by id (see `Verif/Fem/Discretizer.lean`).  The name of a field is left out.
-/

namespace Mito.DiscreteField

open Mito.Assoc

variable {κ V : Type} [DecidableEq κ]

/-- the map of entries to values, lib/mito/discrete/DiscreteField.h:22-24 -/
abbrev Field (κ V : Type) := List (κ × V)

/-- a use of a field -/
inductive Op (κ V : Type) where
  /-- `insert(key, value)` -/
  | insert (k : κ) (v : V)
  /-- `field(key) = value` -/
  | write (k : κ) (v : V)
deriving DecidableEq, Repr

/-- how a use may end -/
inductive Status where
  | done
  /-- `std::out_of_range` -/
  | throws
  /-- the assertion in `insert` fails (debug builds) -/
  | aborts
deriving DecidableEq, Repr

/-- `insert`, lib/mito/discrete/DiscreteField.h:75-86, and the mutating `operator()`,
lib/mito/discrete/DiscreteField.h:67-70.  `debug`: assertions are compiled in. -/
def step (debug : Bool) (f : Field κ V) : Op κ V → Status × Field κ V
  | .insert k v =>
    if debug && (get f k).isSome then (.aborts, f) else (.done, Assoc.insert f k v)
  | .write k v =>
    match get f k with
    | none => (.throws, f)
    | some _ => (.done, Assoc.set f k v)

/-- the reading `operator()`, lib/mito/discrete/DiscreteField.h:59-62; `none`: `std::out_of_range` -/
def read (f : Field κ V) (k : κ) : Option V := get f k

/-- a history of uses: exceptions are caught, a failed assertion ends the program (`none`) -/
def run (debug : Bool) : Field κ V → List (Op κ V) → Option (Field κ V)
  | f, [] => some f
  | f, op :: ops =>
    match step debug f op with
    | (.aborts, _) => none
    | (_, f') => run debug f' ops

/-- the constructor from a collection of keys, lib/mito/discrete/DiscreteField.h:31-38 -/
def ofKeys (debug : Bool) (default : V) (keys : List κ) : Option (Field κ V) :=
  run debug [] (keys.map fun k => .insert k default)

end Mito.DiscreteField
