import Mathlib.Data.List.Basic

/-!
# Model of `NamedClass`, lib/mito/utilities/NamedClass.h

The class that gets the name is given by the lists of types of arguments from which it can be constructed.  Modelled is which of the two
constructor templates the rules of the language choose; an argument that is itself a `NamedClass` (the deleted copy and move constructors,
lib/mito/utilities/NamedClass.h:55-59) is left out.
-/

namespace Mito.NamedClass

/-- the types of arguments that matter -/
inductive Kind where
  /-- a string literal -/
  | literal
  /-- an rvalue of type `std::string` -/
  | temporary
  /-- an lvalue of type `std::string` -/
  | variable
  /-- an lvalue of type `const std::string` -/
  | constant
  /-- a type that does not convert to `std::string` -/
  | other (n : Nat)
  deriving DecidableEq

/-- an argument and the text of it -/
structure Arg where
  kind : Kind
  text : String

/-- does the type convert to `const std::string &`? -/
def Kind.isString : Kind → Bool
  | .other _ => false
  | _ => true

/-- an object: its name, and the arguments of the constructor of the class -/
structure Object where
  name : String
  args : List Arg

/-- the class: `std::constructible_from` for arguments of the given types -/
abbrev Class := List Kind → Bool

/-- the constraint of the first constructor, lib/mito/utilities/NamedClass.h:37-38 -/
def unnamedViable (C : Class) (args : List Arg) : Bool := C (args.map Arg.kind)

/-- the constraint of the second constructor, lib/mito/utilities/NamedClass.h:45-46, and the conversion of its first argument -/
def namedViable (C : Class) : List Arg → Bool
  | [] => false
  | a :: rest => a.kind.isString && C (rest.map Arg.kind)

/-- the first constructor, lib/mito/utilities/NamedClass.h:39-42 -/
def unnamed (args : List Arg) : Object := ⟨"unnamed", args⟩

/-- the second constructor, lib/mito/utilities/NamedClass.h:47-50 -/
def named (a : Arg) (rest : List Arg) : Object := ⟨a.text, rest⟩

/-- is the second constructor better if both can be called?  The forwarding reference of the first one binds a literal without conversion, a
temporary to an rvalue reference and a variable without `const`, which is better each time; for a constant both bind in the same way, and the
second template is more specialized. -/
def namedBetter : Kind → Bool
  | .constant => true
  | _ => false

/-- `NamedClass<C>(args...)`, lib/mito/utilities/NamedClass.h:36-50; `none`: it does not compile -/
def construct (C : Class) (args : List Arg) : Option Object :=
  match args with
  | [] => if unnamedViable C [] then some (unnamed []) else none
  | a :: rest =>
    if namedViable C (a :: rest) && (namedBetter a.kind || !unnamedViable C (a :: rest)) then some (named a rest)
    else if unnamedViable C (a :: rest) then some (unnamed (a :: rest)) else none

/-- `Foo`, constructed from an integer, tests/mito.lib/utilities/named_class.cc:14-29 -/
def foo : Class := fun ks => ks == [.other 0]

end Mito.NamedClass
