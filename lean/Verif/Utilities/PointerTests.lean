import Verif.Utilities.Repository

/-!
# The tests of shared pointers and repositories in the repository

The variable `shared_ptr1` is number 1, and so on; so is its resource.  The tests compare with `use_count()` of
`std::shared_ptr`, the number of pointers to the object: it is written out.
-/

namespace Mito.SharedPointer

/-- the operations of a test and the numbers of references that it expects in the end, variable by variable -/
structure PointerTest where
  ops : List Op
  expected : List (Var × Int)

/-- Does the test pass?  Undefined behaviour counts as failure. -/
def PointerTest.passes (T : PointerTest) : Bool :=
  match run .init T.ops with
  | .ub => false
  | .ok s => T.expected.all fun e => references s e.1 == some e.2

/-- tests/mito.lib/utilities/shared_pointer.cc:38-136, the seven tests of references -/
def pointerTests : List PointerTest :=
  [⟨[.ofHandle 1 1], [(1, 1)]⟩,
   ⟨[.ofHandle 1 1, .copy 2 1], [(1, 2), (2, 2)]⟩,
   ⟨[.ofHandle 1 1, .move 2 1], [(2, 1)]⟩,
   ⟨[.ofHandle 1 1, .ofHandle 2 2, .copyAssign 2 1], [(1, 2), (2, 2)]⟩,
   ⟨[.ofHandle 1 1, .ofHandle 2 2, .moveAssign 2 1], [(2, 1)]⟩,
   ⟨[.ofHandle 1 1, .copy 2 1, .ofHandle 3 3, .copyAssign 2 3], [(1, 1), (2, 2), (3, 2)]⟩,
   ⟨[.default 2, .ofHandle 1 1, .copyAssign 2 1, .destroy 1], [(2, 1)]⟩]

end Mito.SharedPointer

namespace Mito.Repo

/-- a step of a test of repositories: the elements visited are given by the variables that point to them -/
inductive RItem where
  | emplace (v b : Nat)
  | erase (v : Nat)
  | size (n : Int)
  | capacity (n : Nat)
  | elements (vs : List Nat)

/-- Does the test pass?  Undefined behaviour counts as failure. -/
def rtest (s : Repo) : List RItem → Bool
  | [] => true
  | .emplace v b :: l =>
    match emplace s v b with
    | none => false
    | some r => rtest r.1 l
  | .erase v :: l =>
    match erase s v with
    | none => false
    | some r => rtest r.1 l
  | .size n :: l => size s == n && rtest s l
  | .capacity n :: l => Alloc.capacity s.alloc == n && rtest s l
  | .elements vs :: l =>
    (elements s (Alloc.capacity s.alloc)).map (·.map some) == some (vs.map s.ptrs.handle) && rtest s l

/-- tests/mito.lib/utilities/repository.cc:23-77 -/
def repositoryTest (B : Nat → Nat) : List RItem :=
  [.capacity 0, .size 0,
   .emplace 0 (B 0), .emplace 1 (B 1), .capacity 3, .size 2,
   .emplace 2 (B 2), .capacity 3, .size 3,
   .erase 2, .capacity 3, .size 2,
   .emplace 3 (B 3), .capacity 3, .size 3,
   .emplace 4 (B 4), .capacity 6, .size 4,
   .erase 3, .erase 4, .capacity 6, .size 2]

/-- tests/mito.lib/utilities/repository_iterator.cc:25-107 -/
def repositoryIteratorTest (B : Nat → Nat) : List RItem :=
  [.capacity 0, .size 0,
   .emplace 0 (B 0), .emplace 1 (B 1), .emplace 2 (B 2), .elements [0, 1, 2],
   .erase 1, .elements [0, 2],
   .erase 0, .elements [2],
   .erase 2, .elements [],
   .emplace 5 (B 3), .emplace 6 (B 4), .emplace 7 (B 5), .emplace 4 (B 6), .elements [6, 5, 7, 4]]

end Mito.Repo
