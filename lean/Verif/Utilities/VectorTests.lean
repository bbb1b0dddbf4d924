import Verif.Utilities.VectorPrograms

/-!
# The tests of segmented vectors in the repository

Segments have three elements.  `B i` is what `operator new` would return in the `i`-th call of `emplace`.
-/

namespace Mito.SegVec

/-- tests/mito.lib/utilities/segmented_vector.cc:23-77 -/
def sizeTest (B : Nat → Nat) : List VItem :=
  [.expect .capacity [0], .expect .size [0],
   .call (.emplace 0 (B 0)), .call (.emplace 1 (B 1)),
   .expect .capacity [3], .expect .size [2],
   .call (.emplace 2 (B 2)),
   .expect .capacity [3], .expect .size [3],
   .call (.erase 2),
   .expect .capacity [3], .expect .size [2],
   .call (.emplace 3 (B 3)),
   .expect .capacity [3], .expect .size [3],
   .call (.emplace 4 (B 4)),
   .expect .capacity [6], .expect .size [4],
   .call (.erase 3), .call (.erase 4),
   .expect .capacity [6], .expect .size [2]]

/-- tests/mito.lib/utilities/segmented_vector_erase.cc:23-56 -/
def eraseTest (B : Nat → Nat) : List VItem :=
  [.expect .capacity [0], .expect .size [0],
   .call (.emplace 0 (B 0)), .call (.emplace 1 (B 1)),
   .expect .capacity [3], .expect .size [2],
   .call (.erase 0), .call (.erase 1),
   .expect .capacity [3], .expect .size [0],
   .call (.emplace 2 (B 2)), .call (.emplace 3 (B 3)),
   .expect .capacity [3], .expect .size [2]]

/-- tests/mito.lib/utilities/segmented_vector_iterator.cc:25-107 -/
def iteratorTest (B : Nat → Nat) : List VItem :=
  [.expect .capacity [0], .expect .size [0],
   .call (.emplace 0 (B 0)), .call (.emplace 1 (B 1)), .call (.emplace 2 (B 2)),
   .expect .values [0, 1, 2],
   .call (.erase 1), .expect .values [0, 2],
   .call (.erase 0), .expect .values [2],
   .call (.erase 2), .expect .values [],
   .call (.emplace 5 (B 3)), .call (.emplace 6 (B 4)), .call (.emplace 7 (B 5)), .call (.emplace 4 (B 6)),
   .expect .values [6, 5, 7, 4]]

/-- tests/mito.lib/utilities/segmented_vector_subscript.cc:25-55 -/
def subscriptTest (B : Nat → Nat) : List VItem :=
  [.call (.emplace 0 (B 0)), .expect (.at 0) [0],
   .call (.emplace 1 (B 1)), .expect (.at 1) [1],
   .call (.emplace 2 (B 2)), .expect (.at 2) [2],
   .call (.emplace 3 (B 3)), .expect (.at 3) [3],
   .call (.emplace 4 (B 4)), .expect (.at 4) [4],
   .call (.emplace 5 (B 5)), .expect (.at 5) [5],
   .call (.erase 2), .expect (.valid 2) [0]]

/-- the tests above -/
def vectorTests (B : Nat → Nat) : List (List VItem) :=
  [sizeTest B, eraseTest B, iteratorTest B, subscriptTest B]

end Mito.SegVec
