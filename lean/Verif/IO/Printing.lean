import Verif.IO.Summit
import Verif.Quadrature.Doubles
import Mathlib.Data.Int.Log
import Mathlib.Data.Rat.Floor

/-!
# Numbers in written files

The Summit writer prints coordinates with `std::setprecision(15)`, lib/mito/io/summit/MeshSummitWriter.h:88-90: the 15 significant decimal
digits nearest to the number.  The reader takes the `double` nearest to the decimal number, lib/mito/io/summit/reader.h:26.  Both are
rounded correctly, as in glibc.  Simplification: no over- and underflow.
-/

namespace Mito.Printing

open Mito.Quadrature (nearestEvenQ rnd)
open Mito.Summit

/-- the number that is printed, lib/mito/io/summit/MeshSummitWriter.h:88-90: 15 digits, and the even one of two nearest -/
def decimal (q : ℚ) : ℚ :=
  if q = 0 then 0 else nearestEvenQ (q / (10 : ℚ) ^ (Int.log 10 |q| - 14)) * (10 : ℚ) ^ (Int.log 10 |q| - 14)

/-- the coordinates of a mesh that was read from a file, lib/mito/io/summit/reader.h:20-34: `rd` is the rounding of decimals -/
def readCoordinates (rd : ℚ → ℚ) (pts : List (List ℚ)) (p : Nat) : List ℚ := (pts.getD p []).map rd

/-- the cells of a mesh that was read from a file, lib/mito/io/summit/reader.h:107-127: the nodes are numbered as in the file, and each has its own point -/
def readCells (cells : List (List Nat)) : List Cell := cells.map fun c => c.map fun i => ⟨i, i⟩

end Mito.Printing
