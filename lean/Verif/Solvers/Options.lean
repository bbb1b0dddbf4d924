/-!
# Model of the options of the linear solver

lib/mito/matrix_solvers/backend/petsc/PETScKrylovSolver.cc:50-106

A `std::string` is a list of characters.  The database of options of PETSc is outside of the model: what is modelled is
the string that `set_options` hands to `PetscOptionsInsertString`.
-/

namespace Mito.Options

/-- `std::string::find(" ", pos)`: the first position from `pos` on at which there is a space, `none` for `npos` -/
def find (s : List Char) (pos : Nat) : Option Nat :=
  if h : pos < s.length then if s[pos] = ' ' then some pos else find s (pos + 1) else none
termination_by s.length - pos

theorem find_range {s : List Char} {pos p : Nat} (h : find s pos = some p) : pos ≤ p ∧ p < s.length := by
  fun_induction find with
  | case1 pos h1 h2 => cases h; exact ⟨Nat.le_refl _, h1⟩
  | case2 pos h1 h2 ih => have := ih h; omega
  | case3 => cases h

/-- `std::string::substr(pos, count)`; the count is clipped to what is left, so that `npos - pos` means the rest -/
def substr (s : List Char) (pos count : Nat) : List Char := (s.drop pos).take count

/-- the loop that splits the options into words, lib/mito/matrix_solvers/backend/petsc/PETScKrylovSolver.cc:56-66 -/
def words (s : List Char) (pos_old : Nat) (options_vector : List (List Char)) : List (List Char) :=
  match h : find s pos_old with
  | some pos_new => words s (pos_new + 1) (options_vector ++ [substr s pos_old (pos_new - pos_old)])
  | none => options_vector ++ [s.drop pos_old]
termination_by s.length - pos_old
decreasing_by have := find_range h; omega

/-- lib/mito/matrix_solvers/backend/petsc/PETScKrylovSolver.cc:70-75; `word[0]` of an empty word is the null character -/
def prefixWord (pre word : List Char) : List Char :=
  match word with
  | '-' :: rest => '-' :: (pre ++ rest)
  | _ => word

/-- `prepend_options_prefix`, lib/mito/matrix_solvers/backend/petsc/PETScKrylovSolver.cc:53-85 -/
def prependOptionsPrefix (options pre : List Char) : List Char :=
  ((words options 0 []).map (prefixWord pre)).foldl (fun prefixed_options word => prefixed_options ++ (word ++ [' '])) []

end Mito.Options
