import Verif.Utilities.PointerTests

/-! # C119: the tests of shared pointers and repositories pass -/

namespace Mito.SharedPointer

/-- The seven tests of reference counts in the repository meet their expectations. -/
theorem shared_pointer_tests_pass : ∀ T ∈ pointerTests, T.passes = true := by decide +kernel

/-- and a wrong expectation is noticed -/
example : PointerTest.passes ⟨[.ofHandle 1 1, .copy 2 1], [(1, 1)]⟩ = false := by decide +kernel

/-- A test passes exactly if the program is defined and all the expectations are met. -/
theorem passes_iff (T : PointerTest) :
    T.passes = true ↔ ∃ s, run .init T.ops = .ok s ∧ ∀ e ∈ T.expected, references s e.1 = some e.2 := by
  unfold PointerTest.passes
  cases run .init T.ops with
  | ub => simp
  | ok s => simp [List.all_eq_true]

end Mito.SharedPointer

namespace Mito.Repo

/-- The two tests of repositories meet their expectations, here with blocks ten apart, in ascending or descending order. -/
theorem repository_tests_pass :
    rtest (.init 3) (repositoryTest fun i => 10 * i + 10) = true ∧
    rtest (.init 3) (repositoryIteratorTest fun i => 10 * i + 10) = true ∧
    rtest (.init 3) (repositoryTest fun i => 1000 - 10 * i) = true ∧
    rtest (.init 3) (repositoryIteratorTest fun i => 1000 - 10 * i) = true := by decide +kernel

/-- and a wrong expectation is noticed: the slots are reused in the order of erasing -/
theorem wrong_repository_test_fails : rtest (.init 3) (repositoryIteratorTest (fun i => 10 * i + 10) ++ [.elements [5, 6, 7, 4]]) = false := by decide +kernel

/-- Undefined behaviour counts as failure. -/
theorem rtest_undefined {s : Repo} {v b : Nat} {l : List RItem} :
    (emplace s v b = none → rtest s (.emplace v b :: l) = false) ∧ (erase s v = none → rtest s (.erase v :: l) = false) := by
  constructor <;> intro h <;> simp [rtest, h]

end Mito.Repo
