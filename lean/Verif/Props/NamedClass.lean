import Verif.Utilities.NamedClass

/-! # C153: names of objects -/

namespace Mito.NamedClass

/-- C153.  Prepending a name to arguments of the class gives an object of that name with these arguments exactly if the class cannot be
constructed from all the arguments together with the name, or the name is a constant string. -/
theorem name_given_iff {C : Class} {a : Arg} {rest : List Arg} (ha : a.kind.isString = true) (hc : C (rest.map Arg.kind) = true) :
    construct C (a :: rest) = some ⟨a.text, rest⟩ ↔ a.kind = .constant ∨ C (a.kind :: rest.map Arg.kind) = false := by
  have hne : (⟨"unnamed", a :: rest⟩ : Object) ≠ ⟨a.text, rest⟩ := fun h => by
    have := congrArg (fun o : Object => o.args.length) h
    simp at this
  unfold construct
  simp only [namedViable, unnamedViable, ha, hc, Bool.and_self, Bool.true_and, List.map_cons, named, unnamed]
  cases hk : C (a.kind :: rest.map Arg.kind) with
  | false => simp
  | true =>
    cases ha' : a.kind <;> simp [namedBetter, hne]

/-- C153.  Otherwise the object gets the default name, and the class gets the name as its first argument. -/
theorem name_lost {C : Class} {a : Arg} {rest : List Arg} (h : a.kind ≠ .constant) (hc : C (a.kind :: rest.map Arg.kind) = true) :
    construct C (a :: rest) = some ⟨"unnamed", a :: rest⟩ := by
  have hb : namedBetter a.kind = false := by
    cases ha : a.kind <;> simp_all [namedBetter]
  unfold construct
  simp [hb, unnamedViable, hc, unnamed]

/-- C153.  Without a name the object gets the default name. -/
theorem default_name {C : Class} {args : List Arg} (hc : C (args.map Arg.kind) = true) (h : ∀ a ∈ args.head?, a.kind.isString = false) :
    construct C args = some ⟨"unnamed", args⟩ := by
  cases args with
  | nil => simp_all [construct, unnamedViable, unnamed]
  | cons a rest =>
    have ha := h a (by simp)
    unfold construct
    simp only [List.map_cons] at hc
    simp [namedViable, ha, unnamedViable, hc, unnamed]

/-- C153.  If it compiles, then the class can be constructed from the arguments that it gets, and these are all the arguments or all but the
first. -/
theorem construct_sound {C : Class} {args : List Arg} {o : Object} (h : construct C args = some o) :
    C (o.args.map Arg.kind) = true ∧ (o = ⟨"unnamed", args⟩ ∨ ∃ a rest, args = a :: rest ∧ a.kind.isString = true ∧ o = ⟨a.text, rest⟩) := by
  unfold construct at h
  cases args with
  | nil =>
    by_cases hc : unnamedViable C [] = true
    · simp only [hc, if_true, Option.some.injEq] at h
      subst h
      exact ⟨hc, Or.inl rfl⟩
    · simp [hc] at h
  | cons a rest =>
    simp only at h
    split at h
    · rename_i hc
      obtain rfl := Option.some.inj h
      simp only [namedViable, Bool.and_eq_true] at hc
      exact ⟨hc.1.2, Or.inr ⟨a, rest, rfl, hc.1.1, rfl⟩⟩
    · split at h
      · rename_i hc
        obtain rfl := Option.some.inj h
        exact ⟨hc, Or.inl rfl⟩
      · cases h

/-- C153.  It does not compile exactly if the class cannot be constructed from the arguments, with or without a name in front. -/
theorem construct_none_iff {C : Class} {args : List Arg} :
    construct C args = none ↔ C (args.map Arg.kind) = false ∧
      ∀ a rest, args = a :: rest → a.kind.isString = true → C (rest.map Arg.kind) = false := by
  unfold construct
  cases args with
  | nil => cases h : C [] <;> simp [unnamedViable, h]
  | cons a rest =>
    cases h1 : C (a.kind :: rest.map Arg.kind) <;> cases h2 : a.kind.isString <;> cases h3 : C (rest.map Arg.kind) <;>
      cases h4 : namedBetter a.kind <;> simp [unnamedViable, namedViable, h1, h2, h3, h4]

/-- C153.  The test, tests/mito.lib/utilities/named_class.cc:36-47. -/
theorem named_class_test : construct foo [⟨.other 0, "42"⟩] = some ⟨"unnamed", [⟨.other 0, "42"⟩]⟩ ∧
    construct foo [⟨.literal, "bar"⟩, ⟨.other 0, "43"⟩] = some ⟨"bar", [⟨.other 0, "43"⟩]⟩ :=
  ⟨default_name (by decide) (by simp [Kind.isString]), (name_given_iff (by decide) (by decide)).mpr (Or.inr (by decide))⟩

/-- C153.  It is not true that a prepended name becomes the name of the object: a class that can be constructed with or without a string, such
as one with a file name as an optional argument, takes the name as its own. -/
theorem name_fails : ∃ (C : Class) (a : Arg) (rest : List Arg), a.kind.isString = true ∧ C (rest.map Arg.kind) = true ∧
    construct C (a :: rest) = some ⟨"unnamed", a :: rest⟩ ∧ construct C (a :: rest) ≠ some ⟨a.text, rest⟩ := by
  refine ⟨fun ks => ks == [] || ks == [.literal], ⟨.literal, "bar"⟩, [], by decide, by decide, name_lost (by decide) (by decide), fun h => ?_⟩
  rw [name_given_iff (by decide) (by decide)] at h
  revert h
  decide

/-- with the same class a constant string is a name, and two strings are a name and an argument -/
example : construct (fun ks => ks == [] || ks == [.literal]) [⟨.constant, "bar"⟩] = some ⟨"bar", []⟩ ∧
    construct (fun ks => ks == [] || ks == [.literal]) [⟨.variable, "bar"⟩, ⟨.literal, "file"⟩] = some ⟨"bar", [⟨.literal, "file"⟩]⟩ :=
  ⟨(name_given_iff (by decide) (by decide)).mpr (Or.inl rfl), (name_given_iff (by decide) (by decide)).mpr (Or.inr (by decide))⟩

end Mito.NamedClass
