import Verif.Spec.DiscreteField
import Verif.Utilities.AssocLemmas
import Mathlib.Data.Finset.Card
import Mathlib.Data.Finset.Dedup

/-! # C65: discrete fields -/

namespace Mito.DiscreteField

open Mito.Assoc

variable {κ V : Type} [DecidableEq κ]

/-- one use, if the program goes on -/
theorem step_get {debug : Bool} {f f1 : Field κ V} {op : Op κ V} {st : Status}
    (hs : step debug f op = (st, f1)) (h : st ≠ .aborts) (k : κ) : get f1 k = match op with
      | .insert k' v => if k' = k then some ((get f k).getD v) else get f k
      | .write k' v => if k' = k then (get f k).map fun _ => v else get f k := by
  rcases op with ⟨k', v⟩ | ⟨k', v⟩
  · simp only [step] at hs ⊢
    split at hs
    · obtain ⟨rfl, _⟩ := Prod.mk.inj hs
      exact absurd rfl h
    · obtain ⟨_, rfl⟩ := Prod.mk.inj hs
      rw [get_insert]
      by_cases e : k' = k
      · subst e; simp
      · simp [e]
  · simp only [step] at hs ⊢
    rcases hk : get f k' with _ | w
    · rw [hk] at hs
      obtain ⟨_, rfl⟩ := Prod.mk.inj hs
      by_cases e : k' = k
      · subst e; simp [hk]
      · simp [e]
    · rw [hk] at hs
      obtain ⟨_, rfl⟩ := Prod.mk.inj hs
      simp only [get_set]
      by_cases e : k' = k
      · subst e; simp
      · simp [e]

theorem run_get {debug : Bool} (h : List (Op κ V)) (f f' : Field κ V) (hr : run debug f h = some f')
    (k : κ) : get f' k = match get f k with
      | none => valueOf k h
      | some v => some (((h.filterMap (writes k)).getLast?).getD v) := by
  induction h generalizing f with
  | nil =>
    simp only [run, Option.some.injEq] at hr
    subst hr
    rcases get f k with _ | v <;> rfl
  | cons op ops ih =>
    rw [run] at hr
    rcases hs : step debug f op with ⟨st, f1⟩
    rw [hs] at hr
    have hst : st ≠ .aborts := by rintro rfl; simp at hr
    have hr' : run debug f1 ops = some f' := by
      rcases st with _ | _ | _
      · exact hr
      · exact hr
      · exact absurd rfl hst
    have h1 := step_get hs hst k
    rw [ih f1 hr', h1]
    rcases op with ⟨k', v⟩ | ⟨k', v⟩
    · by_cases e : k' = k
      · subst e
        rcases hg : get f k' with _ | w <;> simp [valueOf, writes]
      · rcases hg : get f k with _ | w <;> simp [valueOf, writes, e]
    · by_cases e : k' = k
      · subst e
        rcases hg : get f k' with _ | w
        · simp [valueOf]
        · simp only [Option.map_some, if_true, writes, List.filterMap_cons, Option.some.injEq]
          rcases (ops.filterMap (writes k')) with _ | ⟨x, l⟩
          · rfl
          · rw [List.getLast?_cons_cons]
            simp [List.getLast?_cons]
      · rcases hg : get f k with _ | w <;> simp [valueOf, writes, e]

/-- After any history that the program survives, a field holds at each key the value written last. -/
theorem field_value (debug : Bool) (h : List (Op κ V)) (f : Field κ V) (hr : run debug [] h = some f)
    (k : κ) : read f k = valueOf k h := by
  exact run_get h [] f hr k

theorem valueOf_isSome (k : κ) (h : List (Op κ V)) : (valueOf k h).isSome = true ↔ k ∈ inserted h := by
  induction h with
  | nil => simp [valueOf, inserted]
  | cons op ops ih =>
    rcases op with ⟨k', v⟩ | ⟨k', v⟩
    · by_cases e : k' = k
      · subst e; simp [valueOf, inserted]
      · simp only [valueOf, if_neg e, ih, inserted, List.mem_cons, Ne.symm e, false_or]
    · simpa [valueOf, inserted] using ih

/-- Reading throws exactly at the keys that were never inserted. -/
theorem field_throws (debug : Bool) (h : List (Op κ V)) (f : Field κ V) (hr : run debug [] h = some f)
    (k : κ) : read f k = none ↔ k ∉ inserted h := by
  rw [field_value debug h f hr, ← valueOf_isSome]
  rcases valueOf k h with _ | v <;> simp

/-- Inserting an entry that is there changes nothing; in a debug build it ends the program. -/
theorem field_insert_present (f : Field κ V) (k : κ) (v : V) (h : k ∈ keys f) :
    step false f (.insert k v) = (.done, f) ∧ step true f (.insert k v) = (.aborts, f) := by
  rcases hg : get f k with _ | w
  · exact absurd h (get_none.mp hg)
  · simp [step, hg, insert_of_some hg]

theorem run_keys {debug : Bool} (h : List (Op κ V)) (f f' : Field κ V) (hf : (keys f).Nodup)
    (hr : run debug f h = some f') :
    (keys f').Nodup ∧ (debug = true → (inserted h).Nodup ∧ ∀ k ∈ inserted h, k ∉ keys f) := by
  induction h generalizing f with
  | nil =>
    simp only [run, Option.some.injEq] at hr
    subst hr
    exact ⟨hf, fun _ => ⟨by simp [inserted], by simp [inserted]⟩⟩
  | cons op ops ih =>
    rw [run] at hr
    rcases op with ⟨k', v⟩ | ⟨k', v⟩
    · simp only [step] at hr
      by_cases hc : (debug && (get f k').isSome) = true
      · rw [if_pos hc] at hr; simp at hr
      · rw [if_neg hc] at hr
        obtain ⟨i1, i2⟩ := ih _ (keys_insert_nodup hf k' v) hr
        refine ⟨i1, fun hd => ?_⟩
        obtain ⟨j1, j2⟩ := i2 hd
        have hn : k' ∉ keys f := by
          rw [← get_none]
          rcases hg : get f k' with _ | w
          · rfl
          · rw [hd, hg] at hc; simp at hc
        rw [keys_insert, if_neg hn] at j2
        simp only [inserted, List.nodup_cons, List.mem_cons, forall_eq_or_imp]
        refine ⟨⟨fun hm => j2 k' hm (by simp), j1⟩, hn, fun k hk hc' => j2 k hk (by simp [hc'])⟩
    · simp only [step] at hr
      rcases hg : get f k' with _ | w
      · rw [hg] at hr
        simpa [inserted] using ih f hf hr
      · rw [hg] at hr
        obtain ⟨i1, i2⟩ := ih (Assoc.set f k' v) (by rw [keys_set]; exact hf) hr
        rw [keys_set] at i2
        exact ⟨i1, by simpa [inserted] using i2⟩

/-- `size()` is the number of keys inserted. -/
theorem field_size (debug : Bool) (h : List (Op κ V)) (f : Field κ V) (hr : run debug [] h = some f) :
    f.length = (inserted h).toFinset.card := by
  have hn := (run_keys h [] f (by simp [keys]) hr).1
  have : (keys f).toFinset = (inserted h).toFinset := by
    ext k
    have := field_throws debug h f hr k
    rw [read, get_none] at this
    simp only [List.mem_toFinset]
    tauto
  rw [← this, List.toFinset_card_of_nodup hn, keys, List.length_map]

/-- A debug build survives exactly the histories that insert no key twice. -/
theorem field_debug (h : List (Op κ V)) :
    (run true ([] : Field κ V) h).isSome = true ↔ (inserted h).Nodup := by
  constructor
  · intro hs
    obtain ⟨f, hf⟩ := Option.isSome_iff_exists.mp hs
    exact ((run_keys h [] f (by simp [keys]) hf).2 rfl).1
  · suffices H : ∀ (h : List (Op κ V)) (f : Field κ V), (inserted h).Nodup →
        (∀ k ∈ inserted h, get f k = none) → (run true f h).isSome = true from
      fun hn => H h [] hn (by simp)
    intro h
    induction h with
    | nil => intro f _ _; rfl
    | cons op ops ih =>
      intro f hn hk
      rcases op with ⟨k', v⟩ | ⟨k', v⟩
      · simp only [inserted, List.nodup_cons] at hn
        have h0 := hk k' (by simp [inserted])
        rw [run]
        simp only [step, h0, Bool.true_and, Option.isSome_none, Bool.false_eq_true, if_false]
        apply ih _ hn.2
        intro k hm
        have hne : k' ≠ k := fun e => hn.1 (e ▸ hm)
        rw [get_insert, if_neg hne]
        exact hk k (by simp [inserted, hm])
      · rw [run]
        simp only [step]
        rcases hg : get f k' with _ | w
        · exact ih f hn hk
        · apply ih _ hn
          intro k hm
          rw [get_set]
          split
          · rename_i e
            subst e
            have := hk k' hm
            rw [hg] at this
            simp at this
          · exact hk k hm

/-- Release and debug builds agree on the histories that a debug build survives. -/
theorem field_release (h : List (Op κ V)) (f f' : Field κ V) (hr : run true f h = some f') :
    run false f h = some f' := by
  induction h generalizing f with
  | nil => exact hr
  | cons op ops ih =>
    rw [run] at hr ⊢
    rcases op with ⟨k', v⟩ | ⟨k', v⟩
    · simp only [step, Bool.true_and, Bool.false_and, Bool.false_eq_true, if_false] at hr ⊢
      rcases hg : get f k' with _ | w
      · rw [hg] at hr
        exact ih _ hr
      · rw [hg] at hr
        simp at hr
    · simp only [step] at hr ⊢
      rcases hg : get f k' with _ | w
      · rw [hg] at hr
        exact ih _ hr
      · rw [hg] at hr
        exact ih _ hr

/-- A field made from a collection of keys holds the default value at each of them, and nothing else. -/
theorem field_ofKeys (debug : Bool) (v : V) (ks : List κ) (f : Field κ V)
    (h : ofKeys debug v ks = some f) (k : κ) :
    read f k = if k ∈ ks then some v else none := by
  rw [field_value debug _ f h]
  clear h f
  induction ks with
  | nil => rfl
  | cons x ks ih =>
    simp only [List.map_cons, valueOf]
    by_cases e : x = k
    · subst e
      have : ((ks.map fun k => Op.insert k v).filterMap (writes x)) = [] := by
        rw [List.filterMap_eq_nil_iff]
        intro a ha
        obtain ⟨y, _, rfl⟩ := List.mem_map.mp ha
        rfl
      simp [this]
    · rw [if_neg e, ih]
      simp [Ne.symm e]

/-! ### Examples -/

example : (run true [] [.insert 1 10, .insert 2 20, .write 1 11, .write 3 30]).map (fun f => (read f 1, read f 2, read f 3)) =
    some (some 11, some 20, none) := by decide
example : run true [] [Op.insert 1 10, .insert 1 20] = none ∧
    run false [] [Op.insert 1 10, .insert 1 20] = some [(1, 10)] := by decide
example : ofKeys true (0 : Int) [3, 1, 2] = some [(3, 0), (1, 0), (2, 0)] := by decide

end Mito.DiscreteField
