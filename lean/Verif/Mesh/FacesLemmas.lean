import Verif.Mesh.LoadFacesLemmas
import Verif.Mesh.SquareLemmas

/-! # Deciding the conditions on the faces of the mesh of a file -/

namespace Mito.Load

open Mito.Combinatorics Mito.Topology

/-- the rotation of a triangle that begins with the smallest vertex -/
def rotated : List Nat → List Nat
  | [i, j, k] => if i < j ∧ i < k then [i, j, k] else if j < i ∧ j < k then [j, k, i] else [k, i, j]
  | l => l

/-- two numbers for the orientation of a face -/
def key (n : Nat) (f : List Nat) : Nat × Nat :=
  match rotated f with
  | [i, j] => (0, i * n + j)
  | [i, j, k] => (i, j * n + k)
  | _ => (0, 0)

theorem rotated_rotate {a b c : Nat} (h : [a, b, c].Nodup) : rotated [b, c, a] = rotated [a, b, c] := by
  simp only [List.nodup_cons, List.mem_cons, List.not_mem_nil, or_false, not_or, not_false_eq_true, List.nodup_nil, and_true] at h
  simp only [rotated]
  split_ifs <;> first | rfl | omega

theorem key_of_even {n : Nat} {f g : List Nat} (hl : f.length = 2 ∨ f.length = 3) (hf : f.Nodup) (h : permutationSign g f = some 1) :
    key n g = key n f := by
  match f, hl with
  | [a, b], _ =>
    have hp := perm_of_permutationSign h
    match g, hp.length_eq with
    | [x, y], _ =>
      have hab : a ≠ b := by simpa using hf
      have hx := hp.mem_iff (a := x)
      have hy := hp.mem_iff (a := y)
      have hxy : x ≠ y := by simpa using hp.nodup_iff.mpr hf
      simp at hx hy
      rcases hx with rfl | rfl
      · rcases hy with rfl | rfl
        · exact absurd rfl hxy
        · rfl
      · rcases hy with rfl | rfl
        · have := permutationSign_swap01 y x [] hf
          rw [this] at h
          simp at h
        · exact absurd rfl hxy
  | [a, b, c], _ =>
    have hf' : [b, c, a].Nodup := by simp at hf ⊢; tauto
    rcases permutationSign_three hf h with rfl | rfl | rfl
    · rfl
    · simp only [key, rotated_rotate hf]
    · simp only [key, rotated_rotate hf', rotated_rotate hf]

theorem pair_inj {n a b c d : Nat} (hb : b < n) (hd : d < n) (h : a * n + b = c * n + d) : a = c ∧ b = d := by
  have q1 : a = c := by
    have := congrArg (· / n) h
    simp only [Nat.add_comm _ b, Nat.add_comm _ d, Nat.add_mul_div_right _ _ (by omega : 0 < n), Nat.div_eq_of_lt hb,
      Nat.div_eq_of_lt hd, Nat.zero_add] at this
    exact this
  subst q1
  exact ⟨rfl, by omega⟩

theorem rotated_even {f : List Nat} (hl : f.length = 2 ∨ f.length = 3) (hf : f.Nodup) : permutationSign (rotated f) f = some 1 := by
  match f, hl with
  | [a, b], _ => exact permutationSign_refl (a := [a, b]) (by simp) hf
  | [a, b, c], _ =>
    simp only [rotated]
    have hf' : [b, c, a].Nodup := by simp at hf ⊢; tauto
    have n1 : [c, a, b].Nodup := by simp at hf ⊢; tauto
    split_ifs
    · exact permutationSign_refl (by simp) hf
    · have := permutationSign_trans n1 (permutationSign_cycle n1) (permutationSign_cycle hf)
      simpa using this
    · exact permutationSign_cycle hf

theorem rotated_lt {n : Nat} {f : List Nat} (h : ∀ i ∈ f, i < n) (hl : f.length = 2 ∨ f.length = 3) (hf : f.Nodup) : ∀ i ∈ rotated f, i < n :=
  fun i hi => h i ((perm_of_permutationSign (rotated_even hl hf)).mem_iff.mp hi)

theorem even_of_key {n : Nat} {f g : List Nat} (hl : f.length = 2 ∨ f.length = 3) (hlg : g.length = f.length) (hf : f.Nodup) (hg : g.Nodup)
    (hfn : ∀ i ∈ f, i < n) (hgn : ∀ i ∈ g, i < n) (h : key n g = key n f) : permutationSign g f = some 1 := by
  have ef := rotated_even hl hf
  have eg := rotated_even (by rwa [hlg]) hg
  have hrf := rotated_lt hfn hl hf
  have hrg := rotated_lt hgn (by rwa [hlg]) hg
  have lf := (perm_of_permutationSign ef).length_eq
  have lg := (perm_of_permutationSign eg).length_eq
  have e : rotated g = rotated f := by
    unfold key at h
    clear ef eg
    generalize rotated g = a at lg h hrg ⊢
    generalize rotated f = b at lf h hrf ⊢
    rcases hl with e | e
    · rw [hlg, e] at lg
      rw [e] at lf
      match a, b, lf, lg with
      | [i, j], [k, l], _, _ =>
        simp only [Prod.mk.injEq, true_and] at h
        obtain ⟨h1, h2⟩ := pair_inj (hrg j (by simp)) (hrf l (by simp)) h
        rw [h1, h2]
    · rw [hlg, e] at lg
      rw [e] at lf
      match a, b, lf, lg with
      | [i, j, k], [i', j', k'], _, _ =>
        simp only [Prod.mk.injEq] at h
        obtain ⟨h1, h2⟩ := pair_inj (hrg k (by simp)) (hrf k' (by simp)) h.2
        rw [h.1, h1, h2]
  rw [e] at eg
  have hnr : (rotated f).Nodup := (perm_of_permutationSign ef).nodup_iff.mpr hf
  obtain ⟨s, hs⟩ := permutationSign_some (a := g) (b := rotated f) (by rintro rfl; simp at hlg; omega) hnr (perm_of_permutationSign eg).symm
  have h1 := permutationSign_trans hg eg hs
  rw [permutationSign_refl (by intro e0; rw [e0] at lf; simp at lf; omega) hnr] at h1
  have := permutationSign_trans hnr hs ef
  simp at h1
  rw [← h1] at this
  simpa using this

theorem opposite_iff {f g : List Nat} (hl : 2 ≤ f.length) (hf : f.Nodup) : Opposite f g ↔ permutationSign g (swap01 f) = some 1 := by
  have h1 := permutationSign_swap01' hl hf
  have hp := perm_of_permutationSign h1
  have hs : (swap01 f).Nodup := hp.nodup_iff.mpr hf
  unfold Opposite
  constructor
  · intro h
    have hpg := perm_of_permutationSign h
    obtain ⟨s, e⟩ := permutationSign_some (a := g) (by rintro rfl; simp at hpg; subst hpg; simp at hl) hs (hpg.trans hp.symm)
    have := permutationSign_trans hs e h1
    rw [h] at this
    rw [e]
    simp at this ⊢
    omega
  · intro h
    simpa using permutationSign_trans hs h h1

/-! ### sets of pairs of numbers -/

/-- the set with one more element -/
def addKey (s : List Nat) (e : Nat × Nat) : List Nat := s.modify e.1 (· ||| 1 <<< e.2)

/-- membership -/
def hasKey (s : List Nat) (e : Nat × Nat) : Bool := (s.getD e.1 0).testBit e.2

theorem hasKey_addKey (s : List Nat) (e : Nat × Nat) (he : e.1 < s.length) (x : Nat × Nat) :
    hasKey (addKey s e) x = (hasKey s x || decide (x = e)) := by
  simp only [hasKey, addKey, List.getD_eq_getElem?_getD, List.getElem?_modify]
  by_cases h : e.1 = x.1
  · have hx : x.1 < s.length := h ▸ he
    simp only [h, if_true, List.getElem?_eq_getElem hx, Option.map_eq_map, Option.map_some, Option.getD_some]
    rw [testBit_insert]
    congr 1
    simp [Prod.ext_iff, h]
  · simp only [h, if_false, Option.map_eq_map, Option.map_id']
    have : x ≠ e := fun e' => h (by rw [e'])
    simp [this]

theorem addKey_length (s : List Nat) (e : Nat × Nat) : (addKey s e).length = s.length := by simp [addKey]

/-- the set of the pairs in a list -/
def keys : List (Nat × Nat) → List Nat → List Nat
  | [], s => s
  | a :: l, s => keys l (addKey s a)

/-- no pair is repeated or in the set -/
def noRepeatKeys : List (Nat × Nat) → List Nat → Bool
  | [], _ => true
  | a :: l, s => decide (a.1 < s.length) && !hasKey s a && noRepeatKeys l (addKey s a)

theorem hasKey_keys (l : List (Nat × Nat)) (s : List Nat) (h : ∀ e ∈ l, e.1 < s.length) (x : Nat × Nat) :
    hasKey (keys l s) x = true ↔ hasKey s x = true ∨ x ∈ l := by
  induction l generalizing s with
  | nil => simp [keys]
  | cons a l ih =>
    rw [keys, ih _ (fun e he => by rw [addKey_length]; exact h e (by simp [he])), hasKey_addKey _ _ (h a (by simp))]
    simp only [Bool.or_eq_true, decide_eq_true_eq, List.mem_cons, or_assoc]

theorem noRepeatKeys_nodup {l : List (Nat × Nat)} {s : List Nat} (h : noRepeatKeys l s = true) :
    l.Nodup ∧ (∀ e ∈ l, e.1 < s.length) ∧ ∀ a ∈ l, hasKey s a = false := by
  induction l generalizing s with
  | nil => simp
  | cons a l ih =>
    simp only [noRepeatKeys, Bool.and_eq_true, Bool.not_eq_true', decide_eq_true_eq] at h
    obtain ⟨⟨h0, h1⟩, h2⟩ := h
    obtain ⟨g1, g2, g3⟩ := ih h2
    have hkey : ∀ b ∈ l, hasKey s b = false ∧ b ≠ a := by
      intro b hb
      have := g3 b hb
      rw [hasKey_addKey _ _ h0] at this
      simpa using this
    refine ⟨List.nodup_cons.mpr ⟨fun hm => (hkey a hm).2 rfl, g1⟩, fun e he => ?_, fun e he => ?_⟩
    · rcases List.mem_cons.mp he with rfl | he
      · exact h0
      · have := g2 e he
        rwa [addKey_length] at this
    · rcases List.mem_cons.mp he with rfl | he
      · exact h1
      · exact (hkey e he).1

/-! ### conditions on the mesh -/

theorem faces_length {c : List Nat} {d : Nat} (hd : d = 2 ∨ d = 3) (hc : c.length = d + 1) {f : List Nat} (hf : f ∈ faces c) : f.length = d := by
  rcases hd with rfl | rfl
  · match c, hc with
    | [a, b, c], _ =>
      simp only [faces, List.mem_cons, List.not_mem_nil, or_false] at hf
      rcases hf with rfl | rfl | rfl <;> rfl
  · match c, hc with
    | [a, b, c, d], _ =>
      simp only [faces, List.mem_cons, List.not_mem_nil, or_false] at hf
      rcases hf with rfl | rfl | rfl | rfl <;> rfl

section
variable {d n : Nat} (hd : d = 2 ∨ d = 3) {cells : List (List Nat)} (hc : ∀ c ∈ cells, c.length = d + 1 ∧ (∀ i ∈ c, i < n) ∧ c.Nodup)
include hd hc

theorem face_facts {f : List Nat} (hf : f ∈ cells.flatMap faces) : f.length = d ∧ (∀ i ∈ f, i < n) ∧ f.Nodup := by
  obtain ⟨c, hm, hfc⟩ := List.mem_flatMap.mp hf
  obtain ⟨h1, h2, h3⟩ := hc c hm
  exact ⟨faces_length hd h1 hfc, fun i hi => h2 i (faces_mem hfc i hi), faces_nodup h3 hfc⟩

theorem NoCommonFaces.of (h : noRepeatKeys ((cells.flatMap faces).map (key n)) (List.replicate n 0) = true) : NoCommonFaces cells := by
  have h1 := (noRepeatKeys_nodup h).1
  unfold NoCommonFaces
  unfold List.Nodup at h1
  rw [List.pairwise_map] at h1
  refine h1.imp_of_mem fun {f g} hf hg hne he => hne ?_
  obtain ⟨a1, a2, a3⟩ := face_facts hd hc hf
  exact (key_of_even (by omega) a3 he).symm

theorem outerFaces_eq (h : noRepeatKeys ((cells.flatMap faces).map (key n)) (List.replicate n 0) = true) :
    outerFaces cells = (cells.flatMap faces).filter fun f =>
      !hasKey (keys ((cells.flatMap faces).map (key n)) (List.replicate n 0)) (key n (swap01 f)) := by
  refine List.filter_congr fun f hf => ?_
  obtain ⟨a1, a2, a3⟩ := face_facts hd hc hf
  have h1 := permutationSign_swap01' (l := f) (by omega) a3
  have hp := perm_of_permutationSign h1
  have hs : (swap01 f).Nodup := hp.nodup_iff.mpr a3
  have hls : (swap01 f).length = d := by rw [hp.length_eq, a1]
  rw [Bool.eq_iff_iff, decide_eq_true_eq, Bool.not_eq_true', ← Bool.not_eq_true, hasKey_keys _ _ (noRepeatKeys_nodup h).2.1]
  have h0 : hasKey (List.replicate n 0) (key n (swap01 f)) = false := by
    simp only [hasKey, List.getD_eq_getElem?_getD, List.getElem?_replicate]
    split_ifs <;> simp
  simp only [h0, Bool.false_eq_true, false_or, List.mem_map, not_exists, not_and]
  refine forall₂_congr fun g hg => not_congr ?_
  obtain ⟨b1, b2, b3⟩ := face_facts hd hc hg
  rw [opposite_iff (by omega) a3]
  exact ⟨fun e => key_of_even (by omega) hs e,
    fun e => even_of_key (by omega) (by omega) hs b3 (fun i hi => a2 i (hp.mem_iff.mp hi)) b2 e⟩

end

/-- a number for a set of nodes -/
def setCode (p a : Nat) (c : List Nat) : Nat := (c.map fun i => i * i * i + a * i).sum % p

/-- cells on different sets of nodes -/
theorem distinct_of_codes (p a : Nat) {cells : List (List Nat)} (hn : ∀ c ∈ cells, c.Nodup)
    (h : noRepeat (cells.map (setCode p a)) 0 = true) : cells.Pairwise fun c c' => c.toFinset ≠ c'.toFinset := by
  have h1 := (noRepeat_nodup h).1
  unfold List.Nodup at h1
  rw [List.pairwise_map] at h1
  refine h1.imp_of_mem fun {c c'} hc hc' hne e => hne ?_
  have hp : c.Perm c' := by
    rw [List.perm_ext_iff_of_nodup (hn c hc) (hn c' hc')]
    intro i
    have := Finset.ext_iff.mp e i
    simpa using this
  unfold setCode
  rw [(hp.map _).sum_eq]

end Mito.Load
