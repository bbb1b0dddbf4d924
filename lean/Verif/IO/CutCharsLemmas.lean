import Verif.IO.ExtractionLemmas

/-! # Lemmas on `>>` of the characters of files that are cut -/

namespace Mito.Printing

open Mito.Summit

/-! ### numbers that are cut -/

theorem parseNumber_minus (v : List Char) : parseNumber ('-' :: v) = (parseAbs v).map fun x => -x := rfl

/-- what is left of a number is read as `strtod` reads it, or the read fails -/
theorem scan_prefix {v t r : List Char} {x : ℚ} (hw : parseAbs (v ++ t) = some x) (hp : parseAbs v = none) (hr : ∀ c ∈ r.head?, isSpace c = true) :
    (v ++ r).takeWhile isDigit ++ fractionOf ((v ++ r).dropWhile isDigit) = [] ∨
      (scanExponent (behindFraction ((v ++ r).dropWhile isDigit))).1 = none := by
  obtain ⟨a, b⟩ := digits_word v hr
  obtain ⟨c, d⟩ := fraction_word (w := v.dropWhile isDigit) hr
  rw [a, b, c, d]
  by_cases hi : v.takeWhile isDigit = []
  · -- the word starts with a digit
    left
    match v with
    | [] => rfl
    | ch :: v =>
      exfalso
      by_cases hc : isDigit ch = true
      · rw [List.takeWhile_cons_of_pos hc] at hi
        simp at hi
      · rw [parseAbs, List.cons_append, List.takeWhile_cons_of_neg hc] at hw
        simp at hw
  · right
    rw [parseAbs] at hp
    simp only [if_neg hi] at hp
    have hE : parseExponent (behindFraction (v.dropWhile isDigit)) = none := by
      split at hp
      · assumption
      · simp at hp
    -- something follows the digits and the fraction
    cases hB : behindFraction (v.dropWhile isDigit) with
    | nil =>
      rw [hB] at hE
      simp [parseExponent] at hE
    | cons e E =>
      have hne : v.dropWhile isDigit ≠ [] := by
        intro h0
        rw [h0] at hB
        simp [behindFraction] at hB
      have htk : (v ++ t).dropWhile isDigit = v.dropWhile isDigit ++ t := by
        rw [List.dropWhile_append]
        simp [hne]
      have hbt : behindFraction ((v ++ t).dropWhile isDigit) = e :: E ++ t := by
        rw [htk, ← hB]
        match hv : v.dropWhile isDigit, hne with
        | c0 :: u, _ =>
          rw [hv] at hB
          simp only [List.cons_append, behindFraction] at hB ⊢
          split_ifs at hB ⊢ with hdot
          · rw [List.dropWhile_append, hB]
            simp
          · rfl
      have hsome : ∃ y, parseExponent (e :: E ++ t) = some y := by
        rw [parseAbs] at hw
        split_ifs at hw
        rw [hbt] at hw
        split at hw
        · simp at hw
        · rename_i y hy
          exact ⟨y, hy⟩
      obtain ⟨y, hy⟩ := hsome
      rw [hB] at hE
      have hee : e = 'e' := by
        by_contra hne'
        unfold parseExponent at hy
        split at hy
        · rename_i s cs heq
          simp only [List.cons_append, List.cons.injEq] at heq
          exact hne' heq.1
        · simp at *
        · simp at hy
      subst hee
      have hr0 : r.takeWhile isDigit = [] := by
        have := (digits_word [] hr).1
        simpa using this
      match E with
      | [] =>
        have hs : scanSign r = (false, r) := by
          match r, hr with
          | [], _ => rfl
          | c :: r, hr =>
            have hc := hr c (by simp)
            have h1 : c ≠ '-' ∧ c ≠ '+' := by
              constructor <;>
              · rintro rfl
                exact absurd hc (by decide)
            simp [scanSign, h1.1, h1.2]
        simp [scanExponent, hs, hr0]
      | s :: ds =>
        simp only [List.cons_append, parseExponent] at hy hE
        split_ifs at hy with h1 h2 h3
        all_goals
          have hds : ds = [] := by
            by_contra hds
            have hall : ds.all isDigit = true := by
              have := h1.2
              rw [List.all_append, Bool.and_eq_true] at this
              exact this.1
            rw [if_pos ⟨hds, hall⟩] at hE
            split_ifs at hE
          subst hds
        · subst h2
          simp [scanExponent, scanSign, hr0]
        · subst h3
          simp [scanExponent, scanSign, hr0]

theorem readDoubleChars_prefix {text p t : List Char} {ws : List (List Char)} {q : ℚ} (h : words text = p :: ws) (hq : parseNumber (p ++ t) = some q)
    (hp : parseNumber p = none) : ∃ r, readDoubleChars ⟨text, false⟩ = (0, ⟨r, true⟩) := by
  obtain ⟨r, h1, -, hne, h4, -⟩ := words_cons h
  have key : ∀ {v : List Char} {x : ℚ} (neg : Bool), scanSign (p ++ r) = (neg, v ++ r) → parseAbs (v ++ t) = some x → parseAbs v = none →
      ∃ r, readDoubleChars ⟨text, false⟩ = (0, ⟨r, true⟩) := by
    intro v x neg hs hx hv
    simp only [readDoubleChars, h1, hs, Bool.false_eq_true, if_false]
    rcases scan_prefix hx hv h4 with h0 | h0
    · rw [if_pos h0]
      exact ⟨_, rfl⟩
    · by_cases h00 : (v ++ r).takeWhile isDigit ++ fractionOf ((v ++ r).dropWhile isDigit) = []
      · rw [if_pos h00]
        exact ⟨_, rfl⟩
      · rw [if_neg h00]
        generalize scanExponent (behindFraction ((v ++ r).dropWhile isDigit)) = z at *
        obtain ⟨z1, z2⟩ := z
        simp only at h0
        subst h0
        exact ⟨_, rfl⟩
  by_cases hm : ∃ v, p = '-' :: v
  · obtain ⟨v, rfl⟩ := hm
    rw [List.cons_append, parseNumber_minus, Option.map_eq_some_iff] at hq
    obtain ⟨x, hx, -⟩ := hq
    rw [parseNumber_minus, Option.map_eq_none_iff] at hp
    exact key true (by simp [scanSign]) hx hp
  · match p, hne with
    | c :: p, _ =>
      have hc : c ≠ '-' := fun hc => hm ⟨p, by rw [hc]⟩
      rw [parseNumber_of_ne hc] at hp
      rw [List.cons_append, parseNumber_of_ne hc] at hq
      refine key (v := c :: p) false ?_ hq hp
      have : c ≠ '+' := by
        rintro rfl
        rw [parseAbs, List.takeWhile_cons_of_neg (by decide)] at hq
        simp at hq
      simp [scanSign, hc, this]

/-! ### the two readers side by side -/

/-- digits that are an `int` -/
def IntWord (w : List Char) (n : Nat) : Prop := ∃ ds : List Nat, ds ≠ [] ∧ (∀ d ∈ ds, d < 10) ∧ w = ds.map digitChar ∧ digitsValue ds = n ∧ n ≤ intMax

theorem IntWord.format {n : Nat} (h : n ≤ intMax) : IntWord (formatNat n) n := ⟨natDigits n, natDigits_ne n, natDigits_lt n, rfl, natDigits_value n, h⟩

theorem IntWord.cut {p q : List Char} {n : Nat} (h : IntWord (p ++ q) n) (hp : p ≠ []) : ∃ m, IntWord p m := by
  obtain ⟨ds, -, h2, h3, h4, h5⟩ := h
  obtain ⟨a, b, rfl, rfl, rfl⟩ := List.map_eq_append_iff.mp h3.symm
  refine ⟨digitsValue a, a, by simpa using hp, fun d hd => h2 d (by simp [hd]), rfl, rfl, ?_⟩
  rw [digitsValue_div (a := a) (b := b) fun d hd => h2 d (by simp [hd]), h4]
  exact (Nat.div_le_self _ _).trans h5

theorem IntWord.read {text w : List Char} {n : Nat} {ws : List (List Char)} (h : words text = w :: ws) (hw : IntWord w n) :
    ∃ r, readIntChars ⟨text, false⟩ = ((n : Int), ⟨r, false⟩) ∧ words r = ws := by
  obtain ⟨ds, hne, hd, rfl, rfl, hn⟩ := hw
  obtain ⟨r, h1, -, -, h4, h5⟩ := words_cons h
  refine ⟨r, ?_, h5⟩
  obtain ⟨t1, t2⟩ := takeWhile_digits hd (r := r) fun c hc => isDigit_of_space (h4 c hc)
  have hne' : ds.map digitChar ≠ [] := by simpa using hne
  simp only [readIntChars, h1, scanSign_digits hd hne, t1, t2, map_charDigit hd, if_neg hne', if_pos hn, Bool.false_eq_true, if_false]

theorem IntWord.token {w : List Char} {n : Nat} (hw : IntWord w n) : tokenOf w = .num (n : ℚ) := by
  obtain ⟨ds, hne, hd, rfl, rfl, -⟩ := hw
  have h1 := parseAbs_format hd (f := []) (by simp) hne (E := []) (k := 0) (by simp) rfl
  have e : formatPoint ds [] ++ [] = ds.map digitChar := by simp [formatPoint, stripZeros]
  rw [e] at h1
  have h2 := parseNumber_digits hd hne []
  rw [List.append_nil] at h2
  rw [tokenOf, h2, h1]
  simp

/-- what is expected at a place of a file: the type of a cell, an integer, a coordinate or anything -/
inductive Kind where
  | type
  | int
  | double
  | any

/-- a word that may be at this place if these words follow; the last word may be cut -/
def Kind.Ok (type : Nat) : Kind → List Char → List (List Char) → Prop
  | .type, w, ws => ∃ n, IntWord w n ∧ (n = type ∨ ws = [])
  | .int, w, _ => ∃ n, IntWord w n
  | .double, w, _ => ∃ t q, parseNumber (w ++ t) = some q
  | .any, _, _ => True

/-- words at the places where they are expected -/
def Fits (type : Nat) : List Kind → List (List Char) → Prop
  | _, [] => True
  | [], _ :: _ => False
  | k :: K, w :: ws => k.Ok type w ws ∧ Fits type K ws

/-- the streams are at the same place -/
def Same (type : Nat) (K : List Kind) (s : CharStream) (t : Stream) : Prop :=
  s.failed = true ∧ t.failed = true ∨ s.failed = false ∧ t.failed = false ∧ t.tokens = tokens s.chars ∧ Fits type K (words s.chars)

variable {type : Nat} {K : List Kind}

theorem words_nil_space {text : List Char} (h : words text = []) : text.dropWhile isSpace = [] := by
  induction text with
  | nil => rfl
  | cons c text ih =>
    rw [words, wordsFrom] at h
    by_cases hc : isSpace c = true
    · rw [if_pos hc, if_pos rfl] at h
      rw [List.dropWhile_cons_of_pos hc]
      exact ih h
    · rw [if_neg hc] at h
      obtain ⟨q, rest, h'⟩ := wordsFrom_head (w := [] ++ [c]) (by simp) text
      rw [h'] at h
      simp at h

theorem Same.int {s : CharStream} {t : Stream} (h : Same type (.int :: K) s t) :
    (readIntChars s).1 = (readInt t).1 ∧ Same type K (readIntChars s).2 (readInt t).2 := by
  obtain ⟨chars, fs⟩ := s
  obtain ⟨toks, ft⟩ := t
  rcases h with ⟨h1, h2⟩ | ⟨h1, h2, h3, h4⟩
  · simp only at h1 h2
    subst h1 h2
    exact ⟨rfl, .inl ⟨rfl, rfl⟩⟩
  · simp only at h1 h2 h3 h4
    subst h1 h2 h3
    cases hw : words chars with
    | nil =>
      have hd := words_nil_space hw
      have ht : tokens chars = [] := by rw [tokens, hw]; rfl
      have e1 : readIntChars ⟨chars, false⟩ = (0, ⟨[], true⟩) := by simp [readIntChars, hd, scanSign]
      rw [e1, ht]
      exact ⟨rfl, .inl ⟨rfl, rfl⟩⟩
    | cons w ws =>
      rw [hw] at h4
      obtain ⟨⟨n, hn⟩, h5⟩ := h4
      obtain ⟨r, e1, e2⟩ := hn.read hw
      have ht : tokens chars = .num (n : ℚ) :: tokens r := by
        rw [tokens, hw, List.map_cons, hn.token, tokens, e2]
      rw [e1, ht, readInt_nat]
      exact ⟨rfl, .inr ⟨rfl, rfl, rfl, by rw [e2]; exact h5⟩⟩

theorem Same.double {s : CharStream} {t : Stream} (h : Same type (.double :: K) s t) :
    (readDoubleChars s).1 = (readNum t).1 ∧ Same type K (readDoubleChars s).2 (readNum t).2 := by
  obtain ⟨chars, fs⟩ := s
  obtain ⟨toks, ft⟩ := t
  rcases h with ⟨h1, h2⟩ | ⟨h1, h2, h3, h4⟩
  · simp only at h1 h2
    subst h1 h2
    exact ⟨rfl, .inl ⟨rfl, rfl⟩⟩
  · simp only at h1 h2 h3 h4
    subst h1 h2 h3
    cases hw : words chars with
    | nil =>
      have hd := words_nil_space hw
      have ht : tokens chars = [] := by rw [tokens, hw]; rfl
      have e1 : readDoubleChars ⟨chars, false⟩ = (0, ⟨[], true⟩) := by simp [readDoubleChars, hd, scanSign, fractionOf, behindFraction]
      rw [e1, ht]
      exact ⟨rfl, .inl ⟨rfl, rfl⟩⟩
    | cons w ws =>
      rw [hw] at h4
      obtain ⟨⟨u, q, hq⟩, h5⟩ := h4
      cases hp : parseNumber w with
      | none =>
        obtain ⟨r, e1⟩ := readDoubleChars_prefix hw hq hp
        have ht : tokens chars = .word (String.ofList w) :: ws.map tokenOf := by
          rw [tokens, hw, List.map_cons, tokenOf, hp]
        rw [e1, ht]
        exact ⟨rfl, .inl ⟨rfl, rfl⟩⟩
      | some x =>
        obtain ⟨r, e1, e2⟩ := readDoubleChars_word hw hp
        have ht : tokens chars = .num x :: tokens r := by
          rw [tokens, hw, List.map_cons, tokenOf, hp, tokens, e2]
        rw [e1, ht]
        exact ⟨rfl, .inr ⟨rfl, rfl, rfl, by rw [e2]; exact h5⟩⟩

theorem Same.skip {k : Kind} {s : CharStream} {t : Stream} (h : Same type (k :: K) s t) : Same type K (skipChars s) (skip t) := by
  obtain ⟨chars, fs⟩ := s
  obtain ⟨toks, ft⟩ := t
  rcases h with ⟨h1, h2⟩ | ⟨h1, h2, h3, h4⟩
  · simp only at h1 h2
    subst h1 h2
    exact .inl ⟨rfl, rfl⟩
  · simp only at h1 h2 h3 h4
    subst h1 h2 h3
    cases hw : words chars with
    | nil =>
      have hd := words_nil_space hw
      have ht : tokens chars = [] := by rw [tokens, hw]; rfl
      have e1 : skipChars ⟨chars, false⟩ = ⟨[], true⟩ := by simp [skipChars, hd]
      rw [e1, ht]
      exact .inl ⟨rfl, rfl⟩
    | cons w ws =>
      rw [hw] at h4
      obtain ⟨r, e1, e2⟩ := skipChars_word hw
      have ht : tokens chars = tokenOf w :: tokens r := by rw [tokens, hw, List.map_cons, tokens, e2]
      rw [e1, ht]
      exact .inr ⟨rfl, rfl, rfl, by rw [e2]; exact h4.2⟩

theorem Same.many {α : Type} {readC : CharStream → α × CharStream} {readT : Stream → α × Stream} {L : List Kind}
    (h : ∀ K s t, Same type (L ++ K) s t → (readC s).1 = (readT t).1 ∧ Same type K (readC s).2 (readT t).2) (n : Nat) (K : List Kind)
    (s : CharStream) (t : Stream) (hs : Same type ((List.replicate n L).flatten ++ K) s t) :
    (manyChars readC n s).1 = (readMany readT n t).1 ∧ Same type K (manyChars readC n s).2 (readMany readT n t).2 := by
  induction n generalizing s t with
  | zero => exact ⟨rfl, by simpa [manyChars, readMany] using hs⟩
  | succ n ih =>
    rw [List.replicate_succ, List.flatten_cons, List.append_assoc] at hs
    obtain ⟨a1, a2⟩ := h _ _ _ hs
    obtain ⟨b1, b2⟩ := ih _ _ a2
    exact ⟨by simp only [manyChars, readMany, a1, b1], b2⟩

/-! ### cells -/

theorem elementsChars_failed {V N n : Nat} (ht : type ≠ 0) (text : List Char) :
    elementsChars type V N n ⟨text, true⟩ = some ([], ⟨text, true⟩) := by
  induction n with
  | zero => rfl
  | succ n ih =>
    have h0 : ¬ (0 : Int) = type := by exact_mod_cast ht.symm
    rw [elementsChars]
    simp only [readIntChars, if_true, if_neg h0]
    exact ih

theorem elementsChars_empty {V N : Nat} (n : Nat) (ht : type ≠ 0) {text : List Char} (h : words text = []) :
    ∃ s, elementsChars type V N n ⟨text, false⟩ = some ([], s) := by
  cases n with
  | zero => exact ⟨_, rfl⟩
  | succ n =>
    have h0 : ¬ (0 : Int) = type := by exact_mod_cast ht.symm
    have e1 : readIntChars ⟨text, false⟩ = (0, ⟨[], true⟩) := by simp [readIntChars, words_nil_space h, scanSign]
    rw [elementsChars]
    simp only [e1, if_neg h0]
    exact ⟨_, elementsChars_failed ht _⟩

theorem readElements_failed'' {V N n : Nat} (ht : type ≠ 0) (l : List Token) :
    ∃ s, readElements type V N n ⟨l, true⟩ = some ([], s) := by
  induction n with
  | zero => exact ⟨_, rfl⟩
  | succ n ih =>
    have h0 : ¬ (0 : Int) = type := by exact_mod_cast ht.symm
    rw [readElements]
    simp only [readInt, if_true, if_neg h0]
    exact ih

theorem readElements_empty {V N : Nat} (n : Nat) (ht : type ≠ 0) : ∃ s, readElements type V N n ⟨[], false⟩ = some ([], s) := by
  cases n with
  | zero => exact ⟨_, rfl⟩
  | succ n =>
    have h0 : ¬ (0 : Int) = type := by exact_mod_cast ht.symm
    have e1 : readInt ⟨[], false⟩ = (0, ⟨[], true⟩) := rfl
    rw [readElements]
    simp only [e1, if_neg h0]
    exact readElements_failed'' ht _

/-- what is expected in a cell -/
def cellKinds (V : Nat) : List Kind := .type :: (List.replicate V [Kind.int]).flatten ++ [.any]

theorem Same.elements {V N : Nat} (ht : type ≠ 0) (n : Nat) (s : CharStream) (t : Stream)
    (h : Same type ((List.replicate n (cellKinds V)).flatten ++ K) s t) :
    (elementsChars type V N n s).map Prod.fst = (readElements type V N n t).map Prod.fst := by
  induction n generalizing s t with
  | zero => rfl
  | succ n ih =>
    obtain ⟨chars, fs⟩ := s
    obtain ⟨toks, ft⟩ := t
    rcases h with ⟨h1, h2⟩ | ⟨h1, h2, h3, h4⟩
    · simp only at h1 h2
      subst h1 h2
      obtain ⟨s, hs⟩ := readElements_failed'' (V := V) (N := N) (n := n + 1) ht toks
      rw [elementsChars_failed ht, hs]
      rfl
    · simp only at h1 h2 h3 h4
      subst h1 h2 h3
      cases hw : words chars with
      | nil =>
        obtain ⟨s, hs⟩ := elementsChars_empty (V := V) (N := N) (n + 1) ht hw
        obtain ⟨s', hs'⟩ := readElements_empty (V := V) (N := N) (n + 1) ht
        rw [hs, show tokens chars = [] by rw [tokens, hw]; rfl, hs']
        rfl
      | cons w ws =>
        rw [hw, List.replicate_succ, List.flatten_cons, cellKinds] at h4
        simp only [List.cons_append] at h4
        obtain ⟨⟨m, hm, hm2⟩, h5⟩ := h4
        obtain ⟨r, e1, e2⟩ := hm.read hw
        have htk : tokens chars = .num (m : ℚ) :: tokens r := by rw [tokens, hw, List.map_cons, hm.token, tokens, e2]
        rw [htk]
        simp only [elementsChars, readElements, e1, readInt_nat]
        by_cases hmt : m = type
        · subst hmt
          rw [List.append_assoc, List.append_assoc] at h5
          obtain ⟨b1, b2⟩ := Same.many (type := m) (readC := readIntChars) (readT := readInt) (L := [.int])
            (fun K s t h => Same.int h) V _ ⟨r, false⟩ ⟨tokens r, false⟩ (.inr ⟨rfl, rfl, rfl, by rw [e2]; exact h5⟩)
          have b3 := ih _ _ (Same.skip b2)
          simp only [if_true]
          rw [b1]
          cases inRange N ((readMany readInt V ⟨tokens r, false⟩).1.map (· - 1)) with
          | none => rfl
          | some c =>
            simp only
            generalize elementsChars m V N n _ = a at *
            generalize readElements m V N n _ = b at *
            rcases a with _ | ⟨a1, a2⟩ <;> rcases b with _ | ⟨b1, b2⟩ <;> simp at b3 ⊢
            exact b3
        · have hne : ¬ ((m : Int) = type) := by exact_mod_cast hmt
          simp only [if_neg hne]
          have hws : ws = [] := hm2.resolve_left hmt
          obtain ⟨s, hs⟩ := elementsChars_empty (V := V) (N := N) n ht (e2.trans hws)
          obtain ⟨s', hs'⟩ := readElements_empty (V := V) (N := N) n ht
          rw [hs, show tokens r = [] by rw [tokens, e2, hws]; rfl, hs']
          rfl

/-! ### files -/

theorem readInt_step {s : Stream} (h : (readInt s).2.failed = false) : s.failed = false ∧ s.tokens.length = (readInt s).2.tokens.length + 1 := by
  unfold readInt at *
  split at h
  · rename_i hf
    simp_all
  · rename_i hf
    split at h
    · rename_i q r ht
      split at h
      · rename_i hq
        exact ⟨by simpa using hf, by simp [hf, ht, hq]⟩
      · simp at h
    · simp at h

/-- what is expected in a file -/
def fileKinds (D V N C : Nat) : List Kind :=
  [.int, .int, .int, .int] ++ ((List.replicate N (List.replicate D [Kind.double]).flatten).flatten ++ (List.replicate C (cellKinds V)).flatten)

/-- the two readers do the same -/
theorem readers_same {D V N C : Nat} (ht : type ≠ 0) {text : List Char} (hf : Fits type (fileKinds D V N C) (words text))
    (hh : 4 ≤ (words text).length → ∃ w0 w3 ws, words text = w0 :: formatNat N :: formatNat C :: w3 :: ws) (hN : N ≤ intMax) (hC : C ≤ intMax) :
    readerChars D type V text = reader D type V (tokens text) := by
  have s0 : Same type (fileKinds D V N C) ⟨text, false⟩ ⟨tokens text, false⟩ := .inr ⟨rfl, rfl, rfl, hf⟩
  obtain ⟨v1, s1⟩ := Same.int s0
  obtain ⟨v2, s2⟩ := Same.int s1
  obtain ⟨v3, s3⟩ := Same.int s2
  obtain ⟨v4, s4⟩ := Same.int s3
  unfold readerChars reader
  simp only
  rw [v1, v2, v3, v4]
  by_cases c1 : (D : Int) ≠ (readInt ⟨tokens text, false⟩).1
  · rw [if_pos c1, if_pos c1]
  rw [if_neg c1, if_neg c1]
  by_cases c2 : (readInt (readInt ⟨tokens text, false⟩).2).1 < 0
  · rw [if_pos c2, if_pos c2]
  rw [if_neg c2, if_neg c2]
  by_cases c3 : (readInt (readInt (readInt (readInt ⟨tokens text, false⟩).2).2).2).1 ≠ 1
  · rw [if_pos c3, if_pos c3]
  · rw [if_neg c3, if_neg c3]
    simp only [ne_eq, not_not] at c3
    obtain ⟨f3, -, l3⟩ := readInt_pos' (s := (readInt (readInt (readInt ⟨tokens text, false⟩).2).2).2) (by rw [c3]; norm_num)
    obtain ⟨f2, l2⟩ := readInt_step f3
    obtain ⟨f1, l1⟩ := readInt_step f2
    obtain ⟨f0, l0⟩ := readInt_step f1
    have hlen : (tokens text).length = (words text).length := by rw [tokens, List.length_map]
    simp only at l0
    obtain ⟨w0, w3, ws, hws⟩ := hh (by omega)
    -- the numbers of nodes and cells
    rw [hws] at hf
    obtain ⟨⟨n0, hn0⟩, -⟩ := hf
    have htk : tokens text = .num (n0 : ℚ) :: .num (N : ℚ) :: .num (C : ℚ) :: tokenOf w3 :: ws.map tokenOf := by
      rw [tokens, hws, List.map_cons, hn0.token, List.map_cons, (IntWord.format hN).token, List.map_cons, (IntWord.format hC).token, List.map_cons]
    have g1 : readInt ⟨tokens text, false⟩ = ((n0 : Int), ⟨.num (N : ℚ) :: .num (C : ℚ) :: tokenOf w3 :: ws.map tokenOf, false⟩) := by
      rw [htk, readInt_nat]
    have g2 : (readInt (readInt ⟨tokens text, false⟩).2) = ((N : Int), ⟨.num (C : ℚ) :: tokenOf w3 :: ws.map tokenOf, false⟩) := by
      rw [g1, readInt_nat]
    have g3 : (readInt (readInt (readInt ⟨tokens text, false⟩).2).2).1 = (C : Int) := by
      rw [g2, readInt_nat]
    have h2 : (readInt (readInt ⟨tokens text, false⟩).2).1 = (N : Int) := by rw [g2]
    rw [h2, g3, Int.toNat_natCast, Int.toNat_natCast]
    obtain ⟨p1, p2⟩ := Same.many (type := type) (readC := manyChars readDoubleChars D) (readT := readMany readNum D)
      (L := (List.replicate D [Kind.double]).flatten)
      (fun K s t h => Same.many (L := [.double]) (fun K s t h => Same.double h) D K s t h) N _ _ _ s4
    rw [p1]
    have p3 := Same.elements (V := V) (N := (readMany (readMany readNum D) N (readInt (readInt (readInt (readInt ⟨tokens text, false⟩).2).2).2).2).1.length)
      (K := []) ht C _ _ (by rw [List.append_nil]; exact p2)
    generalize elementsChars type V _ C _ = a at *
    generalize readElements type V _ C _ = b at *
    rcases a with _ | ⟨a1, a2⟩ <;> rcases b with _ | ⟨b1, b2⟩ <;> simp at p3 ⊢
    subst p3
    rfl

/-! ### cutting -/

/-- a word that is written at this place -/
def Kind.Written (type : Nat) : Kind → List Char → Prop
  | .type, w => IntWord w type
  | .int, w => ∃ n, IntWord w n
  | .double, w => ∃ q, parseNumber w = some q
  | .any, _ => True

theorem Kind.Written.ok {k : Kind} {w : List Char} (h : k.Written type w) (ws : List (List Char)) : k.Ok type w ws := by
  cases k with
  | type => exact ⟨type, h, .inl rfl⟩
  | int => exact h
  | double =>
    obtain ⟨q, hq⟩ := h
    exact ⟨[], q, by rwa [List.append_nil]⟩
  | any => trivial

theorem Kind.Written.cut {k : Kind} {p q : List Char} (h : k.Written type (p ++ q)) (hp : p ≠ []) : k.Ok type p [] := by
  cases k with
  | type =>
    obtain ⟨m, hm⟩ := IntWord.cut h hp
    exact ⟨m, hm, .inr rfl⟩
  | int =>
    obtain ⟨n, hn⟩ := h
    exact hn.cut hp
  | double =>
    obtain ⟨x, hx⟩ := h
    exact ⟨q, x, hx⟩
  | any => trivial

theorem fits_cut {W : List (List Char)} (h : List.Forall₂ (fun k w => Kind.Written type k w) K W) (k : Nat) (p : List Char)
    (hp : p ≠ [] → ∃ q, W[k]? = some (p ++ q)) : Fits type K (W.take k ++ if p = [] then [] else [p]) := by
  induction h generalizing k with
  | nil =>
    by_cases h0 : p = []
    · simp [h0, Fits]
    · obtain ⟨q, hq⟩ := hp h0
      simp at hq
  | cons h1 h2 ih =>
    cases k with
    | zero =>
      by_cases h0 : p = []
      · simp [h0, Fits]
      · obtain ⟨q, hq⟩ := hp h0
        simp only [List.getElem?_cons_zero, Option.some.injEq] at hq
        subst hq
        simp only [List.take_zero, List.nil_append, if_neg h0, Fits]
        exact ⟨h1.cut h0, trivial⟩
    | succ k =>
      rw [List.take_succ_cons, List.cons_append]
      exact ⟨h1.ok _, ih k (by simpa using hp)⟩

theorem forall₂_blocks {α β γ : Type} {R : α → β → Prop} {L : List α} {f : γ → List β} (xs : List γ) (h : ∀ x ∈ xs, List.Forall₂ R L (f x)) :
    List.Forall₂ R (List.replicate xs.length L).flatten (xs.flatMap f) := by
  induction xs with
  | nil => exact .nil
  | cons x xs ih =>
    rw [List.length_cons, List.replicate_succ, List.flatten_cons, List.flatMap_cons]
    exact List.rel_append (h x (by simp)) (ih fun y hy => h y (by simp [hy]))

theorem cellWords_written {V N : Nat} (ht : type ≤ intMax) (hN : N ≤ intMax) {c : List Nat} (hc : c.length = V) (hi : ∀ i ∈ c, i < N) :
    List.Forall₂ (fun k w => Kind.Written type k w) (cellKinds V) (cellWords type c) := by
  rw [cellKinds, cellWords, List.cons_append, List.cons_append]
  refine .cons (IntWord.format ht) (List.rel_append ?_ (.cons trivial .nil))
  have := forall₂_blocks (R := fun k w => Kind.Written type k w) (L := [.int]) (f := fun i => [formatNat (i + 1)]) c fun i h =>
    .cons ⟨i + 1, IntWord.format (by have := hi i h; omega)⟩ .nil
  rw [hc] at this
  rwa [List.flatMap_def, flatten_singles] at this

end Mito.Printing
