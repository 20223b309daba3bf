import Verif.Lemmas.Network
import Mathlib.Data.List.TakeWhile
/-!
# Lemmas about network files
-/

namespace FSat

theorem splitWs_all_ws (w : List Char) (hw : ∀ c ∈ w, c.isWhitespace = true) : splitWs w = [] := by
  have := splitWs_ws w [] hw
  simpa [splitWs] using this

theorem splitWs_trailing (l w : List Char) (hw : ∀ c ∈ w, c.isWhitespace = true) : splitWs (l ++ w) = splitWs l := by
  induction l with
  | nil => rw [List.nil_append, splitWs_all_ws w hw]; rfl
  | cons c l ih =>
    rw [List.cons_append, splitWs, splitWs, ih]
    split
    · rfl
    · cases l with
      | nil =>
        simp only [List.nil_append, splitWs]
        cases w <;> simp [glue]
      | cons d l => rfl

theorem dropWhile_split (l : List Char) : ∃ w, (∀ c ∈ w, c.isWhitespace = true) ∧ l = w ++ l.dropWhile Char.isWhitespace := by
  refine ⟨l.takeWhile Char.isWhitespace, fun c hc => ?_, (List.takeWhile_append_dropWhile).symm⟩
  exact List.mem_takeWhile_imp hc

theorem stripWs_split (l : List Char) : ∃ w w', (∀ c ∈ w, c.isWhitespace = true) ∧ (∀ c ∈ w', c.isWhitespace = true) ∧
    l = w ++ stripWs l ++ w' := by
  obtain ⟨w, hw, e⟩ := dropWhile_split l
  obtain ⟨w', hw', e'⟩ := dropWhile_split (l.dropWhile Char.isWhitespace).reverse
  refine ⟨w, w'.reverse, hw, fun c hc => hw' c (by simpa using hc), ?_⟩
  unfold stripWs
  have := congrArg List.reverse e'
  rw [List.reverse_reverse, List.reverse_append] at this
  rw [List.append_assoc, ← this]
  exact e

theorem splitWs_strip (l : List Char) : splitWs (stripWs l) = splitWs l := by
  obtain ⟨w, w', hw, hw', e⟩ := stripWs_split l
  conv_rhs => rw [e]
  rw [List.append_assoc, splitWs_ws _ _ hw, splitWs_trailing _ _ hw']

theorem stripWs_head (l : List Char) (c : Char) (h : (stripWs l).head? = some c) : c.isWhitespace = false := by
  unfold stripWs at h
  set d := l.dropWhile Char.isWhitespace with hd
  obtain ⟨w', hw', e'⟩ := dropWhile_split d.reverse
  have e2 := congrArg List.reverse e'
  rw [List.reverse_reverse, List.reverse_append] at e2
  have hdh : d.head? = some c := by
    rw [e2, List.head?_append, h]
    rfl
  have := List.head?_dropWhile_not Char.isWhitespace l
  rw [← hd, hdh] at this
  simpa using this

theorem stripWs_nil (l : List Char) : stripWs l = [] ↔ ∀ c ∈ l, c.isWhitespace = true := by
  constructor
  · intro h
    obtain ⟨w, w', hw, hw', e⟩ := stripWs_split l
    rw [h] at e
    intro c hc
    rw [e] at hc
    simp only [List.append_nil, List.mem_append] at hc
    rcases hc with hc | hc
    · exact hw c hc
    · exact hw' c hc
  · intro h
    unfold stripWs
    rw [List.dropWhile_eq_nil_iff.2 h]
    rfl

/-- The first character of the stripped line is the first one that is not white space. -/
theorem stripWs_head_iff (l : List Char) (c : Char) (hc : c.isWhitespace = false) : (stripWs l).head? = some c ↔
    ∃ w r, (∀ x ∈ w, x.isWhitespace = true) ∧ l = w ++ c :: r := by
  constructor
  · intro h
    obtain ⟨w, w', hw, hw', e⟩ := stripWs_split l
    cases hs : stripWs l with
    | nil => rw [hs] at h; simp at h
    | cons x xs =>
      rw [hs] at h e
      simp only [List.head?_cons, Option.some.injEq] at h
      subst h
      exact ⟨w, xs ++ w', hw, by rw [e]; simp⟩
  · rintro ⟨w, r, hw, rfl⟩
    have hd : (w ++ c :: r).dropWhile Char.isWhitespace = c :: r := by
      rw [List.dropWhile_append_of_pos hw, List.dropWhile_cons_of_neg (by simp [hc])]
    unfold stripWs
    rw [hd]
    obtain ⟨w', hw', e'⟩ := dropWhile_split (c :: r).reverse
    have e2 := congrArg List.reverse e'
    rw [List.reverse_reverse, List.reverse_append] at e2
    cases hs : ((c :: r).reverse.dropWhile Char.isWhitespace).reverse with
    | nil =>
      rw [hs, List.nil_append] at e2
      have : c ∈ w' := by
        have h1 : c ∈ w'.reverse := by rw [← e2]; simp
        simpa using h1
      rw [hw' c this] at hc
      cases hc
    | cons x xs =>
      rw [hs, List.cons_append] at e2
      simp only [List.cons.injEq] at e2
      rw [← e2.1]
      rfl

/-- One line of the file. -/
theorem openLines_cons (line : List Char) (rest : List (List Char)) :
    openLines (line :: rest) =
      if stripWs line = [] ∨ (stripWs line).head? = some '#' then openLines rest
      else
        match intsOf (splitWs line) with
        | .error e => .error e
        | .ok [a, b, c, d] =>
          match openLines rest with
          | .error e => .error e
          | .ok n => .ok (((colourOfInt a, colourOfInt b), (colourOfInt c, colourOfInt d)) :: n)
        | .ok _ => .error .valueError := by
  rw [openLines]
  simp only [List.length_eq_zero_iff, splitWs_strip]
  by_cases h1 : stripWs line = []
  · simp [h1]
  · by_cases h2 : (stripWs line).head? = some '#'
    · simp [h1, h2]
    · simp only [h1, h2, if_false, or_self]
      cases intsOf (splitWs line) <;> rfl

theorem readLines_line (l rest : List Char) (h : '\n' ∉ l) : readLines (l ++ '\n' :: rest) = (l ++ ['\n']) :: readLines rest := by
  induction l with
  | nil => simp [readLines]
  | cons c l ih =>
    rw [List.mem_cons, not_or] at h
    rw [List.cons_append, readLines, if_neg (Ne.symm h.1), ih h.2]
    rfl

theorem readLines_append (pre rest : List Char) (h : pre = [] ∨ pre.getLast? = some '\n') :
    readLines (pre ++ rest) = readLines pre ++ readLines rest := by
  induction pre with
  | nil => simp [readLines]
  | cons c pre ih =>
    by_cases hp : pre = []
    · subst hp
      have : c = '\n' := by simpa using h
      subst this
      simp [readLines]
    · have hl : pre.getLast? = some '\n' := by
        rcases h with h | h
        · simp at h
        · rw [List.getLast?_cons_of_ne_nil hp] at h
          exact h
      have := ih (Or.inr hl)
      rw [List.cons_append, readLines, readLines, this]
      split
      · rfl
      · cases hr : readLines pre with
        | nil =>
          cases pre with
          | nil => exact absurd rfl hp
          | cons d pre =>
            rw [readLines] at hr
            split at hr
            · simp at hr
            · split at hr <;> simp at hr
        | cons x xs => rfl

theorem skipped_iff (line : List Char) : (stripWs line = [] ∨ (stripWs line).head? = some '#') ↔ Skipped line := by
  unfold Skipped
  rw [stripWs_nil, stripWs_head_iff line '#' (by decide)]

theorem openLines_skip (ls rest : List (List Char)) (line : List Char) (h : Skipped line) :
    openLines (ls ++ line :: rest) = openLines (ls ++ rest) := by
  induction ls with
  | nil => rw [List.nil_append, List.nil_append, openLines_cons, if_pos ((skipped_iff _).2 h)]
  | cons l ls ih => rw [List.cons_append, List.cons_append, openLines_cons, openLines_cons, ih]

theorem intOf_error {w : List Char} {e : PyErr} (h : intOf w = .error e) : e = .valueError := by
  rw [intOf.eq_def] at h
  split at h
  · simpa using h.symm
  · split at h
    · simpa using h.symm
    · cases h
  · split at h
    · simpa using h.symm
    · cases h
  · split at h
    · simpa using h.symm
    · cases h

theorem intsOf_error {ws : List (List Char)} {e : PyErr} (h : intsOf ws = .error e) : e = .valueError := by
  induction ws with
  | nil => simp [intsOf] at h
  | cons w ws ih =>
    rw [intsOf] at h
    split at h
    · rename_i e' he
      simp only [Except.error.injEq] at h
      subst h
      exact intOf_error he
    · split at h
      · rename_i e' he
        simp only [Except.error.injEq] at h
        subst h
        exact ih he
      · cases h

theorem intsOf_length {ws : List (List Char)} {ns : List Int} (h : intsOf ws = .ok ns) : ns.length = ws.length := by
  induction ws generalizing ns with
  | nil => simp [intsOf] at h; subst h; rfl
  | cons w ws ih =>
    rw [intsOf] at h
    split at h
    · cases h
    · split at h
      · cases h
      · rename_i ns' he
        simp only [Except.ok.injEq] at h
        subst h
        simp [ih he]

theorem openLines_error {ls : List (List Char)} {e : PyErr} (h : openLines ls = .error e) : e = .valueError := by
  induction ls with
  | nil => simp [openLines] at h
  | cons l ls ih =>
    rw [openLines_cons] at h
    split at h
    · exact ih h
    · split at h
      · rename_i he
        simp only [Except.error.injEq] at h
        subst h
        exact intsOf_error he
      · split at h
        · rename_i he
          simp only [Except.error.injEq] at h
          subst h
          exact ih he
        · cases h
      · simpa using h.symm

/-- A line with a number of fields other than four makes the whole file invalid. -/
theorem openLines_bad (ls rest : List (List Char)) (line : List Char) (h : ¬ Skipped line) (hl : (splitWs line).length ≠ 4) :
    openLines (ls ++ line :: rest) = .error .valueError := by
  induction ls with
  | nil =>
    rw [List.nil_append, openLines_cons, if_neg (by rwa [skipped_iff])]
    cases hi : intsOf (splitWs line) with
    | error e => rw [intsOf_error hi]
    | ok ns =>
      have := intsOf_length hi
      split
      · rename_i he; cases he
      · rename_i he
        simp only [Except.ok.injEq] at he
        subst he
        exact absurd this.symm hl
      · rfl
  | cons l ls ih =>
    rw [List.cons_append, openLines_cons, ih]
    split
    · rfl
    · cases hi : intsOf (splitWs l) with
      | error e => rw [intsOf_error hi]
      | ok ns =>
        split
        · rename_i he; cases he
        · rfl
        · rfl

theorem openLines_good (line : List Char) (rest : List (List Char)) (a b c d : Int) (w : List Char)
    (hw : ∀ x ∈ w, x.isWhitespace = true)
    (l : List Char) (hs : Spaced ([b, c, d].map showInt) l) (hline : line = w ++ showInt a ++ l) :
    openLines (line :: rest) =
      match openLines rest with
      | .error e => .error e
      | .ok n => .ok (((colourOfInt a, colourOfInt b), (colourOfInt c, colourOfInt d)) :: n) := by
  obtain ⟨h1, h2⟩ := splitWs_spaced hs (by
    intro t ht
    obtain ⟨x, _, rfl⟩ := List.mem_map.1 ht
    exact showInt_ne x)
  have hne := showInt_ne a
  have hsplit : splitWs line = [a, b, c, d].map showInt := by
    rw [hline, List.append_assoc, splitWs_ws _ _ hw, splitWs_word _ _ hne.1 hne.2 h2, h1]
    rfl
  have hns : ¬ Skipped line := by
    rw [← skipped_iff]
    obtain ⟨x, xs, hx⟩ : ∃ x xs, showInt a = x :: xs := by
      cases hsh : showInt a with
      | nil => exact absurd hsh hne.1
      | cons x xs => exact ⟨x, xs, rfl⟩
    have hxw : x.isWhitespace = false := hne.2 x (by rw [hx]; simp)
    have hhead := (stripWs_head_iff line x hxw).2 ⟨w, xs ++ l, hw, by rw [hline, hx]; simp⟩
    have hx' : x ≠ '#' := by
      intro e
      subst e
      have h3 := intOf_showInt a
      rw [hx] at h3
      simp [intOf, natOf, digitVal] at h3
    intro h
    rcases h with h | h
    · rw [h] at hhead; simp at hhead
    · rw [h] at hhead
      simp only [Option.some.injEq] at hhead
      exact hx' hhead.symm
  rw [openLines_cons, if_neg (by rwa [skipped_iff]), hsplit, intsOf_show]

theorem newline_not_mem_showInt (n : Int) : '\n' ∉ showInt n := fun h => by
  have := (showInt_ne n).2 _ h
  simp at this

theorem saveLine_spec (nd : Node) : ∃ l, '\n' ∉ l ∧ saveLine nd = l ++ ['\n'] ∧
    Spaced ([intOfColour nd.1.2, intOfColour nd.2.1, intOfColour nd.2.2].map showInt)
      (' ' :: showInt (intOfColour nd.1.2) ++ ' ' :: showInt (intOfColour nd.2.1) ++ ' ' :: showInt (intOfColour nd.2.2) ++ ['\n'])
    ∧ l ++ ['\n'] = [] ++ showInt (intOfColour nd.1.1) ++
      (' ' :: showInt (intOfColour nd.1.2) ++ ' ' :: showInt (intOfColour nd.2.1) ++ ' ' :: showInt (intOfColour nd.2.2) ++ ['\n']) := by
  refine ⟨showInt (intOfColour nd.1.1) ++ ' ' :: showInt (intOfColour nd.1.2) ++ ' ' :: showInt (intOfColour nd.2.1) ++
    ' ' :: showInt (intOfColour nd.2.2), ?_, rfl, ?_, by simp⟩
  · simp only [List.mem_append, List.mem_cons, not_or]
    exact ⟨⟨⟨newline_not_mem_showInt _, by decide, newline_not_mem_showInt _⟩, by decide, newline_not_mem_showInt _⟩, by decide,
      newline_not_mem_showInt _⟩
  · have h3 := Spaced.cons [' '] (showInt (intOfColour nd.2.2)) ['\n'] [] (by simp) (by decide) (.nil ['\n'] (by decide))
    have h2 := Spaced.cons [' '] (showInt (intOfColour nd.2.1)) _ _ (by simp) (by decide) h3
    have h1 := Spaced.cons [' '] (showInt (intOfColour nd.1.2)) _ _ (by simp) (by decide) h2
    simpa using h1

theorem open_save (n : Network) : openNetwork (saveNetwork n) = .ok (n.map fun nd =>
    ((colourOfInt (intOfColour nd.1.1), colourOfInt (intOfColour nd.1.2)),
     (colourOfInt (intOfColour nd.2.1), colourOfInt (intOfColour nd.2.2)))) := by
  induction n with
  | nil => rfl
  | cons nd n ih =>
    obtain ⟨l, hl, he, hs, hline⟩ := saveLine_spec nd
    unfold openNetwork saveNetwork at *
    rw [List.flatMap_cons, he, List.append_assoc, List.singleton_append, readLines_line _ _ hl,
      openLines_good _ _ _ _ _ _ [] (by simp) _ hs hline, ih]
    rfl

end FSat
