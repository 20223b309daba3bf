import Verif.Model.Crosstable
import Verif.Lemmas.Objective
import Mathlib.Data.List.TakeWhile
/-!
# Lemmas about the exported table
-/

namespace FSat

theorem fileLines_line (w rest : List Char) (h : '\n' ∉ w) : fileLines (w ++ '\n' :: rest) = (w ++ ['\n']) :: fileLines rest := by
  induction w with
  | nil => simp [fileLines]
  | cons c w ih =>
    simp only [List.mem_cons, not_or] at h
    rw [List.cons_append, fileLines, if_neg (Ne.symm h.1), ih h.2]
    rfl

theorem fileLines_flatten (ls : List (List Char)) (h : ∀ l ∈ ls, ∃ w, '\n' ∉ w ∧ l = w ++ ['\n']) (rest : List Char) :
    fileLines (ls.flatten ++ rest) = ls ++ fileLines rest := by
  induction ls with
  | nil => rfl
  | cons l ls ih =>
    obtain ⟨w, hw, rfl⟩ := h l (by simp)
    rw [List.flatten_cons, List.append_assoc, List.append_assoc, List.singleton_append, fileLines_line _ _ hw,
      ih (fun l hl => h l (List.mem_cons_of_mem _ hl))]
    rfl

/-- A text is a number of complete lines and perhaps an incomplete one. -/
theorem fileLines_parts (text : List Char) : ∃ (ls : List (List Char)) (w : List Char), (∀ l ∈ ls, ∃ w, '\n' ∉ w ∧ l = w ++ ['\n']) ∧
    '\n' ∉ w ∧ text = ls.flatten ++ w := by
  induction text with
  | nil => exact ⟨[], [], by simp, by simp, rfl⟩
  | cons c cs ih =>
    obtain ⟨ls, w, h1, h2, h3⟩ := ih
    by_cases hc : c = '\n'
    · subst hc
      refine ⟨['\n'] :: ls, w, ?_, h2, by simp [h3]⟩
      intro l hl
      rcases List.mem_cons.1 hl with rfl | hl
      · exact ⟨[], by simp, rfl⟩
      · exact h1 l hl
    · cases ls with
      | nil =>
        refine ⟨[], c :: w, by simp, ?_, by simp [h3]⟩
        simp only [List.mem_cons, not_or]
        exact ⟨Ne.symm hc, h2⟩
      | cons l ls =>
        obtain ⟨w', hw', rfl⟩ := h1 l (by simp)
        refine ⟨(c :: w' ++ ['\n']) :: ls, w, ?_, h2, by simp [h3]⟩
        intro l hl
        rcases List.mem_cons.1 hl with rfl | hl
        · refine ⟨c :: w', ?_, rfl⟩
          simp only [List.mem_cons, not_or]
          exact ⟨Ne.symm hc, hw'⟩
        · exact h1 l (List.mem_cons_of_mem _ hl)

theorem fileLines_short (w : List Char) (h : '\n' ∉ w) : fileLines w = if w = [] then [] else [w] := by
  induction w with
  | nil => rfl
  | cons c w ih =>
    simp only [List.mem_cons, not_or] at h
    rw [fileLines, if_neg (Ne.symm h.1), ih h.2]
    by_cases hw : w = []
    · subst hw; simp
    · simp [hw]

/-- The text before the mark consists of complete lines, unless the mark is missing and the text does not end with a newline. -/
theorem preamble_lines (text : List Char) (h : text = [] ∨ text.getLast? = some '\n' ∨ ∃ l ∈ fileLines text, isMark l = true) :
    ∃ ls : List (List Char), (∀ l ∈ ls, ∃ w, '\n' ∉ w ∧ l = w ++ ['\n']) ∧ (∀ l ∈ ls, isMark l = false) ∧ preamble (some text) = ls.flatten := by
  obtain ⟨ls, w, h1, h2, h3⟩ := fileLines_parts text
  have hl : fileLines text = ls ++ (if w = [] then [] else [w]) := by
    rw [h3, fileLines_flatten _ h1, fileLines_short _ h2]
  unfold preamble
  simp only
  rw [hl]
  by_cases hall : ∀ l ∈ ls, isMark l = false
  · refine ⟨ls, h1, hall, ?_⟩
    rw [List.takeWhile_append_of_pos (fun l hl => by simp [hall l hl])]
    by_cases hw : w = []
    · simp [hw]
    rw [if_neg hw]
    have hmw : isMark w = true := by
      rcases h with h | h | ⟨l, hm, hk⟩
      · rw [h3] at h
        simp at h
        exact absurd h.2 hw
      · exfalso
        rw [h3, List.getLast?_append_of_ne_nil _ hw] at h
        exact h2 (List.mem_of_getLast? h)
      · rw [hl, if_neg hw, List.mem_append, List.mem_singleton] at hm
        rcases hm with hm | rfl
        · rw [hall l hm] at hk; cases hk
        · exact hk
    simp [hmw]
  · have htake : List.takeWhile (fun l => !isMark l) (ls ++ if w = [] then [] else [w]) = List.takeWhile (fun l => !isMark l) ls := by
      rw [List.takeWhile_append]
      rw [if_neg]
      intro hlen
      apply hall
      have := List.takeWhile_prefix (p := fun l => !isMark l) (l := ls)
      have heq := this.eq_of_length hlen
      intro l hl
      rw [← heq] at hl
      have := List.mem_takeWhile_imp hl
      simpa using this
    rw [htake]
    refine ⟨_, fun l hl => h1 l (List.takeWhile_subset _ hl), fun l hl => ?_, rfl⟩
    simpa using List.mem_takeWhile_imp hl

theorem mark_line : '\n' ∉ balancersMark := by decide

/-- The text before the mark is found again. -/
theorem preamble_again (ls : List (List Char)) (h1 : ∀ l ∈ ls, ∃ w, '\n' ∉ w ∧ l = w ++ ['\n']) (h2 : ∀ l ∈ ls, isMark l = false)
    (rest : List Char) : preamble (some (ls.flatten ++ balancersMark ++ ['\n'] ++ rest)) = ls.flatten := by
  unfold preamble
  simp only
  rw [show ls.flatten ++ balancersMark ++ ['\n'] ++ rest = ls.flatten ++ (balancersMark ++ '\n' :: rest) by simp,
    fileLines_flatten _ h1, fileLines_line _ _ mark_line, List.takeWhile_append_of_pos (fun l hl => by simp [h2 l hl])]
  rw [List.takeWhile_cons_of_neg (by decide)]
  simp

/-! ### The order of the tables -/

theorem textLe_refl (a : List Char) : textLe a a = true := by induction a with
  | nil => rfl
  | cons c a ih => simp [textLe, ih]

theorem textLe_total (a b : List Char) : (textLe a b || textLe b a) = true := by
  induction a generalizing b with
  | nil => simp [textLe]
  | cons c a ih =>
    cases b with
    | nil => simp [textLe]
    | cons d b =>
      by_cases h : c = d
      · subst h; simpa [textLe] using ih b
      · have : c.toNat ≠ d.toNat := fun e => h (Char.ext (UInt32.toNat_inj.1 e))
        simp only [textLe, h, Ne.symm h, if_false, Bool.or_eq_true, decide_eq_true_eq]
        omega

theorem textLe_trans (a b c : List Char) (h1 : textLe a b = true) (h2 : textLe b c = true) : textLe a c = true := by
  induction a generalizing b c with
  | nil => simp [textLe]
  | cons x a ih =>
    cases b with
    | nil => simp [textLe] at h1
    | cons y b =>
      cases c with
      | nil => simp [textLe] at h2
      | cons z c =>
        by_cases hxy : x = y
        · subst hxy
          by_cases hxz : x = z
          · subst hxz
            simp only [textLe, if_true] at h1 h2 ⊢
            exact ih b c h1 h2
          · simp only [textLe, if_true, hxz, if_false] at h1 h2 ⊢
            exact h2
        · by_cases hyz : y = z
          · subst hyz
            simp only [textLe, if_true, hxy, if_false] at h1 h2 ⊢
            exact h1
          · simp only [textLe, hxy, hyz, if_false, decide_eq_true_eq] at h1 h2
            have hne : x ≠ z := by rintro rfl; omega
            simp only [textLe, hne, if_false, decide_eq_true_eq]
            omega

theorem keyLe_total (a b : Option Nat × Option Nat × List Char) : (keyLe a b || keyLe b a) = true := by
  obtain ⟨a1, a2, a3⟩ := a
  obtain ⟨b1, b2, b3⟩ := b
  have := textLe_total a3 b3
  unfold keyLe
  simp only
  by_cases h1 : a1 = b1
  · subst h1
    by_cases h2 : a2 = b2
    · subst h2; simpa using this
    · simp only [if_true, h2, Ne.symm h2, if_false]
      cases a2 <;> cases b2 <;> simp_all [ltInf]
  · simp only [h1, Ne.symm h1, if_false]
    cases a1 <;> cases b1 <;> simp_all [ltInf]

theorem ltInf_trans {a b c : Option Nat} (h1 : ltInf a b = true) (h2 : ltInf b c = true) : ltInf a c = true ∧ a ≠ c := by
  cases a <;> cases b <;> cases c <;> simp_all [ltInf]
  omega

theorem ltInf_ne {a b : Option Nat} (h : ltInf a b = true) : a ≠ b := by
  cases a <;> cases b <;> simp_all [ltInf]
  omega

theorem keyLe_trans (a b c : Option Nat × Option Nat × List Char) (h1 : keyLe a b = true) (h2 : keyLe b c = true) :
    keyLe a c = true := by
  obtain ⟨a1, a2, a3⟩ := a
  obtain ⟨b1, b2, b3⟩ := b
  obtain ⟨c1, c2, c3⟩ := c
  unfold keyLe at *
  simp only at *
  by_cases e1 : a1 = b1
  · subst e1
    rw [if_pos rfl] at h1
    by_cases f1 : a1 = c1
    · subst f1
      rw [if_pos rfl] at h2 ⊢
      by_cases e2 : a2 = b2
      · subst e2
        rw [if_pos rfl] at h1
        by_cases f2 : a2 = c2
        · subst f2
          rw [if_pos rfl] at h2 ⊢
          exact textLe_trans _ _ _ h1 h2
        · rw [if_neg f2] at h2 ⊢; exact h2
      · rw [if_neg e2] at h1
        by_cases f2 : b2 = c2
        · subst f2; rw [if_neg e2]; exact h1
        · rw [if_neg f2] at h2
          obtain ⟨h3, h4⟩ := ltInf_trans h1 h2
          rw [if_neg h4]; exact h3
    · rw [if_neg f1] at h2 ⊢; exact h2
  · rw [if_neg e1] at h1
    by_cases f1 : b1 = c1
    · subst f1; rw [if_neg e1]; exact h1
    · rw [if_neg f1] at h2
      obtain ⟨h3, h4⟩ := ltInf_trans h1 h2
      rw [if_neg h4]; exact h3

theorem sortStores_sorted (stores : List Store) :
    (sortStores stores).Pairwise fun a b => keyLe (orderingKey a.name) (orderingKey b.name) = true :=
  List.pairwise_mergeSort (le := fun a b : Store => keyLe (orderingKey a.name) (orderingKey b.name))
    (fun a b c h1 h2 => keyLe_trans _ _ _ h1 h2) (fun a b => keyLe_total (orderingKey a.name) (orderingKey b.name)) stores

end FSat
