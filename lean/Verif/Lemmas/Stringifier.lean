import Verif.Model.Stringifier
import Verif.Spec.Stringifier
import Verif.Lemmas.NetworkText
import Mathlib.Data.List.Basic
/-!
# Lemmas about text grids
-/

set_option linter.unusedSimpArgs false

namespace FSat

theorem Arr.ext' {α : Type} {a b : Arr α} (h1 : a.rows = b.rows) (h2 : a.cols = b.cols)
    (h : ∀ (i : Nat) (j : Nat) (hi : i < a.rows) (hj : j < a.cols), a.get ⟨i, hi⟩ ⟨j, hj⟩ = b.get ⟨i, h1 ▸ hi⟩ ⟨j, h2 ▸ hj⟩) : a = b := by
  obtain ⟨r, c, f⟩ := a
  obtain ⟨r', c', f'⟩ := b
  simp only at h1 h2
  subst h1 h2
  congr 1
  funext i j
  exact h i.val j.val i.isLt j.isLt

theorem decode_encode_tile (t : Tile) (h : t.Drawable) : decodeChar (encodeTile t) = .ok t := by
  cases t with
  | belt i o => cases i <;> cases o <;> first | rfl | exact absurd rfl h
  | underground d b => cases d <;> cases b <;> rfl
  | splitter d b => cases d <;> cases b <;> rfl
  | empty => rfl
  | filler => rfl
  | inserter d k => exact h.elim
  | assembler x y => exact h.elim

theorem encodeTile_undrawable (t : Tile) (h : ¬ t.Drawable) : encodeTile t = 'U' := by
  cases t with
  | belt i o => cases i <;> cases o <;> first | rfl | exact absurd (show _ ≠ _ by decide) h
  | inserter d k => rfl
  | assembler x y => rfl
  | _ => exact absurd trivial h

theorem decodeChar_U : decodeChar 'U' = .error .keyError := rfl

theorem encodeTile_mem (t : Tile) : encodeTile t = 'U' ∨ encodeTile t ∈ tileChars.map Prod.snd := by
  unfold encodeTile
  cases h : PyDict.get tileChars t with
  | none => exact Or.inl rfl
  | some c =>
    refine Or.inr (List.mem_map.2 ⟨(t, c), ?_, rfl⟩)
    clear * - h
    generalize tileChars = d at h
    induction d with
    | nil => cases h
    | cons e d ih =>
      obtain ⟨k, v⟩ := e
      simp only [PyDict.get] at h
      split at h
      · rename_i hk
        subst hk
        cases h
        simp
      · exact List.mem_cons_of_mem _ (ih h)

theorem decodeChars_ok (g : Nat → Tile) (cs : List Char) (k : Nat) (row : List (Option Tile))
    (h : ∀ i (hi : i < cs.length), ((k + i) % 2 ≠ 0 → cs[i] = ' ') ∧
      ((k + i) % 2 = 0 → decodeChar cs[i] = .ok (g ((k + i) / 2)) ∧ (k + i) / 2 < row.length)) :
    ∃ row', decodeChars cs k row = .ok row' ∧ row'.length = row.length ∧
      ∀ j, row'[j]? = if k ≤ 2 * j ∧ 2 * j < k + cs.length then some (some (g j)) else row[j]? := by
  induction cs generalizing k row with
  | nil =>
    refine ⟨row, rfl, rfl, fun j => ?_⟩
    rw [if_neg]
    simp only [List.length_nil]
    omega
  | cons c cs ih =>
    obtain ⟨h1, h2⟩ := h 0 (by simp)
    simp only [Nat.add_zero, List.getElem_cons_zero] at h1 h2
    have hrest : ∀ i (hi : i < cs.length), ((k + 1 + i) % 2 ≠ 0 → cs[i] = ' ') ∧
      ((k + 1 + i) % 2 = 0 → decodeChar cs[i] = .ok (g ((k + 1 + i) / 2)) ∧ (k + 1 + i) / 2 < row.length) := by
      intro i hi
      have := h (i + 1) (by simp; omega)
      rw [show k + (i + 1) = k + 1 + i by omega] at this
      simpa using this
    rw [decodeChars]
    by_cases hk : k % 2 ≠ 0
    · rw [if_pos hk, if_neg (by simpa using h1 hk)]
      obtain ⟨row', g1, g2, g3⟩ := ih (k + 1) row hrest
      refine ⟨row', g1, g2, fun j => ?_⟩
      rw [g3]
      by_cases hj : k + 1 ≤ 2 * j ∧ 2 * j < k + 1 + cs.length
      · rw [if_pos hj, if_pos (by simp; omega)]
      · rw [if_neg hj, if_neg (by simp; omega)]
    · rw [if_neg hk]
      obtain ⟨d1, d2⟩ := h2 (by omega)
      rw [d1]
      simp only
      rw [if_pos d2]
      obtain ⟨row', g1, g2, g3⟩ := ih (k + 1) (row.set (k / 2) (some (g (k / 2)))) (by simpa using hrest)
      refine ⟨row', g1, by simpa using g2, fun j => ?_⟩
      rw [g3]
      by_cases hj : k + 1 ≤ 2 * j ∧ 2 * j < k + 1 + cs.length
      · rw [if_pos hj, if_pos (by simp; omega)]
      · rw [if_neg hj]
        by_cases hj' : 2 * j = k
        · have : k / 2 = j := by omega
          rw [if_pos (by simp; omega), this, List.getElem?_set_self (by omega)]
        · rw [if_neg (by simp; omega), List.getElem?_set_ne (by omega)]

theorem decodeChars_error (g : Nat → Tile) (cs : List Char) (k : Nat) (row : List (Option Tile)) (hlen : k + cs.length ≤ 2 * row.length)
    (h : ∀ i (hi : i < cs.length), ((k + i) % 2 ≠ 0 → cs[i] = ' '))
    (hu : ∃ i, ∃ hi : i < cs.length, (k + i) % 2 = 0 ∧ decodeChar cs[i] = .error .keyError) :
    decodeChars cs k row = .error .keyError := by
  induction cs generalizing k row with
  | nil => obtain ⟨i, hi, -⟩ := hu; simp at hi
  | cons c cs ih =>
    have hrest : ∀ i (hi : i < cs.length), ((k + 1 + i) % 2 ≠ 0 → cs[i] = ' ') := by
      intro i hi
      have := h (i + 1) (by simp; omega)
      rw [show k + (i + 1) = k + 1 + i by omega] at this
      simpa using this
    simp only [List.length_cons] at hlen
    have hrec : decodeChar c ≠ .error .keyError ∨ k % 2 ≠ 0 → ∀ row : List (Option Tile), k + 1 + cs.length ≤ 2 * row.length →
        decodeChars cs (k + 1) row = .error .keyError := by
      intro hc row hl
      refine ih (k + 1) row hl hrest ?_
      obtain ⟨i, hi, h1, h2⟩ := hu
      cases i with
      | zero =>
        simp only [Nat.add_zero, List.getElem_cons_zero] at h1 h2
        rcases hc with hc | hc
        · exact absurd h2 hc
        · exact absurd h1 hc
      | succ i =>
        refine ⟨i, by simpa using hi, by rw [show k + 1 + i = k + (i + 1) by omega]; exact h1, ?_⟩
        simpa using h2
    rw [decodeChars]
    by_cases hk : k % 2 ≠ 0
    · have := h 0 (by simp) (by simpa using hk)
      rw [if_pos hk, if_neg (by simpa using this)]
      exact hrec (Or.inr hk) row (by omega)
    · rw [if_neg hk]
      cases hd : decodeChar c with
      | error e =>
        have : e = .keyError := by
          unfold decodeChar at hd
          split at hd <;> cases hd
          rfl
        rw [this]
      | ok t =>
        simp only
        rw [if_pos (by omega)]
        exact hrec (Or.inl (by rw [hd]; simp)) _ (by simp; omega)

theorem gridLines_length (a : Arr Tile) : (gridLines a).length = a.rows + 2 := by simp [gridLines]

/-- The middle lines, without their borders. -/
theorem gridLines_row (a : Arr Tile) (hc : 0 < a.cols) (i : Nat) (hi : i < a.rows) (cs : List Char)
    (h : (gridLines a)[i + 1]? = some cs) : cs.dropLast.tail.length = 2 * a.cols - 1 ∧
      ∀ j (hj : j < cs.dropLast.tail.length), cs.dropLast.tail[j] =
        if h : j % 2 = 0 ∧ j / 2 < a.cols then encodeTile (a.get ⟨i, hi⟩ ⟨j / 2, h.2⟩) else ' ' := by
  have e : cs = (List.range (2 * a.cols + 1)).map (charAt a (i + 1)) := by
    unfold gridLines at h
    rw [List.getElem?_map, List.getElem?_range (by omega)] at h
    simpa using h.symm
  subst e
  refine ⟨by simp, fun j hj => ?_⟩
  have hj' : j < 2 * a.cols - 1 := by simp at hj; omega
  rw [List.getElem_tail, List.getElem_dropLast, List.getElem_map, List.getElem_range]
  unfold charAt
  rw [if_neg (by omega), if_neg (by omega), if_neg (by omega), if_neg (by omega), if_neg (by omega), if_neg (by omega)]
  by_cases hp : j % 2 = 0 ∧ j / 2 < a.cols
  · rw [dif_pos (by constructor <;> [omega; exact ⟨by omega, by omega⟩]), dif_pos hp]
    simp
  · rw [dif_neg (by omega), dif_neg hp]

theorem decodeRows_spec (width : Nat) (ls : List (List Char)) (f : Nat → List (Option Tile))
    (h : ∀ i (hi : i < ls.length), decodeChars (ls[i]).dropLast.tail 0 (List.replicate width none) = .ok (f i)) :
    decodeRows width ls = .ok ((List.range ls.length).map f) := by
  induction ls generalizing f with
  | nil => rfl
  | cons l ls ih =>
    rw [decodeRows, show decodeChars l.dropLast.tail 0 (List.replicate width none) = .ok (f 0) from h 0 (by simp),
      ih (fun i => f (i + 1)) fun i hi => h (i + 1) (by simpa using hi)]
    simp [List.range_succ_eq_map, Function.comp_def]

theorem decodeRows_error (width : Nat) (ls : List (List Char)) (e : PyErr)
    (h : ∀ i (hi : i < ls.length), (∃ r, decodeChars (ls[i]).dropLast.tail 0 (List.replicate width none) = .ok r) ∨
      decodeChars (ls[i]).dropLast.tail 0 (List.replicate width none) = .error e)
    (hu : ∃ i, ∃ hi : i < ls.length, decodeChars (ls[i]).dropLast.tail 0 (List.replicate width none) = .error e) :
    decodeRows width ls = .error e := by
  induction ls with
  | nil => obtain ⟨i, hi, -⟩ := hu; simp at hi
  | cons l ls ih =>
    rw [decodeRows]
    rcases h 0 (by simp) with ⟨r, hr⟩ | hr
    · rw [show decodeChars l.dropLast.tail 0 (List.replicate width none) = .ok r from hr]
      have : decodeRows width ls = .error e := by
        refine ih (fun i hi => h (i + 1) (by simpa using hi)) ?_
        obtain ⟨i, hi, h2⟩ := hu
        cases i with
        | zero =>
          rw [hr] at h2
          cases h2
        | succ i => exact ⟨i, by simpa using hi, by simpa using h2⟩
      rw [this]
    · rw [show decodeChars l.dropLast.tail 0 (List.replicate width none) = .error e from hr]

theorem gridLines_split (a : Arr Tile) : ∃ first second rest, gridLines a = first :: second :: rest ∧ first.length = 2 * a.cols + 1 ∧
    rest.length = a.rows ∧ (second :: rest).dropLast.length = a.rows ∧
    ∀ i (hi : i < (second :: rest).dropLast.length), (gridLines a)[i + 1]? = some (second :: rest).dropLast[i] := by
  have hl := gridLines_length a
  have h0 : (gridLines a)[0]? = some ((List.range (2 * a.cols + 1)).map (charAt a 0)) := by
    unfold gridLines
    rw [List.getElem?_map, List.getElem?_range (by omega)]
    rfl
  match hg : gridLines a with
  | [] => rw [hg] at hl; simp at hl
  | [x] => rw [hg] at hl; simp at hl
  | first :: second :: rest =>
    rw [hg] at hl h0
    simp only [List.length_cons] at hl
    simp only [List.getElem?_cons_zero, Option.some.injEq] at h0
    refine ⟨first, second, rest, rfl, by rw [h0]; simp, by omega, by simp; omega, fun i hi => ?_⟩
    rw [List.getElem?_cons_succ, List.getElem_dropLast, List.getElem?_eq_getElem]

theorem decodeGrid_gridLines (a : Arr Tile) (hc : 0 < a.cols) (h : ∀ y x, (a.get y x).Drawable) :
    decodeGrid (gridLines a) = .ok (a.map some) := by
  obtain ⟨first, second, rest, hg, h1, h2, h3, h4⟩ := gridLines_split a
  have key : ∀ i (hi : i < (second :: rest).dropLast.length),
      decodeChars ((second :: rest).dropLast[i]).dropLast.tail 0 (List.replicate (first.length / 2) none) =
        .ok ((List.range a.cols).map fun j => if h : i < a.rows ∧ j < a.cols then some (a.get ⟨i, h.1⟩ ⟨j, h.2⟩) else none) := by
    intro i hi
    have hi' : i < a.rows := h3 ▸ hi
    obtain ⟨r1, r2⟩ := gridLines_row a hc i hi' _ (h4 i hi)
    obtain ⟨row, g1, g2, g3⟩ := decodeChars_ok (fun j => if h : j < a.cols then a.get ⟨i, hi'⟩ ⟨j, h⟩ else .empty)
      ((second :: rest).dropLast[i]).dropLast.tail 0 (List.replicate (first.length / 2) none) (by
        intro j hj
        rw [Nat.zero_add, r2 j hj]
        rw [r1] at hj
        refine ⟨fun ho => by rw [dif_neg (by omega)], fun he => ?_⟩
        rw [dif_pos (⟨he, by omega⟩ : j % 2 = 0 ∧ j / 2 < a.cols), dif_pos (by omega), decode_encode_tile _ (h _ _)]
        refine ⟨rfl, ?_⟩
        simp
        omega)
    rw [g1]
    congr 1
    refine List.ext_getElem? fun j => ?_
    rw [g3]
    simp only [Nat.zero_add, Nat.zero_le, true_and, r1]
    by_cases hj : j < a.cols
    · rw [if_pos (by omega), List.getElem?_map, List.getElem?_range hj]
      simp [hi', hj]
    · rw [if_neg (by omega), List.getElem?_eq_none (by simp; omega), List.getElem?_eq_none (by simp; omega)]
  rw [hg, decodeGrid, decodeRows_spec _ _ _ key]
  simp only [Except.ok.injEq]
  refine Arr.ext' h2 (show first.length / 2 = a.cols by omega) ?_
  intro i j hi hj
  simp only at hi hj
  have hj' : j < a.cols := by omega
  have hi' : i < a.rows := by omega
  simp only [Arr.map, h3]
  simp [hi', hj']

theorem decodeGrid_undrawable (a : Arr Tile) (hu : ∃ y x, ¬ (a.get y x).Drawable) :
    decodeGrid (gridLines a) = .error .keyError := by
  obtain ⟨y, x, hx⟩ := hu
  have hc : 0 < a.cols := by have := x.isLt; omega
  obtain ⟨first, second, rest, hg, h1, h2, h3, h4⟩ := gridLines_split a
  have bad : ∀ i (hi : i < (second :: rest).dropLast.length) (hi' : i < a.rows), (∃ x, ¬ (a.get ⟨i, hi'⟩ x).Drawable) →
      decodeChars ((second :: rest).dropLast[i]).dropLast.tail 0 (List.replicate (first.length / 2) none) = .error .keyError := by
    intro i hi hi' ⟨x, hx⟩
    obtain ⟨r1, r2⟩ := gridLines_row a hc i hi' _ (h4 i hi)
    have hxl := x.isLt
    refine decodeChars_error (fun _ => .empty) _ 0 _ (by rw [r1]; simp; omega) (fun j hj ho => ?_) ⟨2 * x.val, by rw [r1]; omega, by omega, ?_⟩
    · rw [Nat.zero_add] at ho
      rw [r2 j hj, dif_neg (by omega)]
    · rw [r2 _ (by rw [r1]; omega), dif_pos (⟨by omega, by omega⟩ : 2 * x.val % 2 = 0 ∧ 2 * x.val / 2 < a.cols)]
      have : (⟨2 * x.val / 2, by omega⟩ : Fin a.cols) = x := Fin.ext (by simp)
      rw [this, encodeTile_undrawable _ hx]
      rfl
  have good : ∀ i (hi : i < (second :: rest).dropLast.length) (hi' : i < a.rows), (¬ ∃ x, ¬ (a.get ⟨i, hi'⟩ x).Drawable) →
      ∃ r, decodeChars ((second :: rest).dropLast[i]).dropLast.tail 0 (List.replicate (first.length / 2) none) = .ok r := by
    intro i hi hi' hall
    push Not at hall
    obtain ⟨r1, r2⟩ := gridLines_row a hc i hi' _ (h4 i hi)
    obtain ⟨row, g1, -⟩ := decodeChars_ok (fun j => if h : j < a.cols then a.get ⟨i, hi'⟩ ⟨j, h⟩ else .empty)
      ((second :: rest).dropLast[i]).dropLast.tail 0 (List.replicate (first.length / 2) none) (by
        intro j hj
        rw [Nat.zero_add, r2 j hj]
        rw [r1] at hj
        refine ⟨fun ho => by rw [dif_neg (by omega)], fun he => ?_⟩
        rw [dif_pos (⟨he, by omega⟩ : j % 2 = 0 ∧ j / 2 < a.cols), dif_pos (by omega), decode_encode_tile _ (hall _)]
        refine ⟨rfl, ?_⟩
        simp
        omega)
    exact ⟨row, g1⟩
  have := decodeRows_error (first.length / 2) (second :: rest).dropLast .keyError
    (fun i hi => by
      have hi' : i < a.rows := h3 ▸ hi
      by_cases hb : ∃ x, ¬ (a.get ⟨i, hi'⟩ x).Drawable
      · exact Or.inr (bad i hi hi' hb)
      · exact Or.inl (good i hi hi' hb))
    ⟨y.val, by rw [h3]; exact y.isLt, bad y.val (by rw [h3]; exact y.isLt) y.isLt ⟨x, hx⟩⟩
  rw [hg, decodeGrid, this]

/-! ## Text and lines -/

theorem intercalate_cons2 (s a b : List Char) (l : List (List Char)) :
    List.intercalate s (a :: b :: l) = a ++ s ++ List.intercalate s (b :: l) := by simp [List.intercalate, List.intersperse]

theorem append_newline_inj {a b c d : List Char} (ha : '\n' ∉ a) (hb : '\n' ∉ b) (h : a ++ '\n' :: c = b ++ '\n' :: d) : a = b ∧ c = d := by
  induction a generalizing b with
  | nil =>
    cases b with
    | nil => simpa using h
    | cons x b =>
      simp only [List.nil_append, List.cons_append, List.cons.injEq] at h
      exact absurd (h.1 ▸ List.mem_cons_self) hb
  | cons x a ih =>
    cases b with
    | nil =>
      simp only [List.nil_append, List.cons_append, List.cons.injEq] at h
      exact absurd (h.1 ▸ List.mem_cons_self) ha
    | cons y b =>
      simp only [List.cons_append, List.cons.injEq] at h
      obtain ⟨h1, h2⟩ := ih (fun hm => ha (List.mem_cons_of_mem _ hm)) (fun hm => hb (List.mem_cons_of_mem _ hm)) h.2
      exact ⟨by rw [h.1, h1], h2⟩

theorem linesOf_unique {text : List Char} {ls ls' : List (List Char)} (h : LinesOf text ls) (h' : LinesOf text ls') : ls = ls' := by
  induction ls generalizing text ls' with
  | nil => exact absurd rfl h.nonempty
  | cons l ls ih =>
    cases ls' with
    | nil => exact absurd rfl h'.nonempty
    | cons l' ls' =>
      obtain ⟨-, n1, e1⟩ := h
      obtain ⟨-, n2, e2⟩ := h'
      have m1 := n1 l (by simp)
      have m2 := n2 l' (by simp)
      cases ls with
      | nil =>
        cases ls' with
        | nil =>
          simp only [List.intercalate, List.intersperse, List.flatten_cons, List.flatten_nil, List.append_nil] at e1 e2
          rw [e1, e2]
        | cons b ls' =>
          rw [intercalate_cons2] at e2
          simp only [List.intercalate, List.intersperse, List.flatten_cons, List.flatten_nil, List.append_nil] at e1
          exact absurd (by rw [e1, ← e2]; simp) m1
      | cons b ls =>
        cases ls' with
        | nil =>
          rw [intercalate_cons2] at e1
          simp only [List.intercalate, List.intersperse, List.flatten_cons, List.flatten_nil, List.append_nil] at e2
          exact absurd (by rw [e2, ← e1]; simp) m2
        | cons b' ls' =>
          rw [intercalate_cons2] at e1 e2
          have e := e1.trans e2.symm
          rw [List.append_assoc, List.append_assoc] at e
          obtain ⟨h1, h2⟩ := append_newline_inj m1 m2 e
          rw [h1, ih (text := List.intercalate ['\n'] (b :: ls)) ⟨by simp, fun x hx => n1 x (List.mem_cons_of_mem _ hx), rfl⟩
            ⟨by simp, fun x hx => n2 x (List.mem_cons_of_mem _ hx), h2.symm⟩]

theorem charAt_ne_newline (a : Arr Tile) (i j : Nat) : charAt a i j ≠ '\n' := by
  unfold charAt
  repeat' split
  all_goals first | decide | skip
  rcases encodeTile_mem (a.get ⟨i - 1, by omega⟩ ⟨(j - 1) / 2, by omega⟩) with h | h
  · rw [h]; decide
  · intro e
    rw [e] at h
    revert h
    decide

theorem gridLines_newline (a : Arr Tile) : ∀ l ∈ gridLines a, '\n' ∉ l := by
  intro l hl hm
  unfold gridLines at hl
  simp only [List.mem_map, List.mem_range] at hl
  obtain ⟨i, -, rfl⟩ := hl
  simp only [List.mem_map] at hm
  obtain ⟨j, -, e⟩ := hm
  exact charAt_ne_newline a i j e

theorem gridLines_linesOf (a : Arr Tile) : LinesOf (List.intercalate ['\n'] (gridLines a)) (gridLines a) :=
  ⟨by intro h; have := gridLines_length a; rw [h] at this; simp at this, gridLines_newline a, rfl⟩

/-! ## The stream -/

theorem readLines_intercalate (ls : List (List Char)) (hn : ∀ l ∈ ls, '\n' ∉ l) (h : ls ≠ []) (rest : List Char) :
    readLines (List.intercalate ['\n'] ls ++ '\n' :: rest) = ls.map (· ++ ['\n']) ++ readLines rest := by
  induction ls with
  | nil => exact absurd rfl h
  | cons l ls ih =>
    cases ls with
    | nil =>
      simp only [List.intercalate, List.intersperse, List.flatten_cons, List.flatten_nil, List.append_nil, List.map_cons, List.map_nil,
        List.cons_append, List.nil_append]
      exact readLines_line l rest (hn l (by simp))
    | cons b ls =>
      rw [intercalate_cons2, List.append_assoc, List.append_assoc]
      have := readLines_line l (List.intercalate ['\n'] (b :: ls) ++ '\n' :: rest) (hn l (by simp))
      rw [show l ++ (['\n'] ++ (List.intercalate ['\n'] (b :: ls) ++ '\n' :: rest)) =
        l ++ '\n' :: (List.intercalate ['\n'] (b :: ls) ++ '\n' :: rest) by simp, this,
        ih (fun x hx => hn x (List.mem_cons_of_mem _ hx)) (by simp)]
      simp

theorem stripWs_line (l : List Char) (c d : Char) (m : List Char) (e : l = c :: m ++ [d]) (hc : c.isWhitespace = false)
    (hd : d.isWhitespace = false) : stripWs (l ++ ['\n']) = l := by
  subst e
  unfold stripWs
  have hn : Char.isWhitespace '\n' = true := rfl
  simp [List.dropWhile_cons, hc, hd, hn]

/-- A line of the grid that is not the last one. -/
theorem gridLine_shape (a : Arr Tile) (hc : 0 < a.cols) (i : Nat) (hi : i < a.rows + 2) :
    ∃ c m d, (List.range (2 * a.cols + 1)).map (charAt a i) = c :: m ++ [d] ∧ c.isWhitespace = false ∧ d.isWhitespace = false ∧
      (d = '┘' ↔ i = a.rows + 1) := by
  obtain ⟨k, hk⟩ : ∃ k, 2 * a.cols = k + 1 := ⟨2 * a.cols - 1, by omega⟩
  have e : (List.range (2 * a.cols + 1)).map (charAt a i) =
      charAt a i 0 :: ((List.range k).map fun j => charAt a i (j + 1)) ++ [charAt a i (2 * a.cols)] := by
    rw [hk, List.range_succ, List.range_succ_eq_map]
    simp [Function.comp_def]
  refine ⟨_, _, _, e, ?_, ?_, ?_⟩
  · unfold charAt
    rw [if_neg (by omega), if_neg (by omega)]
    split
    · decide
    · split
      · decide
      · rw [if_pos (Or.inl rfl)]
        decide
  · unfold charAt
    split
    · decide
    · split
      · decide
      · rw [if_neg (by omega), if_neg (by omega), if_pos (Or.inr rfl)]
        decide
  · unfold charAt
    by_cases h : i = a.rows + 1
    · rw [if_pos ⟨h, rfl⟩]
      exact ⟨fun _ => h, fun _ => rfl⟩
    · rw [if_neg (fun x => h x.1)]
      refine ⟨fun x => ?_, fun x => absurd x h⟩
      exfalso
      revert x
      split
      · decide
      · rw [if_neg (by omega), if_neg (by omega), if_pos (Or.inr rfl)]
        decide

theorem nextGrid_lines (init : List (List Char)) (last : List Char) (rest : List (List Char))
    (h1 : ∀ l ∈ init, stripWs (l ++ ['\n']) = l ∧ isLastLine l = false) (h2 : stripWs (last ++ ['\n']) = last ∧ isLastLine last = true) :
    nextGrid ((init ++ [last]).map (· ++ ['\n']) ++ rest) = some (init ++ [last], rest) := by
  induction init with
  | nil =>
    simp only [List.nil_append, List.map_cons, List.map_nil, List.cons_append]
    rw [nextGrid]
    simp [h2.1, h2.2]
  | cons l init ih =>
    simp only [List.cons_append, List.map_cons]
    rw [nextGrid]
    obtain ⟨e1, e2⟩ := h1 l (by simp)
    simp only [e1, e2, Bool.false_eq_true, if_false]
    have := ih fun x hx => h1 x (List.mem_cons_of_mem _ hx)
    rw [this]

theorem nextGrid_grid (a : Arr Tile) (hc : 0 < a.cols) (rest : List (List Char)) :
    nextGrid ((gridLines a).map (· ++ ['\n']) ++ rest) = some (gridLines a, rest) := by
  have e : gridLines a = ((List.range (a.rows + 1)).map fun i => (List.range (2 * a.cols + 1)).map (charAt a i)) ++
      [(List.range (2 * a.cols + 1)).map (charAt a (a.rows + 1))] := by
    unfold gridLines
    rw [List.range_succ (n := a.rows + 1), List.map_append, List.map_singleton]
  rw [e]
  apply nextGrid_lines
  · intro l hl
    simp only [List.mem_map, List.mem_range] at hl
    obtain ⟨i, hi, rfl⟩ := hl
    obtain ⟨c, m, d, e, h1, h2, h3⟩ := gridLine_shape a hc i (by omega)
    refine ⟨stripWs_line _ c d m e h1 h2, ?_⟩
    rw [e]
    unfold isLastLine
    simp only [List.getLast?_append, List.getLast?_singleton, Option.some_or, Option.some.injEq, decide_eq_false_iff_not]
    intro hd
    have := h3.1 hd
    omega
  · obtain ⟨c, m, d, e, h1, h2, h3⟩ := gridLine_shape a hc (a.rows + 1) (by omega)
    refine ⟨stripWs_line _ c d m e h1 h2, ?_⟩
    rw [e]
    unfold isLastLine
    simp only [List.getLast?_append, List.getLast?_singleton, Option.some_or, Option.some.injEq, decide_eq_true_eq]
    exact h3.2 rfl

end FSat
