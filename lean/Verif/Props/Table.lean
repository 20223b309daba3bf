import Verif.Spec.Crosstable
import Verif.Props.Crosstable
/-!
# The exported file as a whole (C67, C69)
-/

namespace FSat

theorem isCell_pad (t : List Char) : IsCell t (padThree t) :=
  ⟨3 - t.length, rfl, by simp [padThree]; omega⟩

theorem shows_cell {d : PyDict Size Bool} (hc : Consistent d) (width height : Int) : Shows d (width + 2) height (tableCell d width height) := by
  obtain ⟨c4, c6, c8, cx, cq⟩ := c67_cell d hc width height
  by_cases h4 : KnownYes d (4, width + 2, height)
  · exact .inl ⟨h4, c4.2 h4⟩
  by_cases h6 : KnownYes d (6, width + 2, height)
  · exact .inr (.inl ⟨h4, h6, c6.2 ⟨h4, h6⟩⟩)
  by_cases h8 : KnownYes d (8, width + 2, height)
  · exact .inr (.inr (.inl ⟨h4, h6, h8, c8.2 ⟨h4, h6, h8⟩⟩))
  have hno : ∀ ul ∈ [(4 : Int), 6, 8], ¬ KnownYes d (ul, width + 2, height) := by
    intro ul hul
    simp only [List.mem_cons, List.not_mem_nil, or_false] at hul
    rcases hul with rfl | rfl | rfl <;> assumption
  by_cases hk : ∃ ul ∈ [(4 : Int), 6, 8], KnownNo d (ul, width + 2, height)
  · exact .inr (.inr (.inr (.inl ⟨hno, hk, cx.2 ⟨hno, hk⟩⟩)))
  · push Not at hk
    exact .inr (.inr (.inr (.inr ⟨hno, hk, cq.2 ⟨hno, hk⟩⟩)))

theorem greatest_maxOf {l : List Int} (h : l ≠ []) : Greatest l (maxOf l) := by
  cases l with
  | nil => exact absurd rfl h
  | cons x xs =>
    have key : ∀ (xs : List Int) (x : Int), (xs.foldl max x = x ∨ xs.foldl max x ∈ xs) ∧ x ≤ xs.foldl max x ∧ ∀ v ∈ xs, v ≤ xs.foldl max x := by
      intro xs
      induction xs with
      | nil => intro x; simp
      | cons y ys ih =>
        intro x
        obtain ⟨h1, h2, h3⟩ := ih (max x y)
        simp only [List.foldl_cons]
        refine ⟨?_, (le_max_left _ _).trans h2, fun v hv => ?_⟩
        · rcases h1 with h1 | h1
          · rw [h1]
            rcases max_choice x y with e | e
            · exact .inl e
            · rw [e]; exact .inr (.head _)
          · exact .inr (.tail _ h1)
        · rcases List.mem_cons.1 hv with rfl | hv
          · exact (le_max_right _ _).trans h2
          · exact h3 v hv
    obtain ⟨h1, h2, h3⟩ := key xs x
    refine ⟨?_, fun v hv => ?_⟩
    · rcases h1 with h1 | h1
      · show xs.foldl max x ∈ _
        rw [h1]; exact .head _
      · exact .tail _ h1
    · rcases List.mem_cons.1 hv with rfl | hv
      · exact h2
      · exact h3 v hv

theorem intsFrom_length (lo hi : Int) : (intsFrom lo hi).length = (hi + 1 - lo).toNat := by simp [intsFrom]

theorem intsFrom_get {lo hi : Int} {k : Nat} {v : Int} (h : (intsFrom lo hi)[k]? = some v) : v = lo + k := by
  unfold intsFrom at h
  rw [List.getElem?_map, Option.map_eq_some_iff] at h
  obtain ⟨j, hj, rfl⟩ := h
  rw [List.getElem?_eq_some_iff] at hj
  obtain ⟨_, hj⟩ := hj
  rw [List.getElem_range] at hj
  rw [hj]

theorem intsFrom_getD {lo hi : Int} (f : Int → List Char) {k : Nat} (hk : k < (hi + 1 - lo).toNat) (d : List Char) :
    ((intsFrom lo hi).map f).getD k d = f (lo + k) := by
  have hl : k < (intsFrom lo hi).length := by rw [intsFrom_length]; exact hk
  rw [List.getD_eq_getElem?_getD, List.getElem?_map, List.getElem?_eq_getElem hl, Option.map_some, Option.getD_some,
    intsFrom_get (List.getElem?_eq_getElem hl)]

/-- The part of the file for a network with records. -/
theorem storeTable_is {s : Store} (hc : Consistent s.exist) (hne : s.exist ≠ []) {text : List Char} (h : storeTable s = .ok text) : IsTable s text := by
  unfold storeTable at h
  rw [if_neg hne] at h
  simp only at h
  cases hio : getInputOutputColours s.network with
  | error e => rw [hio] at h; cases h
  | ok r =>
    obtain ⟨⟨a, i⟩, ⟨b, o⟩⟩ := r
    rw [hio] at h
    simp only [Except.ok.injEq] at h
    have g1 : Greatest (s.exist.map fun e => e.1.2.1) (maxOf (s.exist.map fun e => e.1.2.1) - 2 + 2) := by
      rw [sub_add_cancel]
      exact greatest_maxOf (by simpa using hne)
    have g2 := greatest_maxOf (l := s.exist.map fun e => e.1.2.2) (by simpa using hne)
    generalize maxOf (s.exist.map fun e => e.1.2.1) - 2 = w at h g1
    generalize maxOf (s.exist.map fun e => e.1.2.2) = hh at h g2
    have hw : (w + 1 - 1).toNat = w.toNat := by rw [add_sub_cancel_right]
    refine ⟨a, i, b, o, w, hh, [' ', ' ', ' '] :: (intsFrom 1 w).map (fun k => padThree (showInt k)),
      (intsFrom (max i o) hh).map fun y => padThree (showInt y) :: (intsFrom 1 w).map fun x => padThree [tableCell s.exist x y],
      (gio_iff _ _ _ _ _).1 hio, g1, g2, ?_, ?_, ⟨3, rfl, rfl⟩, fun k hk => ?_, ?_, fun j row hrow => ?_⟩
    · rw [← h]
      have e1 : tableLine ([' ', ' ', ' '] :: (intsFrom 1 w).map (fun k => padThree (showInt k))) =
          ['|', ' ', ' ', ' ', ' ', ' ', '|'] ++ ((intsFrom 1 w).flatMap fun i => ' ' :: padThree (showInt i) ++ [' ', '|']) ++ ['\n'] := by
        simp [tableLine, List.flatMap_map]
      have e2 : ruleLine (w + 1).toNat = '|' :: (intsFrom 0 w).flatMap (fun _ => ['-', '-', '-', '-', '-', '|']) ++ ['\n'] := by
        have : (intsFrom 0 w).map (fun _ => ['-', '-', '-', '-', '-', '|']) = List.replicate (w + 1).toNat ['-', '-', '-', '-', '-', '|'] := by
          rw [List.map_const', intsFrom_length, sub_zero]
        rw [List.flatMap_def, this]
        rfl
      have e3 : (((intsFrom (max i o) hh).map fun y => padThree (showInt y) :: (intsFrom 1 w).map fun x => padThree [tableCell s.exist x y]).map
          tableLine).flatten = (intsFrom (max i o) hh).flatMap fun height => tableRow s.exist w height := by
        rw [List.map_map, List.flatMap_def]
        congr 1
        refine List.map_congr_left fun y _ => ?_
        simp [tableLine, tableRow, List.flatMap_map]
      rw [e1, e2, e3]
      simp
    · simp [intsFrom_length]
    · rw [List.getD_cons_succ, intsFrom_getD _ (by omega), add_comm]
      exact isCell_pad _
    · simp [intsFrom_length]
    · rw [List.getElem?_map, Option.map_eq_some_iff] at hrow
      obtain ⟨y, hy, rfl⟩ := hrow
      obtain rfl := intsFrom_get hy
      refine ⟨by simp [intsFrom_length], isCell_pad _, fun k hk => ⟨_, shows_cell hc (k + 1) _, ?_⟩⟩
      rw [List.getD_cons_succ, intsFrom_getD _ (by omega), add_comm (1 : Int)]
      exact isCell_pad _

theorem storeTables_are : ∀ {stores : List Store}, (∀ s ∈ stores, Consistent s.exist) → ∀ {out : List Char}, storeTables stores = .ok out →
    ∃ texts, List.Forall₂ IsTable (stores.filter fun s => s.exist ≠ []) texts ∧ out = texts.flatten
  | [], _, out, h => by
    cases h
    exact ⟨[], .nil, rfl⟩
  | s :: rest, hc, out, h => by
    rw [storeTables] at h
    cases ht : storeTable s with
    | error e => rw [ht] at h; cases h
    | ok text =>
      rw [ht] at h
      simp only at h
      cases hr : storeTables rest with
      | error e => rw [hr] at h; cases h
      | ok more =>
        rw [hr] at h
        simp only [Except.ok.injEq] at h
        obtain ⟨texts, h1, h2⟩ := storeTables_are (fun s hs => hc s (.tail _ hs)) hr
        by_cases hne : s.exist = []
        · refine ⟨texts, ?_, ?_⟩
          · rw [List.filter_cons_of_neg (by simpa using hne)]
            exact h1
          · have : text = [] := by
              unfold storeTable at ht
              rw [if_pos hne] at ht
              cases ht
              rfl
            rw [← h, this, h2]
            rfl
        · refine ⟨text :: texts, ?_, by rw [← h, h2]; rfl⟩
          rw [List.filter_cons_of_pos (by simpa using hne)]
          exact .cons (storeTable_is (hc s (.head _)) hne ht) h1

/-- C67: the exported file.  After the heading there is one table for each store with records, in the order of C69, and all its cells show what is
known. -/
theorem c67_table {stores : List Store} (hc : ∀ s ∈ stores, Consistent s.exist) {file : Option (List Char)} {out : List Char}
    (h : exportCrosstable stores file = .ok out) :
    ∃ texts, List.Forall₂ IsTable ((sortStores stores).filter fun s => s.exist ≠ []) texts ∧
      out = preamble file ++ "# Balancers\n".toList ++ texts.flatten := by
  unfold exportCrosstable at h
  cases ht : storeTables (sortStores stores) with
  | error e => rw [ht] at h; cases h
  | ok tables =>
    rw [ht] at h
    simp only [Except.ok.injEq] at h
    obtain ⟨texts, h1, h2⟩ := storeTables_are (fun s hs => hc s ((List.mergeSort_perm stores _).mem_iff.1 hs)) ht
    refine ⟨texts, h1, ?_⟩
    rw [← h, h2, List.append_assoc (preamble file)]
    rfl

/-- C67: and the export does not fail if all networks with records have one input colour and one output colour. -/
theorem c67_exported (stores : List Store) (file : Option (List Char))
    (h : ∀ s ∈ stores, s.exist ≠ [] → ∃ a i b o, Ends s.network a i b o) : ∃ out, exportCrosstable stores file = .ok out := by
  have one : ∀ s ∈ stores, ∃ text, storeTable s = .ok text := by
    intro s hs
    unfold storeTable
    split
    · exact ⟨_, rfl⟩
    · rename_i hne
      obtain ⟨a, i, b, o, hE⟩ := h s hs hne
      simp only [(gio_iff _ _ _ _ _).2 hE]
      exact ⟨_, rfl⟩
  have all : ∀ l : List Store, (∀ s ∈ l, s ∈ stores) → ∃ text, storeTables l = .ok text := by
    intro l
    induction l with
    | nil => intro _; exact ⟨[], rfl⟩
    | cons s rest ih =>
      intro hl
      obtain ⟨t, ht⟩ := one s (hl s (.head _))
      obtain ⟨m, hm⟩ := ih fun s hs => hl s (.tail _ hs)
      exact ⟨t ++ m, by rw [storeTables, ht]; simp only; rw [hm]⟩
  obtain ⟨t, ht⟩ := all (sortStores stores) fun s hs => (List.mergeSort_perm stores _).mem_iff.1 hs
  exact ⟨_, by unfold exportCrosstable; rw [ht]⟩

/-- The hypotheses are met: two stores, one of them without records. -/
example : (∀ s ∈ [exampleStore, { exampleStore with exist := [] }], Consistent s.exist) ∧
    ∃ out, exportCrosstable [exampleStore, { exampleStore with exist := [] }] none = .ok out := by
  refine ⟨?_, c67_exported _ _ fun s hs _ => ?_⟩
  · have key : ∀ x ∈ exampleStore.exist, ∀ y ∈ exampleStore.exist, x.2 = true → y.2 = false →
        ¬ (x.1.1 ≤ y.1.1 ∧ x.1.2.1 ≤ y.1.2.1 ∧ x.1.2.2 ≤ y.1.2.2) := by decide
    have : Consistent exampleStore.exist := fun x y hx hy h => key _ hx _ hy rfl rfl h
    intro s hs
    simp only [List.mem_cons, List.not_mem_nil, or_false] at hs
    rcases hs with rfl | rfl
    · exact this
    · intro x y hx
      cases hx
  · have : ∃ a i b o, Ends exampleStore.network a i b o := ⟨0, 2, 1, 2, (gio_iff _ _ _ _ _).1 (by decide)⟩
    simp only [List.mem_cons, List.not_mem_nil, or_false] at hs
    rcases hs with rfl | rfl <;> exact this

/-! ### The order of texts -/

/-- `a` is before `b` in the order of code points: at the first place where they differ `a` has the smaller character, or it ends there. -/
def TextBefore (a b : List Char) : Prop :=
  ∃ common, (∃ c x y, a = common ++ x :: c ∧ (∃ d, b = common ++ y :: d) ∧ x.toNat < y.toNat) ∨ (a = common ∧ ∃ y d, b = common ++ y :: d)

theorem textLe_before {a b : List Char} (h : TextBefore a b) : textLe b a = false := by
  obtain ⟨common, h⟩ := h
  induction common generalizing a b with
  | nil =>
    rcases h with ⟨c, x, y, rfl, ⟨d, rfl⟩, hlt⟩ | ⟨rfl, y, d, rfl⟩
    · have : y ≠ x := by rintro rfl; omega
      simp [textLe, this]
      omega
    · rfl
  | cons z common ih =>
    rcases h with ⟨c, x, y, rfl, ⟨d, rfl⟩, hlt⟩ | ⟨rfl, y, d, rfl⟩
    · simp only [List.cons_append, textLe, if_true]
      exact ih (.inl ⟨c, x, y, rfl, ⟨d, rfl⟩, hlt⟩)
    · simp only [List.cons_append, textLe, if_true]
      exact ih (.inr ⟨rfl, y, d, rfl⟩)

/-- C69: of two stores with the same numbers, or of two without numbers, the one whose rest of the name is before the other's comes first. -/
theorem c69_rest (stores : List Store) (i j : Nat) (s t : Store) (hi : (sortStores stores)[i]? = some s)
    (hj : (sortStores stores)[j]? = some t) (he : (orderingKey s.name).1 = (orderingKey t.name).1 ∧ (orderingKey s.name).2.1 = (orderingKey t.name).2.1)
    (hlt : TextBefore (orderingKey s.name).2.2 (orderingKey t.name).2.2) : i < j := by
  have hf : keyLe (orderingKey t.name) (orderingKey s.name) = false := by
    unfold keyLe
    rw [if_pos he.1.symm, if_pos he.2.symm]
    exact textLe_before hlt
  obtain ⟨li, ei⟩ := List.getElem?_eq_some_iff.1 hi
  obtain ⟨lj, ej⟩ := List.getElem?_eq_some_iff.1 hj
  rcases Nat.lt_trichotomy i j with h | h | h
  · exact h
  · subst h
    rw [ei] at ej
    subst ej
    have := textLe_refl (orderingKey s.name).2.2
    rw [textLe_before hlt] at this
    cases this
  · have := List.pairwise_iff_getElem.1 (sortStores_sorted stores) j i lj li h
    rw [ei, ej, hf] at this
    cases this

/-- C69: the key of a name without numbers in front is the name. -/
theorem c69_plain (name : List Char) (h : ∀ c, name.head? = some c → ¬ ('0' ≤ c ∧ c ≤ '9')) : orderingKey name = (none, none, name) := by
  cases name with
  | nil => rfl
  | cons c t =>
    have : Json.isDig c = false := by
      rw [← Bool.not_eq_true, Json.isDig_iff_digitVal]
      exact h c rfl
    simp [orderingKey, spanDigits, this]

example : orderingKey "lane".toList = (none, none, "lane".toList) ∧ TextBefore "lab".toList "lane".toList :=
  ⟨by decide, "la".toList, .inl ⟨[], 'b', 'n', rfl, ⟨['e'], rfl⟩, by decide⟩⟩

end FSat
