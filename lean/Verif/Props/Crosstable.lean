import Verif.Lemmas.Crosstable
import Verif.Props.Optimal
/-!
# Properties of belt levels and of the exported table (C66 - C69)
-/

namespace FSat

/-! ### C66 -/

/-- The longest underground connection of a level, as in the game. -/
def LevelName.reach : LevelName → Int
  | .normal => 4
  | .fast => 6
  | .express => 8

/-- C66: the level chosen for an underground length reaches far enough if any does, and no level of shorter reach would do; if none
reaches far enough it is the one that reaches farthest. -/
theorem c66_belt_level (ul : Int) :
    (ul ≤ 8 → ul ≤ (getBeltLevel ul).reach ∧ ∀ level, ul ≤ LevelName.reach level → (getBeltLevel ul).reach ≤ level.reach) ∧
    (8 < ul → getBeltLevel ul = .express) := by
  have key : getBeltLevel ul = if ul ≤ 4 then .normal else if ul ≤ 6 then .fast else .express := by
    unfold getBeltLevel maximumUndergroundLengths beltLevelLoop beltLevelLoop beltLevelLoop beltLevelLoop
    split
    · rfl
    · split
      · rfl
      · split <;> rfl
  rw [key]
  refine ⟨fun h => ?_, fun h => ?_⟩
  · split
    · refine ⟨by simpa [LevelName.reach], fun level hl => ?_⟩
      cases level <;> simp [LevelName.reach]
    · split
      · refine ⟨by simpa [LevelName.reach], fun level hl => ?_⟩
        cases level <;> simp_all [LevelName.reach] <;> omega
      · refine ⟨by simpa [LevelName.reach], fun level hl => ?_⟩
        cases level <;> simp_all [LevelName.reach] <;> omega
  · rw [if_neg (by omega), if_neg (by omega)]

example : getBeltLevel 3 = .normal ∧ getBeltLevel 5 = .fast ∧ getBeltLevel 8 = .express ∧ getBeltLevel 9 = .express := by decide

/-! ### C67 -/

/-- C67: what a cell of the table shows, for records that do not contradict each other: the square of the cheapest level for which a
balancer is known; else the cross if the records rule out one for some level; else the question mark. -/
theorem c67_cell (d : PyDict Size Bool) (hc : Consistent d) (width height : Int) :
    (tableCell d width height = Char.ofNat 0x1f7e8 ↔ KnownYes d (4, width + 2, height)) ∧
    (tableCell d width height = Char.ofNat 0x1f7e5 ↔ ¬ KnownYes d (4, width + 2, height) ∧ KnownYes d (6, width + 2, height)) ∧
    (tableCell d width height = Char.ofNat 0x1f7e6 ↔ ¬ KnownYes d (4, width + 2, height) ∧ ¬ KnownYes d (6, width + 2, height) ∧
      KnownYes d (8, width + 2, height)) ∧
    (tableCell d width height = Char.ofNat 0x274c ↔ (∀ ul ∈ [(4 : Int), 6, 8], ¬ KnownYes d (ul, width + 2, height)) ∧
      ∃ ul ∈ [(4 : Int), 6, 8], KnownNo d (ul, width + 2, height)) ∧
    (tableCell d width height = Char.ofNat 0x2754 ↔ (∀ ul ∈ [(4 : Int), 6, 8], ¬ KnownYes d (ul, width + 2, height)) ∧
      ∀ ul ∈ [(4 : Int), 6, 8], ¬ KnownNo d (ul, width + 2, height)) := by
  obtain ⟨y4, n4⟩ := doesExist_eq hc (4, width + 2, height)
  obtain ⟨y6, n6⟩ := doesExist_eq hc (6, width + 2, height)
  obtain ⟨y8, n8⟩ := doesExist_eq hc (8, width + 2, height)
  simp only [List.forall_mem_cons, List.exists_mem_cons_iff, List.not_mem_nil, false_imp_iff, implies_true, and_true, false_and,
    exists_false, or_false]
  rw [← y4, ← y6, ← y8, ← n4, ← n6, ← n8]
  unfold tableCell tableLevels
  simp only [cellLoop]
  generalize doesExist d (4, width + 2, height) = a
  generalize doesExist d (6, width + 2, height) = b
  generalize doesExist d (8, width + 2, height) = c
  rcases a with _ | _ | _ <;> rcases b with _ | _ | _ <;> rcases c with _ | _ | _ <;> decide

/-- C67: with truthful records a square means that a balancer of this size exists with belts of that level, and a cross that there is
none with the cheapest belts. Missing: that there is none with the better belts, which is false, see below. -/
theorem c67_truthful_partial (fits : Size → Prop) (hu : UpClosed fits) (d : PyDict Size Bool) (ht : Truthful fits d) (width height : Int) :
    (∀ level ∈ tableLevels, tableCell d width height = level.2 → fits (level.1, width + 2, height)) ∧
    (tableCell d width height = impossibleMark → ¬ fits (4, width + 2, height)) := by
  obtain ⟨c4, c6, c8, cx, -⟩ := c67_cell d (ht.consistent hu) width height
  refine ⟨?_, ?_⟩
  · intro level hl he
    simp only [tableLevels, List.mem_cons, List.not_mem_nil, or_false] at hl
    rcases hl with rfl | rfl | rfl
    · exact ht.yes hu (c4.1 he)
    · exact ht.yes hu (c6.1 he).2
    · exact ht.yes hu (c8.1 he).2.2
  · intro he hf
    obtain ⟨ul, hul, hno⟩ := (cx.1 he).2
    refine ht.no hu hno (hu (4, width + 2, height) _ ⟨?_, le_refl _, le_refl _⟩ hf)
    simp only [List.mem_cons, List.not_mem_nil, or_false] at hul
    simp only
    omega

/-- C67 does not hold in full: a cell may show the cross although a balancer of this size exists with better belts, which were not
tried. -/
theorem c67_impossible_refuted : ∃ (fits : Size → Prop) (d : PyDict Size Bool) (width height : Int), UpClosed fits ∧ Truthful fits d ∧
    d.Valid ∧ tableCell d width height = impossibleMark ∧ fits (8, width + 2, height) := by
  refine ⟨fun s => 6 ≤ s.1, [((4, 5, 2), false)], 3, 2, ?_, ?_, by unfold PyDict.Valid; decide, by decide, by decide⟩
  · intro a b hl h
    exact h.trans hl.1
  · intro k b h
    simp only [List.mem_singleton, Prod.mk.injEq] at h
    obtain ⟨rfl, rfl⟩ := h
    simp

/-! ### C68 -/

/-- C68: exporting again changes nothing, if the file was absent, empty, ended with a newline or had the heading already; and the new file
begins with all lines of the old one before the heading. Missing: files that do not end with a newline and have no heading. -/
theorem c68_export_again_partial (stores : List Store) (file : Option (List Char)) (out : List Char)
    (h : ∀ text, file = some text → text = [] ∨ text.getLast? = some '\n' ∨ ∃ l ∈ fileLines text, isMark l = true)
    (he : exportCrosstable stores file = .ok out) :
    exportCrosstable stores (some out) = .ok out ∧ preamble (some out) = preamble file ∧ preamble file <+: out := by
  unfold exportCrosstable at he ⊢
  cases ht : storeTables (sortStores stores) with
  | error e => rw [ht] at he; cases he
  | ok tables =>
    rw [ht] at he
    simp only [Except.ok.injEq] at he ⊢
    have hp : ∃ ls : List (List Char), (∀ l ∈ ls, ∃ w, '\n' ∉ w ∧ l = w ++ ['\n']) ∧ (∀ l ∈ ls, isMark l = false) ∧
        preamble file = ls.flatten := by
      cases file with
      | none => exact ⟨[], by simp, by simp, rfl⟩
      | some text => exact preamble_lines text (h text rfl)
    obtain ⟨ls, h1, h2, h3⟩ := hp
    have ha : preamble (some out) = preamble file := by
      rw [← he, h3]
      exact preamble_again ls h1 h2 tables
    refine ⟨?_, ha, ?_⟩
    · rw [ha]; exact he
    · rw [← he, List.append_assoc, List.append_assoc]
      exact List.prefix_append _ _

/-- C68 does not hold in full: when the file does not end with a newline and has no heading, the heading is written at the end of its
last line, is not recognised by the next export, and every export adds another copy of all tables. -/
theorem c68_export_again_refuted : ∃ (stores : List Store) (file : List Char) (out again : List Char),
    exportCrosstable stores (some file) = .ok out ∧ exportCrosstable stores (some out) = .ok again ∧ again ≠ out ∧
    again.length = 2 * out.length - file.length := by
  refine ⟨[exampleStore], ['t'], (exportCrosstable [exampleStore] (some ['t'])).toOption.getD [],
    (exportCrosstable [exampleStore] (some ((exportCrosstable [exampleStore] (some ['t'])).toOption.getD []))).toOption.getD [],
    by decide +kernel, by decide +kernel, by decide +kernel, by decide +kernel⟩

example : exportCrosstable [exampleStore] (some ['t', '\n']) =
    .ok (("t\n# Balancers\n## 2x2\n|     | 1   | 2   | 3   | 4   |\n|-----|-----|-----|-----|-----|\n".toList ++
      "| 2   | ❌   | ❌   | ❔   | 🟨   |\n\n".toList)) := by decide +kernel

/-! ### C69 -/

/-- C69: the tables, and the results of a query, come in the order of their keys, none is lost and none is added. -/
theorem c69_sorted (stores : List Store) :
    ((sortStores stores).Pairwise fun a b => keyLe (orderingKey a.name) (orderingKey b.name) = true) ∧
    (sortStores stores).Perm stores :=
  ⟨sortStores_sorted stores, List.mergeSort_perm _ _⟩

/-- C69: keys are ordered by the number of inputs, then by the number of outputs. -/
theorem c69_numeric (a b a' b' : Nat) (r r' : List Char) :
    (a < a' ∨ a = a' ∧ b < b' → keyLe (some a', some b', r') (some a, some b, r) = false) ∧
    keyLe (some a, some b, r) (none, none, r') = true ∧ keyLe (none, none, r') (some a, some b, r) = false := by
  refine ⟨?_, by simp [keyLe, ltInf], by simp [keyLe, ltInf]⟩
  intro h
  unfold keyLe
  simp only [Option.some.injEq, ltInf]
  rcases h with h | ⟨rfl, h⟩
  · rw [if_neg (by omega)]; simp; omega
  · rw [if_pos rfl, if_neg (by omega)]; simp; omega

theorem fold_natOf (cs : List Char) : ∀ acc n, natOf acc cs = some n → cs.foldl (fun n d => 10 * n + (d.toNat - 48)) acc = n := by
  induction cs with
  | nil => intro acc n h; exact Option.some.inj h
  | cons c cs ih =>
    intro acc n h
    rw [natOf] at h
    rw [List.foldl_cons]
    cases hd : digitVal c with
    | none => rw [hd] at h; cases h
    | some d =>
      rw [hd] at h
      have : d = c.toNat - 48 := by
        unfold digitVal at hd
        split at hd
        · exact (Option.some.inj hd).symm
        · cases hd
      subst this
      exact ih _ _ h

/-- C69: the key of a network file whose name begins with two numbers joined by `x` or `-` is those two numbers, and the rest of the
name. -/
theorem c69_key (a b : Nat) (sep : Char) (hsep : sep = 'x' ∨ sep = '-') (rest : List Char)
    (hd : ∀ c, rest.head? = some c → ¬ ('0' ≤ c ∧ c ≤ '9')) (hn : '\n' ∉ rest) :
    orderingKey (showNat a ++ sep :: (showNat b ++ rest)) = (some a, some b, rest) := by
  have hr : rest.takeWhile Json.isDig = [] ∧ rest.dropWhile Json.isDig = rest := by
    cases rest with
    | nil => exact ⟨rfl, rfl⟩
    | cons c t =>
      have : Json.isDig c = false := by
        rw [← Bool.not_eq_true, Json.isDig_iff_digitVal]
        exact hd c rfl
      simp [this]
  have hs : Json.isDig sep = false := by rcases hsep with rfl | rfl <;> decide
  have h1 := Json.takeWhile_dig (l := showNat a) (rest := sep :: (showNat b ++ rest)) (Json.showNat_dig a) (by simp [hs])
  have h2 := Json.takeWhile_dig (l := showNat b) (rest := rest) (Json.showNat_dig b) hr.1
  have h3 : (sep :: (showNat b ++ rest)).dropWhile Json.isDig = sep :: (showNat b ++ rest) := by simp [hs]
  have ne : ∀ n, showNat n ≠ [] := fun n => by
    obtain ⟨c, cs, e, -⟩ := showNat_spec n
    rw [e]; nofun
  unfold orderingKey spanDigits
  rw [h1.1, h1.2, h3]
  simp only
  rw [if_pos ⟨ne a, hsep⟩, h2.1, h2.2, hr.2, if_pos (ne b), fold_natOf _ _ _ (natOf_showNat a), fold_natOf _ _ _ (natOf_showNat b)]
  have : rest.takeWhile (fun c => decide (c ≠ '\n')) = rest := by
    rw [List.takeWhile_eq_self_iff]
    intro c hc
    simp only [decide_eq_true_eq]
    rintro rfl
    exact hn hc
  rw [this]

/-- C69: of two such networks, the one with fewer inputs, or as many inputs and fewer outputs, never comes after the other. -/
theorem c69_before (stores : List Store) (i j : Nat) (s t : Store) (hi : (sortStores stores)[i]? = some s)
    (hj : (sortStores stores)[j]? = some t) (a b a' b' : Nat) (sep sep' : Char) (rest rest' : List Char)
    (hs : sep = 'x' ∨ sep = '-') (hs' : sep' = 'x' ∨ sep' = '-')
    (hd : ∀ c, rest.head? = some c → ¬ ('0' ≤ c ∧ c ≤ '9')) (hd' : ∀ c, rest'.head? = some c → ¬ ('0' ≤ c ∧ c ≤ '9'))
    (hn : '\n' ∉ rest) (hn' : '\n' ∉ rest') (es : s.name = showNat a ++ sep :: (showNat b ++ rest))
    (et : t.name = showNat a' ++ sep' :: (showNat b' ++ rest')) (hlt : a < a' ∨ a = a' ∧ b < b') : i < j := by
  have hk := c69_key a b sep hs rest hd hn
  have hk' := c69_key a' b' sep' hs' rest' hd' hn'
  rw [← es] at hk
  rw [← et] at hk'
  have hf := (c69_numeric a b a' b' rest rest').1 hlt
  rw [← hk, ← hk'] at hf
  obtain ⟨li, ei⟩ := List.getElem?_eq_some_iff.1 hi
  obtain ⟨lj, ej⟩ := List.getElem?_eq_some_iff.1 hj
  rcases Nat.lt_trichotomy i j with h | h | h
  · exact h
  · subst h
    rw [ei] at ej
    subst ej
    rw [hk] at hk'
    simp only [Prod.mk.injEq, Option.some.injEq] at hk'
    omega
  · have := List.pairwise_iff_getElem.1 (sortStores_sorted stores) j i lj li h
    rw [ei, ej, hf] at this
    cases this

example : orderingKey ['1', '2', 'x', '8', 'b'] = (some 12, some 8, ['b']) ∧ orderingKey ['4', '-', '5'] = (some 4, some 5, []) ∧
    orderingKey ['x', '4'] = (none, none, ['x', '4']) := by decide

end FSat
