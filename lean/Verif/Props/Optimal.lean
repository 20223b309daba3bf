import Verif.Lemmas.Objective
/-!
# Properties of the store of results, the search for optima and saving (C48 - C54, C65)
-/

namespace FSat

/-! ### C48 -/

/-- C48: a positive answer rests on a recorded solution of a size at most the one asked for, a negative one on a recorded failure of a
size at least the one asked for, and there is no answer exactly when nothing recorded decides. -/
theorem c48_answers (d : PyDict Size Bool) (size : Size) :
    (doesExist d size = some true → ∃ o, (o, true) ∈ d ∧ Size.LE o size) ∧
    (doesExist d size = some false → ∃ o, (o, false) ∈ d ∧ Size.LE size o) ∧
    (doesExist d size = none ↔ (¬ ∃ o, (o, true) ∈ d ∧ Size.LE o size) ∧ ¬ ∃ o, (o, false) ∈ d ∧ Size.LE size o) :=
  ⟨doesExist_true, doesExist_false, doesExist_none⟩

/-- C48: if the records are true of a relation that is kept by larger sizes, so is every answer. -/
theorem c48_truthful (fits : Size → Prop) (hu : UpClosed fits) (d : PyDict Size Bool) (ht : Truthful fits d) (size : Size) (b : Bool)
    (h : doesExist d size = some b) : b = true ↔ fits size := by
  cases b with
  | true => exact ⟨fun _ => ht.yes hu (doesExist_true h), fun _ => rfl⟩
  | false => exact ⟨nofun, fun hf => absurd hf (ht.no hu (doesExist_false h))⟩

/-- C48: as long as the records do not contradict each other the answer does not depend on their order. -/
theorem c48_consistent (d : PyDict Size Bool) (hc : Consistent d) (size : Size) :
    (doesExist d size = some true ↔ KnownYes d size) ∧ (doesExist d size = some false ↔ KnownNo d size) := doesExist_eq hc size

/-- C48: a new result decides its size, and changes no answer about other sizes but those that had none. -/
theorem c48_add (fits : Size → Prop) (hu : UpClosed fits) (s : Store) (hg : GoodStore fits s) (size : Size)
    (hn : doesExist s.exist size = none) (sol : Option Json) (hs : sol.isSome = true ↔ fits size) :
    doesExist (s.add size sol).exist size = some sol.isSome ∧
    ∀ o b, doesExist s.exist o = some b → doesExist (s.add size sol).exist o = some b := by
  have hnew : ∀ b, (size, b) ∉ s.exist := by
    intro b hb
    rw [doesExist_none] at hn
    cases b
    · exact hn.2 ⟨size, hb, Size.LE.refl _⟩
    · exact hn.1 ⟨size, hb, Size.LE.refl _⟩
  have ht : Truthful fits (s.add size sol).exist := by
    intro k b hk
    rcases (mem_set_iff hg.valid _ _ _ _).1 hk with ⟨rfl, rfl⟩ | ⟨-, h⟩
    · exact hs
    · exact hg.truthful k b h
  have hc := ht.consistent hu
  have hmem : ∀ k b, (k, b) ∈ s.exist → (k, b) ∈ (s.add size sol).exist := by
    intro k b hk
    refine (mem_set_iff hg.valid _ _ _ _).2 (Or.inr ⟨?_, hk⟩)
    rintro rfl
    exact hnew b hk
  have hin : (size, sol.isSome) ∈ (s.add size sol).exist := (mem_set_iff hg.valid _ _ _ _).2 (Or.inl ⟨rfl, rfl⟩)
  refine ⟨?_, ?_⟩
  · cases hb : sol.isSome with
    | true => rw [hb] at hin; exact (doesExist_eq hc size).1.2 ⟨size, hin, Size.LE.refl _⟩
    | false => rw [hb] at hin; exact (doesExist_eq hc size).2.2 ⟨size, hin, Size.LE.refl _⟩
  · intro o b ho
    cases b with
    | true =>
      obtain ⟨k, hk, hl⟩ := doesExist_true ho
      exact (doesExist_eq hc o).1.2 ⟨k, hmem _ _ hk, hl⟩
    | false =>
      obtain ⟨k, hk, hl⟩ := doesExist_false ho
      exact (doesExist_eq hc o).2.2 ⟨k, hmem _ _ hk, hl⟩

/-- Records used in the examples: two belts of length four fit into width six but not into width four. -/
def exampleExist : PyDict Size Bool := [((4, 4, 2), false), ((4, 6, 2), true), ((2, 3, 2), false)]

example : doesExist exampleExist (8, 7, 2) = some true ∧ doesExist exampleExist (4, 3, 2) = some false ∧
    doesExist exampleExist (4, 5, 2) = none ∧ doesExist exampleExist (6, 4, 2) = none := by decide

/-! ### C49 -/

/-- C49: for records that do not contradict each other, `clean` changes no answer, keeps every record of a solution and every
solution, and leaves no failure that another one implies. -/
theorem c49_clean (s : Store) (hv : s.exist.Valid) (hc : Consistent s.exist) :
    (∀ size, doesExist s.clean.exist size = doesExist s.exist size) ∧ s.clean.solutions = s.solutions ∧
    (∀ size, (size, true) ∈ s.exist ↔ (size, true) ∈ s.clean.exist) ∧
    (∀ a b, (a, false) ∈ s.clean.exist → (b, false) ∈ s.clean.exist → Size.LE a b → a = b) := by
  obtain ⟨c1, c2, c3, c4, c5⟩ := clean_spec hv hc
  have hcc : Consistent (cleanExist s.exist) := fun a b ha hb => hc a b (c2 _ ha) (c2 _ hb)
  refine ⟨fun size => ?_, rfl, fun size => ⟨c3 size, fun h => c2 _ h⟩, c5⟩
  show doesExist (cleanExist s.exist) size = _
  cases h : doesExist s.exist size with
  | none =>
    rw [doesExist_none] at h ⊢
    exact ⟨fun ⟨o, ho, hl⟩ => h.1 ⟨o, c2 _ ho, hl⟩, fun ⟨o, ho, hl⟩ => h.2 ⟨o, c2 _ ho, hl⟩⟩
  | some b =>
    cases b with
    | true =>
      obtain ⟨o, ho, hl⟩ := doesExist_true h
      exact (doesExist_eq hcc size).1.2 ⟨o, c3 _ ho, hl⟩
    | false => exact (doesExist_eq hcc size).2.2 (c4 _ (doesExist_false h))

/-- Here `clean` does remove a record. -/
example : exampleExist.Valid ∧ Consistent exampleExist ∧ cleanExist exampleExist = [((4, 6, 2), true), ((4, 4, 2), false)] := by
  refine ⟨by unfold PyDict.Valid; decide, ?_, by decide⟩
  intro a b ha hb
  simp only [exampleExist, List.mem_cons, Prod.mk.injEq, Bool.true_eq_false, Bool.false_eq_true, and_false, and_true, false_or, or_false,
    List.not_mem_nil] at ha hb
  subst ha
  rcases hb with rfl | rfl <;> decide

/-! ### C50 -/

/-- C50: reading what was written restores both dictionaries of a store, including their order. -/
theorem c50_store (s t : Store) (h1 : s.exist.Valid) (h2 : s.solutions.Valid) :
    t.fromJson s.toJson = .ok ⟨t.network, t.name, s.exist, s.solutions⟩ := fromJson_toJson s t h1 h2

/-- C50, of a store of which the file has only a part: what is missing is read as empty. -/
theorem c50_missing (s t : Store) (h1 : s.exist.Valid) (h2 : s.solutions.Valid) :
    t.fromJson (.obj []) = .ok ⟨t.network, t.name, [], []⟩ ∧
    t.fromJson (.obj [("exist".toList, .obj (s.exist.map fun e => (keyText e.1, Json.bool e.2)))]) = .ok ⟨t.network, t.name, s.exist, []⟩ ∧
    t.fromJson (.obj [("solutions".toList, .obj (s.solutions.map fun e => (keyText e.1, e.2)))]) =
      .ok ⟨t.network, t.name, [], s.solutions⟩ := by
  refine ⟨rfl, ?_, ?_⟩
  · unfold Store.fromJson
    rw [show itemsOf (.obj [("exist".toList, .obj (s.exist.map fun e => (keyText e.1, Json.bool e.2)))]) existKey =
      .ok (s.exist.map fun e => (keyText e.1, Json.bool e.2)) from rfl]
    simp only
    rw [readExist_map _ _ (by simpa [PyDict.Valid] using h1)]
    rfl
  · unfold Store.fromJson
    rw [show itemsOf (.obj [("solutions".toList, .obj (s.solutions.map fun e => (keyText e.1, e.2)))]) existKey = .ok [] from rfl,
      show itemsOf (.obj [("solutions".toList, .obj (s.solutions.map fun e => (keyText e.1, e.2)))]) solutionsKey =
        .ok (s.solutions.map fun e => (keyText e.1, e.2)) from rfl]
    simp only [readExist]
    rw [readSolutions_map _ _ (by simpa [PyDict.Valid] using h2)]
    rfl

/-- C50, of the file: a program that starts after a complete save has exactly the results of the program that saved. -/
theorem c50_file (stores : List Store) (h : Saveable stores) :
    startUp (some (databaseOf stores).dumps) (stores.map Store.blank) = .ok stores := startUp_database h

/-- C50: where there is no file yet, or nothing in it, every network starts as it is. -/
theorem c50_first (stores : List Store) : startUp none stores = .ok stores ∧ startUp (some "{}".toList) stores = .ok stores := by
  refine ⟨rfl, ?_⟩
  have h : Json.loads "{}".toList = .ok (.obj []) := by rfl
  simp only [startUp, h]
  induction stores with
  | nil => rfl
  | cons s r ih => simp [readStores, PyDict.get, ih, Except.map]

theorem fromJson_keeps {s t : Store} {data : Json} (h : s.fromJson data = .ok t) : t.network = s.network ∧ t.name = s.name := by
  unfold Store.fromJson at h
  repeat' split at h
  all_goals first | cases h; done | (cases h; exact ⟨rfl, rfl⟩)

/-- C50, of any file that is read: every network known to the program has a store afterwards, in the same order; it has what the file
records for its name, and is as before when the file records nothing. -/
theorem c50_networks (text : List Char) (o : List (List Char × Json)) (hl : Json.loads text = .ok (.obj o)) (stores out : List Store)
    (h : startUp (some text) stores = .ok out) :
    List.Forall₂ (fun s t => t.network = s.network ∧ t.name = s.name ∧
      (PyDict.get o s.name = none ∨ PyDict.get o s.name = some .null → t = s) ∧
      ∀ item, PyDict.get o s.name = some item → item ≠ .null → s.fromJson item = .ok t) stores out := by
  unfold startUp at h
  simp only [hl] at h
  clear hl
  induction stores generalizing out with
  | nil => rw [readStores] at h; cases h; exact .nil
  | cons s rest ih =>
    rw [readStores] at h
    simp only at h
    cases hr : readStores (.obj o) rest with
    | error e =>
      rw [hr] at h
      split at h
      · cases h
      · cases h
      · split at h <;> cases h
    | ok more =>
      rw [hr] at h
      have hm := ih more hr
      split at h
      · rename_i hg
        cases h
        refine .cons ⟨rfl, rfl, fun _ => rfl, fun item hi => ?_⟩ hm
        rw [hg] at hi; cases hi
      · rename_i hg
        cases h
        refine .cons ⟨rfl, rfl, fun _ => rfl, fun item hi hn => ?_⟩ hm
        rw [hg] at hi; exact absurd (Option.some.inj hi).symm hn
      · rename_i item hnull hg
        split at h
        · cases h
        · rename_i t ht
          cases h
          refine .cons ⟨(fromJson_keeps ht).1, (fromJson_keeps ht).2, fun hn => ?_, fun item' hi _ => ?_⟩ hm
          · rw [hg] at hn
            rcases hn with hn | hn
            · cases hn
            · exact absurd hn (by simpa using hnull)
          · rw [hg] at hi; cases hi; exact ht

/-- The network of the examples: a single splitter. -/
def exampleSplitter : Network := [((some 0, some 0), (some 1, some 1))]

/-- A store used in the examples. -/
def exampleStore : Store :=
  ⟨exampleSplitter, ['2', 'x', '2'], exampleExist, [((4, 6, 2), .arr [.arr [.obj [(['t', 'y', 'p', 'e'], .null)]]])]⟩

example : Saveable [exampleStore] := by
  refine ⟨by decide, ?_, ?_⟩
  · intro s hs
    simp only [List.mem_singleton] at hs
    subst hs
    refine ⟨?_, ?_⟩ <;> unfold PyDict.Valid <;> decide
  · intro s hs e he
    simp only [List.mem_singleton] at hs
    subst hs
    simp only [exampleStore, List.mem_singleton] at he
    subst he
    simp [Json.Ok, Json.OkElems, Json.OkPairs, Json.OkPair]

/-- A file without results for one of two networks. -/
example : startUp (some (databaseOf [exampleStore]).dumps) [⟨exampleSplitter, ['3', 'x', '3'], [], []⟩, exampleStore.blank] =
    .ok [⟨exampleSplitter, ['3', 'x', '3'], [], []⟩, exampleStore] := by rfl

/-! ### C51 -/

/-- C51: `next_size` returns: there is a number of turns after which its loop has ended, and it has then the same result for every
larger number of turns. -/
theorem c51_total (obj : Objective) (s : Store) (ul a p b q : Int) (h : Ends s.network a p b q) :
    ∃ r N, nextSize obj s ul = .ok r ∧ ∀ fuel, N ≤ fuel → nextSizeFuel obj s ul fuel = .ok (some r) :=
  nextSize_total obj s ul a p b q ((gio_iff _ _ _ _ _).2 h)

/-- C51: a returned size is not decided by what is recorded, has the underground length asked for, and is of the family searched. -/
theorem c51_undecided (obj : Objective) (s : Store) (ul a p b q : Int) (h : Ends s.network a p b q) (size : Size)
    (hn : nextSize obj s ul = .ok (some size)) :
    doesExist s.exist size = none ∧ size.1 = ul ∧ 3 ≤ size.2.1 ∧ max p q ≤ size.2.2 ∧
    (obj = .length → size.2.2 = max p q) ∧ (obj = .area → size.2.2 ≤ 2 * max p q) ∧
    2 * (s.network.length : Int) ≤ (size.2.1 - 2) * size.2.2 := by
  have hg := (gio_iff _ _ _ _ _).2 h
  cases obj with
  | length =>
    obtain ⟨w, h1, -, h3⟩ := nextSize_length hg hn
    rcases h3 with ⟨h3, -⟩ | ⟨h3, h4, h5⟩
    · simp at h3
    · simp only [Option.some.injEq] at h3
      subst h3
      exact ⟨h4, rfl, h1, le_refl _, fun _ => rfl, nofun, h5⟩
  | area =>
    obtain ⟨ar, h1, -, w, h', h3, h4, h5, h6, h7⟩ := nextSize_area hg hn
    rcases h7 with ⟨h7, -⟩ | ⟨h7, h8⟩
    · simp at h7
    · simp only [Option.some.injEq] at h7
      subst h7
      have hp := height_pos hg
      have hw : 1 ≤ w := by
        rcases Nat.eq_zero_or_pos w with rfl | hw
        · simp only [Nat.zero_mul] at h3; omega
        · exact hw
      refine ⟨h8, rfl, by simp only; omega, h4, nofun, fun _ => h5, ?_⟩
      have : ((ar : Nat) : Int) = (w : Int) * h' := by rw [← h3]; push_cast; rfl
      simp only
      rw [show (w : Int) + 2 - 2 = w by omega, ← this]
      exact h6

/-- C51: when the search of the length is declared finished, the solution reported is the best possible: no size that fits with at most
this underground length is lower, or as high and shorter. -/
theorem c51_length_optimal (fits : Size → Prop) (s : Store) (ul a p b q : Int) (h : Ends s.network a p b q)
    (hg : GoodStore fits s) (hp : Plausible s.network (max p q) fits) (hn : nextSize .length s ul = .ok none) :
    ∃ size v, s.best .length ul = some v ∧ (size, v) ∈ s.solutions ∧ fits size ∧ size.1 ≤ ul ∧
      ∀ o, fits o → o.1 ≤ ul → size.2.2 < o.2.2 ∨ size.2.2 = o.2.2 ∧ size.2.1 ≤ o.2.1 := by
  have hgio := (gio_iff _ _ _ _ _).2 h
  obtain ⟨w, h1, h2, h3⟩ := nextSize_length hgio hn
  rcases h3 with ⟨-, h3⟩ | ⟨h3, -⟩
  swap
  · simp at h3
  obtain ⟨o, ho, hl⟩ := doesExist_true h3
  obtain ⟨v0, hv0⟩ := hg.stored o ho
  obtain ⟨size, v, e1, e2, e3, e4⟩ := best_spec .length s ul o v0 hv0 hl.1
  have hfs : fits size := (hg.truthful _ _ (hg.solved _ _ e2)).1 rfl
  refine ⟨size, v, e1, e2, hfs, e3, fun x hx hxu => ?_⟩
  have h4 := e4 o v0 hv0 hl.1
  rw [Bool.eq_false_iff, Ne, pairLt_iff] at h4
  simp only [loss] at h4
  have h5 := hp.high _ hfs
  have h6 := hp.high _ hx
  have h7 := hp.high _ ((hg.truthful _ _ ho).1 rfl)
  have h8 := hl.2.2
  have h9 := hl.2.1
  simp only at h8 h9
  by_cases hlt : size.2.2 < x.2.2
  · exact Or.inl hlt
  right
  have hsh : size.2.2 = max p q := by omega
  refine ⟨by omega, ?_⟩
  by_contra hc
  have hxw : x.2.1 < w := by omega
  have hx3 := hp.wide _ hx
  have hxf : fits (ul, x.2.1, max p q) := hp.up x _ ⟨hxu, le_refl _, by simp only; omega⟩ hx
  rcases h2 x.2.1 hx3 hxw with h10 | ⟨-, h10⟩
  · exact hg.truthful.no hp.up (doesExist_false h10) hxf
  · have := hp.room _ hxf
    simp only at this
    omega

/-- C51: when the search of the area is declared finished, no size of the family searched, that fits with at most this underground
length, has a smaller area than the solution reported. -/
theorem c51_area_optimal (fits : Size → Prop) (s : Store) (ul a p b q : Int) (h : Ends s.network a p b q)
    (hg : GoodStore fits s) (hp : Plausible s.network (max p q) fits) (hn : nextSize .area s ul = .ok none) :
    ∃ size v, s.best .area ul = some v ∧ (size, v) ∈ s.solutions ∧ fits size ∧ size.1 ≤ ul ∧
      ∀ o, fits o → o.1 ≤ ul → o.2.2 ≤ 2 * max p q → (size.2.1 - 2) * size.2.2 ≤ (o.2.1 - 2) * o.2.2 := by
  have hgio := (gio_iff _ _ _ _ _).2 h
  have hpos := height_pos hgio
  obtain ⟨ar, h1, h2, w, h', h3, h4, h5, -, h6⟩ := nextSize_area hgio hn
  rcases h6 with ⟨-, h6⟩ | ⟨h6, -⟩
  swap
  · simp at h6
  obtain ⟨o, ho, hl⟩ := doesExist_true h6
  obtain ⟨v0, hv0⟩ := hg.stored o ho
  obtain ⟨size, v, e1, e2, e3, e4⟩ := best_spec .area s ul o v0 hv0 hl.1
  have hfs : fits size := (hg.truthful _ _ (hg.solved _ _ e2)).1 rfl
  refine ⟨size, v, e1, e2, hfs, e3, fun x hx hxu hxh => ?_⟩
  have h7 := e4 o v0 hv0 hl.1
  rw [Bool.eq_false_iff, Ne, pairLt_iff] at h7
  simp only [loss] at h7
  have hfo := (hg.truthful _ _ ho).1 rfl
  have ho3 := hp.wide _ hfo
  have hoh := hp.high _ hfo
  have hlw := hl.2.1
  have hlh := hl.2.2
  simp only at hlw hlh
  have hoa : (o.2.1 - 2) * o.2.2 ≤ ar := by
    rw [← h3]
    push_cast
    exact mul_le_mul (by omega) (by omega) (by omega) (by omega)
  have hx3 := hp.wide _ hx
  have hxl := hp.high _ hx
  by_contra hc
  have hxa : (x.2.1 - 2) * x.2.2 < ar := by omega
  obtain ⟨xw, hxw⟩ : ∃ n : Nat, (n : Int) = x.2.1 - 2 := ⟨(x.2.1 - 2).toNat, by omega⟩
  obtain ⟨xh, hxh'⟩ : ∃ n : Nat, (n : Int) = x.2.2 := ⟨x.2.2.toNat, by omega⟩
  have hprod : ((xw * xh : Nat) : Int) = (x.2.1 - 2) * x.2.2 := by push_cast; rw [hxw, hxh']
  have hge : max p q ≤ ((xw * xh : Nat) : Int) := by
    rw [hprod]
    nlinarith
  have := h2 xw xh hge (by omega) (by omega) (by omega) (by rw [hprod]; exact hp.room _ hx)
  refine hg.truthful.no hp.up (doesExist_false this) ?_
  exact hp.up x _ ⟨hxu, by simp only; omega, by simp only; omega⟩ hx

/-- C51: if a balancer of the family searched exists and the solver always answers truthfully, the task of a network ends, after
finitely many solver runs, with a store that is still good and a finished search. -/
theorem c51_finishes (fits : Size → Prop) (obj : Objective) (ul : Int) (solve : Network → Size → Option Json) (s : Store)
    (a p b q : Int) (h : Ends s.network a p b q) (hg : GoodStore fits s) (hp : Plausible s.network (max p q) fits)
    (hsolve : ∀ size, (solve s.network size).isSome = true ↔ fits size)
    (W H : Int) (hfit : fits (ul, W, H)) (hH : H ≤ (match obj with | .length => 1 | .area => 2) * max p q) :
    ∃ k s', ∀ k', k ≤ k' → (Task.turn obj ul solve)^[k'] (Task.go obj ul s) = ⟨s', .done⟩ ∧ GoodStore fits s' ∧
      s'.network = s.network ∧ s'.name = s.name ∧ nextSize obj s' ul = .ok none := by
  have hgio := (gio_iff _ _ _ _ _).2 h
  have hpos := height_pos hgio
  have hW := hp.wide _ hfit
  have hHl := hp.high _ hfit
  simp only at hW hHl
  have hroom := hp.room _ hfit
  simp only at hroom
  have main : ∃ fam : List Size, ∀ s' : Store, s'.network = s.network → GoodStore fits s' → ∃ r, nextSize obj s' ul = .ok r ∧
      ∀ size, r = some size → doesExist s'.exist size = none ∧ size ∈ fam := by
    cases obj with
    | length =>
      simp only at hH
      have hHe : H = max p q := by omega
      subst hHe
      refine ⟨(List.range (W.toNat + 1)).map fun w : Nat => (ul, (w : Int), max p q), fun s' hs' hg' => ?_⟩
      have hgio' : getInputOutputColours s'.network = .ok ((a, p), (b, q)) := by rw [hs']; exact hgio
      obtain ⟨r, N, hr, -⟩ := nextSize_total .length s' ul a p b q hgio'
      refine ⟨r, hr, fun size hsz => ?_⟩
      obtain ⟨w, h1, h2, h3⟩ := nextSize_length hgio' hr
      rcases h3 with ⟨h3, -⟩ | ⟨h3, h4, -⟩
      · rw [h3] at hsz; simp at hsz
      rw [h3] at hsz
      simp only [Option.some.injEq] at hsz
      subst hsz
      refine ⟨h4, List.mem_map.2 ⟨w.toNat, ?_, ?_⟩⟩
      · rw [List.mem_range]
        by_contra hc
        rcases h2 W hW (by omega) with h5 | ⟨-, h5⟩
        · exact hg'.truthful.no hp.up (doesExist_false h5) hfit
        · rw [hs'] at h5; omega
      · rw [show ((w.toNat : Nat) : Int) = w by omega]
    | area =>
      simp only at hH
      obtain ⟨fw, hfw⟩ : ∃ n : Nat, (n : Int) = W - 2 := ⟨(W - 2).toNat, by omega⟩
      obtain ⟨fh, hfh⟩ : ∃ n : Nat, (n : Int) = H := ⟨H.toNat, by omega⟩
      have hprod : ((fw * fh : Nat) : Int) = (W - 2) * H := by push_cast; rw [hfw, hfh]
      refine ⟨(List.range (fw * fh + 1)).flatMap fun w : Nat => (List.range ((2 * max p q).toNat + 1)).map fun h' : Nat =>
        (ul, (w : Int) + 2, (h' : Int)), fun s' hs' hg' => ?_⟩
      have hgio' : getInputOutputColours s'.network = .ok ((a, p), (b, q)) := by rw [hs']; exact hgio
      obtain ⟨r, N, hr, -⟩ := nextSize_total .area s' ul a p b q hgio'
      refine ⟨r, hr, fun size hsz => ?_⟩
      obtain ⟨ar, h1, h2, w, h', h3, h4, h5, -, h6⟩ := nextSize_area hgio' hr
      rcases h6 with ⟨h6, -⟩ | ⟨h6, h7⟩
      · rw [h6] at hsz; simp at hsz
      rw [h6] at hsz
      simp only [Option.some.injEq] at hsz
      subst hsz
      refine ⟨h7, List.mem_flatMap.2 ⟨w, ?_, List.mem_map.2 ⟨h', ?_, rfl⟩⟩⟩
      · rw [List.mem_range]
        by_contra hc
        have har : fw * fh < ar := by
          have : w ≤ w * h' := Nat.le_mul_of_pos_right _ (by omega)
          omega
        have := h2 fw fh (by rw [hprod]; nlinarith) har (by omega) (by omega) (by rw [hprod, hs']; exact hroom)
        refine hg'.truthful.no hp.up (doesExist_false this) ?_
        rw [show (fw : Int) + 2 = W by omega, hfh]
        exact hfit
      · rw [List.mem_range]; omega
  obtain ⟨fam, hask⟩ := main
  obtain ⟨s', e1, e2, e3, e4, e5⟩ := task_ends hp.up obj ul solve fam s.network hsolve hask _ s rfl hg (le_refl _)
  refine ⟨undecided s.exist fam, s', fun k' hk => ⟨?_, e4, e2, e3, e5⟩⟩
  obtain ⟨j, rfl⟩ := Nat.exists_eq_add_of_le hk
  rw [Nat.add_comm, Function.iterate_add_apply, e1, iterate_not_waiting (fun size => by simp)]

/-- The relation of the examples: what fits a single splitter between two columns. -/
def exampleFits (size : Size) : Prop := 5 ≤ size.2.1 ∧ 2 ≤ size.2.2 ∧ 0 ≤ size.1

theorem exampleFits_plausible : Plausible exampleSplitter 2 exampleFits := by
  refine ⟨?_, ?_, ?_, ?_⟩
  · intro x y hl h
    exact ⟨h.1.trans hl.2.1, h.2.1.trans hl.2.2, h.2.2.trans hl.1⟩
  · intro x h; exact h.2.1
  · intro x h; have := h.1; omega
  · intro x h
    have h1 := h.1
    have h2 := h.2.1
    simp only [exampleSplitter, List.length_singleton]
    push_cast
    nlinarith

/-- The store after two solver runs on the single splitter. -/
def finishedStore : Store := ⟨exampleSplitter, ['2', 'x', '2'], [((4, 4, 2), false), ((4, 5, 2), true)], [((4, 5, 2), .arr [])]⟩

theorem exampleSplitter_ends : Ends exampleSplitter 0 2 1 2 := (gio_iff _ _ _ _ _).1 (by decide)

theorem finishedStore_good : GoodStore exampleFits finishedStore := by
  refine ⟨by unfold PyDict.Valid; decide, by unfold PyDict.Valid; decide, ?_, ?_, ?_⟩
  · intro k b h
    simp only [finishedStore, List.mem_cons, Prod.mk.injEq, List.not_mem_nil, or_false] at h
    rcases h with ⟨rfl, rfl⟩ | ⟨rfl, rfl⟩ <;> simp [exampleFits]
  · intro k h
    simp only [finishedStore, List.mem_cons, Prod.mk.injEq, List.not_mem_nil, or_false, Bool.true_eq_false, and_false, and_true,
      false_or] at h
    subst h
    exact ⟨_, by simp [finishedStore]; rfl⟩
  · intro k v h
    simp only [finishedStore, List.mem_singleton, Prod.mk.injEq] at h
    rw [h.1]
    simp [finishedStore]

/-- C51, on a single splitter: with nothing recorded the searches start at width three, the first with room for the splitter, and the
search of the length ends with the runs for widths four and five. -/
example : (nextSize .length ⟨exampleSplitter, [], [], []⟩ 4).toOption = some (some (4, 3, 2)) ∧
    (nextSize .length finishedStore 4).toOption = some none ∧
    (nextSize .area ⟨exampleSplitter, [], [], []⟩ 4).toOption = some (some (4, 3, 2)) ∧
    (nextSize .area finishedStore 4).toOption = some (some (4, 3, 3)) := by decide +kernel

/-! ### C52 -/

/-- C52: `factors` lists every pair with the product `n`, and none twice. -/
theorem c52_factors (n : Nat) (hn : 0 < n) : (∀ a b, (a, b) ∈ factors n ↔ a * b = n) ∧ (factors n).Nodup :=
  ⟨mem_factors n hn, factors_nodup n⟩

example : factors 12 = [(3, 4), (4, 3), (2, 6), (6, 2), (1, 12), (12, 1)] ∧ factors 9 = [(3, 3), (1, 9), (9, 1)] := by decide +kernel

/-! ### C53 -/

/-- C53: whatever the order in which the solver runs of any number of tasks end, each task is where its own results, in their order,
would have brought it alone. -/
theorem c53_tasks_independent (obj : Objective) (ul : Int) (y : Sys) (evs : List (Nat × Option Json)) (j : Nat) :
    (y.run obj ul evs).tasks[j]? =
      y.tasks[j]?.map fun t => ((evs.filter fun e => e.1 = j).map Prod.snd).foldl (fun t r => t.resume obj ul r) t :=
  run_tasks obj ul evs y j

/-- C53: two histories in which every task sees the same results end in the same stores. -/
theorem c53_schedules_agree (obj : Objective) (ul : Int) (y : Sys) (evs evs' : List (Nat × Option Json))
    (h : ∀ j, evs.filter (fun e => e.1 = j) = evs'.filter (fun e => e.1 = j)) :
    (y.run obj ul evs).tasks = (y.run obj ul evs').tasks := by
  apply List.ext_getElem?
  intro j
  rw [run_tasks, run_tasks, h j]

/-- C53: with a solver whose answer depends on the network and the size only, all schedules under which every task ends have the same
outcome. -/
theorem c53_deterministic (obj : Objective) (ul : Int) (solve : Network → Size → Option Json) (y : Sys) (sched sched' : List Nat)
    (h : (sched.foldl (Sys.turn obj ul solve) y).Settled) (h' : (sched'.foldl (Sys.turn obj ul solve) y).Settled) :
    (sched.foldl (Sys.turn obj ul solve) y).tasks = (sched'.foldl (Sys.turn obj ul solve) y).tasks := by
  apply List.ext_getElem?
  intro j
  have e1 := sys_turns obj ul solve sched y j
  have e2 := sys_turns obj ul solve sched' y j
  rw [e1, e2]
  cases ht : y.tasks[j]? with
  | none => rfl
  | some t =>
    rw [ht] at e1 e2
    simp only [Option.map_some] at e1 e2 ⊢
    rw [iterate_settled (h _ (List.mem_of_getElem? e1)) (h' _ (List.mem_of_getElem? e2))]

/-- C53: every save writes all stores as they are at that time: after any history the file is the text of the current stores, unless no
solver run has ended. -/
theorem c53_file (obj : Objective) (ul : Int) (y : Sys) (evs : List (Nat × Option Json)) :
    y.run obj ul evs = y ∨ (y.run obj ul evs).file = some (databaseOf ((y.run obj ul evs).tasks.map Task.store)).dumps :=
  run_file obj ul evs y

/-- C53, with two tasks whose solver runs end alternately or one after the other. -/
example : let y := Sys.start .length 4 [⟨exampleSplitter, ['a'], [], []⟩, ⟨exampleSplitter, ['b'], [], []⟩] none
    ((y.run .length 4 [(0, none), (1, none), (1, some .null), (0, some (.int 3))]).tasks.map fun t => t.store.exist) =
      [[((4, 4, 2), true), ((4, 3, 2), false)], [((4, 4, 2), true), ((4, 3, 2), false)]] ∧
    ((y.run .length 4 [(1, none), (1, some .null), (0, none), (0, some (.int 3))]).tasks.map fun t => t.store.solutions) =
      [[((4, 4, 2), .int 3)], [((4, 4, 2), .null)]] := by
  intro y
  refine ⟨by rfl, by rfl⟩

/-! ### C54 -/

/-- C54 does not hold: `save_progress` empties the file before it writes. At every point of the writing but the very last one, the file
cannot be read, and the program that starts next ends with an error: neither the old nor the new results are left. -/
theorem c54_crash_refuted (old new : List Store) (hn : Saveable new) (l : List Store) (k : Nat)
    (hk : k < (databaseOf new).dumps.length) :
    some ((databaseOf new).dumps.take k) ∈ saveStates (some (databaseOf old).dumps) new ∧
    startUp (some ((databaseOf new).dumps.take k)) l = .error .jsonDecode := by
  refine ⟨?_, startUp_prefix hn k hk l⟩
  unfold saveStates
  refine List.mem_cons_of_mem _ (List.mem_map.2 ⟨k, List.mem_range.2 (by omega), rfl⟩)

/-- There always is such a point: right after opening the file. -/
theorem c54_empty_refuted (old new : List Store) (l : List Store) :
    some [] ∈ saveStates (some (databaseOf old).dumps) new ∧ startUp (some []) l = .error .jsonDecode := by
  refine ⟨?_, rfl⟩
  unfold saveStates
  exact List.mem_cons_of_mem _ (List.mem_map.2 ⟨0, List.mem_range.2 (by omega), rfl⟩)

/-- C54, what holds: a crash before the file is opened leaves the old results, and one after the last character the new ones. Missing:
all the points in between, for which the property is false. -/
theorem c54_crash_partial (old new : List Store) (ho : Saveable old) (hn : Saveable new) (st : Option (List Char))
    (hs : st ∈ saveStates (some (databaseOf old).dumps) new) :
    startUp st (old.map Store.blank) = .ok old ∨ startUp st (new.map Store.blank) = .ok new ∨
    ∃ k < (databaseOf new).dumps.length, st = some ((databaseOf new).dumps.take k) := by
  unfold saveStates at hs
  rcases List.mem_cons.1 hs with rfl | hs
  · exact Or.inl (startUp_database ho)
  · obtain ⟨k, hk, rfl⟩ := List.mem_map.1 hs
    rw [List.mem_range] at hk
    rcases Nat.lt_or_ge k (databaseOf new).dumps.length with hlt | hge
    · exact Or.inr (Or.inr ⟨k, hlt, rfl⟩)
    · right; left
      rw [List.take_of_length_le hge]
      exact startUp_database hn

/-! ### C65 -/

/-- C65 does not hold: after any solver run the file has members for the networks of the directory only, in the order of the
directory, whatever was in it before. -/
theorem c65_other_networks_refuted (obj : Objective) (ul : Int) (y : Sys) (evs : List (Nat × Option Json))
    (h : y.run obj ul evs ≠ y) (hs : Saveable ((y.run obj ul evs).tasks.map Task.store)) :
    ∃ text members, (y.run obj ul evs).file = some text ∧ Json.loads text = .ok (.obj members) ∧
      members.map Prod.fst = (y.run obj ul evs).tasks.map fun t => t.store.name := by
  rcases run_file obj ul evs y with h' | h'
  · exact absurd h' h
  · refine ⟨_, ((y.run obj ul evs).tasks.map Task.store).map fun s => (s.name, s.toJson), h', ?_, ?_⟩
    · rw [Json.loads_dumps _ (ok_database hs), databaseOf_eq _ hs.names]
    · rw [List.map_map, List.map_map]; rfl

/-- C65, a case: the results of the network `b`, which is not in the directory, are gone after the first solver run for `a`. -/
theorem c65_lost_refuted : ∃ (old : List Store) (y : Sys) (ev : Nat × Option Json) (members : List (List Char × Json)), Saveable old ∧
    y = Sys.start .length 4 [⟨exampleSplitter, ['a'], [], []⟩] (some (databaseOf old).dumps) ∧
    (∃ s ∈ old, s.name = ['b'] ∧ s.exist ≠ []) ∧
    ∃ text, (y.run .length 4 [ev]).file = some text ∧ Json.loads text = .ok (.obj members) ∧ PyDict.get members ['b'] = none := by
  refine ⟨[⟨exampleSplitter, ['b'], [((4, 4, 2), false)], []⟩], _, (0, none),
    [(['a'], Store.toJson ⟨exampleSplitter, ['a'], [((4, 3, 2), false)], []⟩)], ?_, rfl,
    ⟨_, List.mem_singleton.2 rfl, rfl, by simp⟩,
    (databaseOf [⟨exampleSplitter, ['a'], [((4, 3, 2), false)], []⟩]).dumps, rfl, ?_, rfl⟩
  rotate_left
  · rw [Json.loads_dumps]
    · exact congrArg Except.ok (databaseOf_eq [⟨exampleSplitter, ['a'], [((4, 3, 2), false)], []⟩] (by decide))
    · apply ok_database
      refine ⟨by decide, ?_, ?_⟩
      · intro s hs
        simp only [List.mem_singleton] at hs
        subst hs
        refine ⟨?_, ?_⟩ <;> unfold PyDict.Valid <;> decide
      · intro s hs e he
        simp only [List.mem_singleton] at hs
        subst hs
        simp at he
  · refine ⟨by decide, ?_, ?_⟩
    · intro s hs
      simp only [List.mem_singleton] at hs
      subst hs
      refine ⟨?_, ?_⟩ <;> unfold PyDict.Valid <;> decide
    · intro s hs e he
      simp only [List.mem_singleton] at hs
      subst hs
      simp at he

/-- C65, what holds: the results of every network of the directory survive, also those that no solver run was made for. Missing: the
networks that are not in the directory. -/
theorem c65_directory_partial (obj : Objective) (ul : Int) (y : Sys) (evs : List (Nat × Option Json)) (h : y.run obj ul evs ≠ y)
    (hs : Saveable ((y.run obj ul evs).tasks.map Task.store)) :
    startUp (y.run obj ul evs).file (((y.run obj ul evs).tasks.map Task.store).map Store.blank) =
      .ok ((y.run obj ul evs).tasks.map Task.store) := by
  rcases run_file obj ul evs y with h' | h'
  · exact absurd h' h
  · rw [h']; exact startUp_database hs

end FSat
