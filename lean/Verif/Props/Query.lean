import Verif.Lemmas.Query
import Verif.Props.Blueprint
import Verif.Props.Crosstable
import Verif.Props.SolveBalancer
/-!
# C112: what `calculate_optimal query` prints
-/

namespace FSat

/-! ### The loop -/

/-- A list of stores in the order of `sorted` has its names in numeric order. -/
theorem numeric_of_sorted {stores : List Store}
    (h : stores.Pairwise fun a b => keyLe (orderingKey a.name) (orderingKey b.name) = true) : InNumericOrder (stores.map Store.name) := by
  intro i j a b a' b' sep sep' rest rest' hi hj hs hs' hd hd' hn hn' hlt
  rw [List.getElem?_map] at hi hj
  obtain ⟨s, hi, es⟩ := Option.map_eq_some_iff.1 hi
  obtain ⟨t, hj, et⟩ := Option.map_eq_some_iff.1 hj
  have hk := c69_key a b sep hs rest hd hn
  have hk' := c69_key a' b' sep' hs' rest' hd' hn'
  rw [← es] at hk
  rw [← et] at hk'
  have hf := (c69_numeric a b a' b' rest rest').1 hlt
  rw [← hk, ← hk'] at hf
  obtain ⟨li, ei⟩ := List.getElem?_eq_some_iff.1 hi
  obtain ⟨lj, ej⟩ := List.getElem?_eq_some_iff.1 hj
  rcases Nat.lt_trichotomy i j with h' | h' | h'
  · exact h'
  · subst h'
    rw [ei] at ej
    subst ej
    rw [hk] at hk'
    simp only [Prod.mk.injEq, Option.some.injEq] at hk'
    omega
  · have := List.pairwise_iff_getElem.1 h j i lj li h'
    rw [ei, ej, hf] at this
    cases this

/-- The stores that a line is printed for, when nothing fails. -/
def listed (obj : Objective) (ul : Int) (imperfect : Bool) (s : Store) : Bool :=
  (imperfect || (match nextSize obj s ul with | .ok none => true | _ => false)) && (s.best obj ul).isSome

/-- The line that is printed for a store. -/
def lineOf (obj : Objective) (ul : Int) (s : Store) : List Char := ((s.best obj ul).getD .null).dumps

section
variable {obj : Objective} {ul : Int} {imperfect : Bool} {s : Store}

/-- The best recorded solution is a right one. -/
theorem WeakStore.best_right (h : WeakStore s) {v : Json} (hb : s.best obj ul = some v) :
    ∃ size, (size, v) ∈ s.solutions ∧ size.1 ≤ ul ∧ RightAnswer s.network size (some v) ∧
      ∀ o w, (o, w) ∈ s.solutions → o.1 ≤ ul → pairLt (loss obj o) (loss obj size) = false := by
  unfold Store.best at hb
  obtain ⟨⟨size, w⟩, hm, rfl⟩ := Option.map_eq_some_iff.1 hb
  obtain ⟨h1, h2⟩ := (minItem_spec (loss obj) (s.solutions.filter fun e => e.1.1 ≤ ul)).2 _ hm
  obtain ⟨h1, h3⟩ := List.mem_filter.1 h1
  exact ⟨size, h1, by simpa using h3, h.right size w h1, fun o w ho hu => h2 (o, w) (List.mem_filter.2 ⟨ho, by simpa using hu⟩)⟩

theorem WeakStore.best_ne_null (h : WeakStore s) {v : Json} (hb : s.best obj ul = some v) : v ≠ .null := by
  obtain ⟨size, -, -, hr, -⟩ := h.best_right hb
  cases hr with
  | yes T _ hd => exact hd.ne_null

theorem passedOver_ok (hE : ∃ a p b q, Ends s.network a p b q) :
    passedOver obj ul imperfect s = .ok (!(imperfect || (match nextSize obj s ul with | .ok none => true | _ => false))) := by
  obtain ⟨a, p, b, q, hE⟩ := hE
  obtain ⟨r, N, hr, -⟩ := c51_total obj s ul a p b q hE
  unfold passedOver
  cases imperfect
  · rw [hr]
    cases r <;> rfl
  · rfl

theorem queryStore_ok (hE : ∃ a p b q, Ends s.network a p b q) (h : WeakStore s) :
    queryStore none obj ul imperfect s = .ok (if listed obj ul imperfect s then some (lineOf obj ul s) else none) := by
  unfold queryStore listed
  rw [passedOver_ok hE]
  generalize (imperfect || (match nextSize obj s ul with | .ok none => true | _ => false)) = c
  cases c
  · rfl
  · cases hb : s.best obj ul with
    | none => rfl
    | some v =>
      have hne := h.best_ne_null hb
      cases v with
      | null => exact absurd rfl hne
      | bool _ => simp only [lineOf, hb]; rfl
      | int _ => simp only [lineOf, hb]; rfl
      | half _ => simp only [lineOf, hb]; rfl
      | str _ => simp only [lineOf, hb]; rfl
      | arr _ => simp only [lineOf, hb]; rfl
      | obj _ => simp only [lineOf, hb]; rfl

theorem queryLoop_ok {stores : List Store} (hE : ∀ s ∈ stores, ∃ a p b q, Ends s.network a p b q) (h : ∀ s ∈ stores, WeakStore s) :
    queryLoop none obj ul imperfect stores =
      ⟨textOf ((stores.filter (listed obj ul imperfect)).map (lineOf obj ul)), .finished⟩ := by
  induction stores with
  | nil => rfl
  | cons s rest ih =>
    have hi := ih (fun s hs => hE s (List.mem_cons_of_mem _ hs)) fun s hs => h s (List.mem_cons_of_mem _ hs)
    rw [queryLoop, queryStore_ok (hE s (List.mem_cons_self ..)) (h s (List.mem_cons_self ..)), List.filter_cons]
    cases listed obj ul imperfect s
    · exact hi
    · simp only [if_true]
      rw [hi]
      simp [textOf]

end

/-- What is printed, from what is recorded. -/
theorem queryMain_ok {S : Store → Prop} {nets : List (List Char × Network)} (hd : Directory nets) {file : Option (List Char)} {stores : List Store}
    (hf : FileOf S nets file stores) {listing : List (List Char × Network)} (hl : listing.Perm nets) :
    ∃ sorted : List Store, sorted.Perm stores ∧
      (sorted.Pairwise fun a b => keyLe (orderingKey a.name) (orderingKey b.name) = true) ∧
      (∀ s ∈ sorted, (S s ∧ WeakStore s) ∧ ∃ a p b q, Ends s.network a p b q) ∧
      (∀ export? obj ul imperfect, queryMain export? obj ul imperfect file listing = queryLoop export? obj ul imperfect sorted) ∧
      ∀ s ∈ sorted, startUp file [freshStore (storeKey s)] = .ok [s] := by
  obtain ⟨l, h1, h2, h3⟩ := startUp_file hd hf hl
  obtain ⟨g1, g2⟩ := c69_sorted l
  refine ⟨sortStores l, g2.trans h1, g1, fun s hs => ?_, fun export? obj ul imperfect => ?_, fun s hs => ?_⟩
  · have hs := (g2.trans h1).mem_iff.1 hs
    exact ⟨hf.2.1 s hs, hd.ends (storeKey s) (hf.1.mem_iff.1 (List.mem_map.2 ⟨s, hs, rfl⟩))⟩
  · unfold queryMain
    rw [h3]
  · have hs := (g2.trans h1).mem_iff.1 hs
    obtain ⟨e1, e2, e3⟩ := hf
    have hsv := saveable_of_weak hd e1 fun s hs => (e2 s hs).2
    rcases e3 with rfl | ⟨rfl, e3⟩
    · unfold startUp
      simp only
      rw [Json.loads_dumps _ (ok_database hsv)]
      exact readStores_database hsv [s] fun t ht => by rw [List.mem_singleton.1 ht]; exact hs
    · rw [e3] at hs
      obtain ⟨t, -, rfl⟩ := List.mem_map.1 hs
      rfl

section
variable {obj : Objective} {ul : Int} {s : Store}

theorem noWorse_of_pairLt {size o : Size} (h : pairLt (loss obj o) (loss obj size) = false) : NoWorse obj size o := by
  rw [Bool.eq_false_iff, Ne, pairLt_iff] at h
  cases obj <;> simp only [loss, NoWorse] at h ⊢ <;> omega

/-- The line of a store with right solutions is a balancer, and none of those recorded is better. -/
theorem lineOf_weak (h : WeakStore s) (hb : (s.best obj ul).isSome = true) :
    ∃ size v, s.best obj ul = some v ∧ (size, v) ∈ s.solutions ∧ ReportsBalancer size.1 s.network (lineOf obj ul s) size ∧ size.1 ≤ ul ∧
      ∀ o w, (o, w) ∈ s.solutions → o.1 ≤ ul → NoWorse obj size o := by
  obtain ⟨v, hv⟩ := Option.isSome_iff_exists.1 hb
  obtain ⟨size, h1, h2, h3, h4⟩ := h.best_right hv
  refine ⟨size, v, hv, h1, ?_, h2, fun o w ho hu => noWorse_of_pairLt (h4 o w ho hu)⟩
  cases h3 with
  | yes T hT hdp =>
    refine ⟨T, hT, rfl, ?_⟩
    rw [lineOf, hv]
    exact hdp.printed

/-- The same, for one underground length. -/
theorem lineOf_reports (h : SoundStore ul s) (hE : ∃ a p b q, Ends s.network a p b q) (hb : (s.best obj ul).isSome = true) :
    ∃ size v, s.best obj ul = some v ∧ (size, v) ∈ s.solutions ∧ ReportsBalancer ul s.network (lineOf obj ul s) size ∧
      ∀ o w, (o, w) ∈ s.solutions → NoWorse obj size o := by
  obtain ⟨a, p, b, q, hE⟩ := hE
  have hi := h.1.inv hE
  have hlen : ∀ o w, (o, w) ∈ s.solutions → o.1 = ul := fun o w ho => (hi.family _ _ (hi.solved _ _ ho)).len
  obtain ⟨size, v, h1, h2, h3, -, h5⟩ := lineOf_weak (h.weak hE) hb
  exact ⟨size, v, h1, h2, hlen _ _ h2 ▸ h3, fun o w ho => h5 o w ho (hlen o w ho).le⟩

/-- When the search is over there is a line, and it is a best balancer. -/
theorem lineOf_best (h : SoundStore ul s) (hE : ∃ a p b q, Ends s.network a p b q) (hn : nextSize obj s ul = .ok none) :
    listed obj ul false s = true ∧ ∃ size, ReportsBalancer ul s.network (lineOf obj ul s) size ∧ BestSize obj ul s.network size := by
  have hE' := hE
  obtain ⟨a, p, b, q, hE⟩ := hE
  have hi := h.1.inv hE
  obtain ⟨size, v, h1, h2, h3, h4, h5⟩ := hi.best hE hn
  refine ⟨by simp [listed, hn, h1], ?_⟩
  obtain ⟨size', v', g1, g2, g3, g4⟩ := lineOf_reports (obj := obj) h hE' (by rw [h1]; rfl)
  refine ⟨size', g3, fun a' p' b' q' hE2 o T ho hT harea => ?_⟩
  have e1 := (gio_iff _ _ _ _ _).2 hE
  rw [(gio_iff _ _ _ _ _).2 hE2] at e1
  cases e1
  have e2 := noWorse_of_pairLt (h5 o ho ⟨T, hT⟩ harea)
  have e3 := g4 size v h2
  cases obj <;> simp only [NoWorse] at e2 e3 ⊢ <;> omega

end

section
variable {ul : Int} {nets : List (List Char × Network)} {file : Option (List Char)} {listing : List (List Char × Network)}

theorem forall₂_maps {α β γ : Type} {R : β → γ → Prop} {f : α → β} {g : α → γ} {l : List α} (h : ∀ x ∈ l, R (f x) (g x)) :
    List.Forall₂ R (l.map f) (l.map g) := by
  induction l with
  | nil => exact .nil
  | cons x l ih => exact .cons (h x (List.mem_cons_self ..)) (ih fun y hy => h y (List.mem_cons_of_mem _ hy))

theorem listed_false {obj : Objective} {s : Store} (h : listed obj ul false s = true) : nextSize obj s ul = .ok none := by
  simp only [listed, Bool.false_or, Bool.and_eq_true] at h
  have := h.1
  split at this
  · assumption
  · cases this

/-- C112: after any runs of `compute` with an underground length, with any objectives, ended at any time, with right answers of the solver,
`query` with that length does not fail.  It prints lines for some of the networks of the directory, in the order of their numbers of inputs
and outputs, and each line is a best balancer for its network. -/
theorem c112_printed (hd : Directory nets) (hf : Recorded ul nets file) (hl : listing.Perm nets) (obj : Objective) :
    ∃ (ns : List (List Char × Network)) (lines : List (List Char)),
      queryMain none obj ul false file listing = ⟨textOf lines, .finished⟩ ∧ ns.Subperm nets ∧ InNumericOrder (ns.map Prod.fst) ∧
      List.Forall₂ (fun e line => ∃ size, ReportsBalancer ul e.2 line size ∧ BestSize obj ul e.2 size) ns lines := by
  obtain ⟨stores, hf⟩ := hf.fileOf hd
  obtain ⟨sorted, h1, h2, h3, h4, -⟩ := queryMain_ok hd hf hl
  refine ⟨(sorted.filter (listed obj ul false)).map storeKey, _,
    (h4 none obj ul false).trans (queryLoop_ok (fun s hs => (h3 s hs).2) fun s hs => (h3 s hs).1.2), ?_, ?_, forall₂_maps fun s hs => ?_⟩
  · exact ((List.filter_sublist (p := listed obj ul false) (l := sorted)).map storeKey).subperm.trans ((h1.map storeKey).trans hf.1).subperm
  · rw [List.map_map]
    exact numeric_of_sorted (h2.sublist List.filter_sublist)
  · obtain ⟨hs, hb⟩ := List.mem_filter.1 hs
    exact (lineOf_best (h3 s hs).1.1 (h3 s hs).2 (listed_false hb)).2

/-- C112: if the last run of `compute` came to its end, `query` with its objective prints exactly one line for every network. -/
theorem c112_complete (hd : Directory nets) (hf : Recorded ul nets file) {obj : Objective} {stores : List Store}
    {evs : List (Nat × Option Json)} (hl : listing.Perm nets) (hst : startUp file (listing.map freshStore) = .ok stores)
    (hrun : RightRun obj ul (Sys.start obj ul stores file) evs)
    (hdone : ∀ t ∈ (Sys.run obj ul (Sys.start obj ul stores file) evs).tasks, t.state = .done)
    {listing' : List (List Char × Network)} (hl' : listing'.Perm nets) :
    ∃ (ns : List (List Char × Network)) (lines : List (List Char)),
      queryMain none obj ul false (Sys.run obj ul (Sys.start obj ul stores file) evs).file listing' = ⟨textOf lines, .finished⟩ ∧
      ns.Perm nets ∧ InNumericOrder (ns.map Prod.fst) ∧
      List.Forall₂ (fun e line => ∃ size, ReportsBalancer ul e.2 line size ∧ BestSize obj ul e.2 size) ns lines := by
  obtain ⟨before, hf⟩ := hf.fileOf hd
  obtain ⟨hg, after, ha, hf'⟩ := fileOf_run hd (soundStore_kept ul) hf hl hst hrun
  obtain ⟨sorted, h1, h2, h3, h4, -⟩ := queryMain_ok hd hf' hl'
  have hn : ∀ s ∈ sorted, nextSize obj s ul = .ok none := by
    intro s hs
    obtain ⟨t, ht, rfl⟩ := List.mem_map.1 (ha.mem_iff.1 (h1.mem_iff.1 hs))
    have hgo := (hg.2 t ht).1
    have hst := hdone t ht
    rw [hgo] at hst
    unfold Task.go at hst
    split at hst
    · cases hst
    · assumption
    · cases hst
  have hall : sorted.filter (listed obj ul false) = sorted :=
    List.filter_eq_self.2 fun s hs => (lineOf_best (h3 s hs).1.1 (h3 s hs).2 (hn s hs)).1
  refine ⟨sorted.map storeKey, _, (h4 none obj ul false).trans (queryLoop_ok (fun s hs => (h3 s hs).2) fun s hs => (h3 s hs).1.2), ?_, ?_, ?_⟩
  · exact (h1.map storeKey).trans hf'.1
  · rw [List.map_map]
    exact numeric_of_sorted h2
  · rw [hall]
    exact forall₂_maps fun s hs => (lineOf_best (h3 s hs).1.1 (h3 s hs).2 (hn s hs)).2

/-- C112: with `--allow-imperfect` there is one line for exactly the networks that the database has a solution for: a balancer that is no
worse than any other one in the database.  The lines printed without the option are among them. -/
theorem c112_imperfect (hd : Directory nets) (hf : Recorded ul nets file) (hl : listing.Perm nets) (obj : Objective) :
    ∃ (ns : List (List Char × Network)) (lines lines' : List (List Char)),
      queryMain none obj ul true file listing = ⟨textOf lines, .finished⟩ ∧ ns.Subperm nets ∧ InNumericOrder (ns.map Prod.fst) ∧
      List.Forall₂ (fun e line => ∃ size, ReportsBalancer ul e.2 line size ∧ InDatabase file e size ∧
        ∀ o, InDatabase file e o → NoWorse obj size o) ns lines ∧
      (∀ e ∈ nets, ∀ size, InDatabase file e size → e ∈ ns) ∧
      queryMain none obj ul false file listing = ⟨textOf lines', .finished⟩ ∧ lines'.Sublist lines := by
  obtain ⟨stores, hf⟩ := hf.fileOf hd
  obtain ⟨sorted, h1, h2, h3, h4, h5⟩ := queryMain_ok hd hf hl
  refine ⟨(sorted.filter (listed obj ul true)).map storeKey, _, _,
    (h4 none obj ul true).trans (queryLoop_ok (fun s hs => (h3 s hs).2) fun s hs => (h3 s hs).1.2), ?_, ?_, forall₂_maps fun s hs => ?_, ?_,
    (h4 none obj ul false).trans (queryLoop_ok (fun s hs => (h3 s hs).2) fun s hs => (h3 s hs).1.2), ?_⟩
  · exact ((List.filter_sublist (p := listed obj ul true) (l := sorted)).map storeKey).subperm.trans ((h1.map storeKey).trans hf.1).subperm
  · rw [List.map_map]
    exact numeric_of_sorted (h2.sublist List.filter_sublist)
  · obtain ⟨hs, hb⟩ := List.mem_filter.1 hs
    have hb : (s.best obj ul).isSome = true := by simpa [listed] using hb
    obtain ⟨size, v, g1, g2, g3, g4⟩ := lineOf_reports (h3 s hs).1.1 (h3 s hs).2 hb
    refine ⟨size, g3, ⟨s, v, h5 s hs, g2⟩, ?_⟩
    rintro o ⟨s', w, hs', hw⟩
    rw [h5 s hs] at hs'
    cases hs'
    exact g4 o w hw
  · rintro e he size ⟨s, v, hs, hv⟩
    have he : e ∈ sorted.map storeKey := ((h1.map storeKey).trans hf.1).mem_iff.2 he
    obtain ⟨s', hs', rfl⟩ := List.mem_map.1 he
    obtain rfl : s' = s := by
      rw [h5 s' hs'] at hs
      exact (List.cons.inj (Except.ok.inj hs)).1
    refine List.mem_map.2 ⟨s', List.mem_filter.2 ⟨hs', ?_⟩, rfl⟩
    obtain ⟨a, p, b, q, hE⟩ := (h3 s' hs').2
    have hi := (h3 s' hs').1.1.1.inv hE
    obtain ⟨_, _, hb, -⟩ := best_spec obj s' ul size v hv (hi.family _ _ (hi.solved _ _ hv)).len.le
    simp [listed, hb]
  · refine List.Sublist.map _ (List.monotone_filter_right _ fun s hs => ?_)
    simp only [listed, Bool.false_or, Bool.true_or, Bool.true_and, Bool.and_eq_true] at hs ⊢
    exact hs.2

end

/-- C112: the same with runs of `compute` for any underground lengths on one database.  Every line is a balancer with at most the underground
length asked for, and no worse than the others of them in the database; with `--allow-imperfect` there is a line whenever there is one. -/
theorem c112_lengths {nets : List (List Char × Network)} {file : Option (List Char)} {listing : List (List Char × Network)}
    (hd : Directory nets) (hf : RecordedAny nets file) (hl : listing.Perm nets) (obj : Objective) (ul : Int) (imperfect : Bool) :
    ∃ (ns : List (List Char × Network)) (lines : List (List Char)),
      queryMain none obj ul imperfect file listing = ⟨textOf lines, .finished⟩ ∧ ns.Subperm nets ∧ InNumericOrder (ns.map Prod.fst) ∧
      List.Forall₂ (fun e line => ∃ size, ReportsBalancer size.1 e.2 line size ∧ size.1 ≤ ul ∧ InDatabase file e size ∧
        ∀ o, InDatabase file e o → o.1 ≤ ul → NoWorse obj size o) ns lines ∧
      (imperfect = true → ∀ e ∈ nets, ∀ size, size.1 ≤ ul → InDatabase file e size → e ∈ ns) := by
  obtain ⟨stores, hf⟩ := hf.fileOf hd
  obtain ⟨sorted, h1, h2, h3, h4, h5⟩ := queryMain_ok hd hf hl
  refine ⟨(sorted.filter (listed obj ul imperfect)).map storeKey, _,
    (h4 none obj ul imperfect).trans (queryLoop_ok (fun s hs => (h3 s hs).2) fun s hs => (h3 s hs).1.2), ?_, ?_,
    forall₂_maps fun s hs => ?_, ?_⟩
  · exact ((List.filter_sublist (p := listed obj ul imperfect) (l := sorted)).map storeKey).subperm.trans
      ((h1.map storeKey).trans hf.1).subperm
  · rw [List.map_map]
    exact numeric_of_sorted (h2.sublist List.filter_sublist)
  · obtain ⟨hs, hb⟩ := List.mem_filter.1 hs
    have hb : (s.best obj ul).isSome = true := by
      simp only [listed, Bool.and_eq_true] at hb
      exact hb.2
    obtain ⟨size, v, g1, g2, g3, g4, g5⟩ := lineOf_weak (h3 s hs).1.2 hb
    refine ⟨size, g3, g4, ⟨s, v, h5 s hs, g2⟩, ?_⟩
    rintro o ⟨s', w, hs', hw⟩ hu
    rw [h5 s hs] at hs'
    cases hs'
    exact g5 o w hw hu
  · rintro rfl e he size hu ⟨s, v, hs, hv⟩
    have he : e ∈ sorted.map storeKey := ((h1.map storeKey).trans hf.1).mem_iff.2 he
    obtain ⟨s', hs', rfl⟩ := List.mem_map.1 he
    obtain rfl : s' = s := by
      rw [h5 s' hs'] at hs
      exact (List.cons.inj (Except.ok.inj hs)).1
    refine List.mem_map.2 ⟨s', List.mem_filter.2 ⟨hs', ?_⟩, rfl⟩
    obtain ⟨_, _, hb, -⟩ := best_spec obj s' ul size v hv hu
    simp [listed, hb]

/-- When a search is over, a solution is recorded. -/
theorem WeakStore.over {s : Store} {obj : Objective} {ul : Int} (h : WeakStore s) (hE : ∃ a p b q, Ends s.network a p b q)
    (hn : nextSize obj s ul = .ok none) : (s.best obj ul).isSome = true := by
  obtain ⟨a, p, b, q, hE⟩ := hE
  have hg := (gio_iff _ _ _ _ _).2 hE
  have key : ∃ size : Size, doesExist s.exist size = some true ∧ size.1 = ul := by
    cases obj with
    | length =>
      obtain ⟨w, -, -, h3⟩ := nextSize_length hg hn
      rcases h3 with ⟨-, h3⟩ | ⟨h3, -⟩
      · exact ⟨_, h3, rfl⟩
      · cases h3
    | area =>
      obtain ⟨ar, -, -, w, h', -, -, -, -, h6⟩ := nextSize_area hg hn
      rcases h6 with ⟨-, h6⟩ | ⟨h6, -⟩
      · exact ⟨_, h6, rfl⟩
      · cases h6
  obtain ⟨size, hs, rfl⟩ := key
  obtain ⟨o, ho, hle⟩ := doesExist_true hs
  obtain ⟨v, hv⟩ := h.stored o ho
  obtain ⟨_, _, hb, -⟩ := best_spec obj s size.1 o v hv hle.1
  rw [hb]; rfl

/-- C112: also then, after a run of `compute` that came to its end, `query` with its underground length and objective has a line for every
network. -/
theorem c112_lengths_complete {nets : List (List Char × Network)} {file : Option (List Char)} {listing : List (List Char × Network)}
    (hd : Directory nets) (hf : RecordedAny nets file) {obj : Objective} {ul : Int} {stores : List Store} {evs : List (Nat × Option Json)}
    (hl : listing.Perm nets) (hst : startUp file (listing.map freshStore) = .ok stores)
    (hrun : RightRun obj ul (Sys.start obj ul stores file) evs)
    (hdone : ∀ t ∈ (Sys.run obj ul (Sys.start obj ul stores file) evs).tasks, t.state = .done)
    {listing' : List (List Char × Network)} (hl' : listing'.Perm nets) :
    ∃ (ns : List (List Char × Network)) (lines : List (List Char)),
      queryMain none obj ul false (Sys.run obj ul (Sys.start obj ul stores file) evs).file listing' = ⟨textOf lines, .finished⟩ ∧
      ns.Perm nets ∧ InNumericOrder (ns.map Prod.fst) ∧
      List.Forall₂ (fun e line => ∃ size, ReportsBalancer size.1 e.2 line size ∧ size.1 ≤ ul) ns lines := by
  obtain ⟨before, hf⟩ := hf.fileOf hd
  obtain ⟨hg, after, ha, hf'⟩ := fileOf_run hd (fun _ _ _ _ _ _ _ => trivial) hf hl hst hrun
  obtain ⟨sorted, h1, h2, h3, h4, -⟩ := queryMain_ok hd hf' hl'
  have hn : ∀ s ∈ sorted, nextSize obj s ul = .ok none := by
    intro s hs
    obtain ⟨t, ht, rfl⟩ := List.mem_map.1 (ha.mem_iff.1 (h1.mem_iff.1 hs))
    have hgo := (hg.2 t ht).1
    have hst := hdone t ht
    rw [hgo] at hst
    unfold Task.go at hst
    split at hst
    · cases hst
    · assumption
    · cases hst
  have hb : ∀ s ∈ sorted, (s.best obj ul).isSome = true := fun s hs => (h3 s hs).1.2.over (h3 s hs).2 (hn s hs)
  have hall : sorted.filter (listed obj ul false) = sorted :=
    List.filter_eq_self.2 fun s hs => by simp [listed, hn s hs, hb s hs]
  refine ⟨sorted.map storeKey, _, (h4 none obj ul false).trans (queryLoop_ok (fun s hs => (h3 s hs).2) fun s hs => (h3 s hs).1.2),
    (h1.map storeKey).trans hf'.1, ?_, ?_⟩
  · rw [List.map_map]
    exact numeric_of_sorted h2
  · rw [hall]
    refine forall₂_maps fun s hs => ?_
    obtain ⟨size, -, -, -, g3, g4, -⟩ := lineOf_weak (h3 s hs).1.2 (hb s hs)
    exact ⟨size, g3, g4⟩

/-- C112: of a network whose input colour is no splitter's output, every balancer with the underground length is considered by the search, so
that a best one is best among all. -/
theorem c112_absolute {obj : Objective} {ul : Int} {n : Network} {size : Size} (h : BestSize obj ul n size) {a p b q : Int}
    (hE : Ends n a p b q) (hback : some a ∉ outsOf n) {o : Size} {T : Nat × Nat → Tile} (hT : BalancerOfSize n o T) (hu : o.1 = ul)
    (harea : obj = .area → o.2.2 ≤ 2 * max p q) : NoWorse obj size o :=
  h a p b q hE o T (hu ▸ c97_considered hE hback ⟨T, hT⟩) hT harea

/-- C112: the answer of a correct solver to the clauses of a solver run is a right answer: no solution when there is none, and otherwise the
layout that is decoded from a solution. -/
theorem c112_answer {lib : CardLib} {n : Network} {size : Size} {g : Grid} {node : Nat × Nat → List Lit} {cs : Cnf} {s' : Nat}
    (hlib : lib.Correct) (hpos : ∀ k ∈ n, ∀ c, k.HasColour c → 0 ≤ c) (hw : 2 ≤ size.2.1) (hh : 2 ≤ size.2.2)
    (h : solveBalancerGrid lib n size = .ok (g, node, cs, s')) :
    ((∀ v, ¬ Sat v cs) → RightAnswer n size none) ∧
    ∀ v, Sat v cs → ∃ T, Decodes g v T ∧ ∀ j, Depicts j (layoutArr g T) → RightAnswer n size (some j) := by
  obtain ⟨h1, h2⟩ := c97_layouts hlib hpos hw hh h
  refine ⟨fun hno => .no ?_, fun v hv => ?_⟩
  · rintro ⟨T, hT⟩
    obtain ⟨v, hv, -⟩ := (h2 T).2 hT
    exact hno v hv
  · obtain ⟨T, hT⟩ := h1 v hv
    refine ⟨T, hT, fun j hj => .yes T ((h2 T).1 ⟨v, hv, hT⟩) ?_⟩
    obtain ⟨t, P, -⟩ := solveBalancer_parts h
    obtain ⟨k, V, a, m, b, q, R⟩ := P.ready hlib (dedup_colours hpos) (by omega) (by omega)
    have e : layoutArr g T = boxArr g.width g.height T := rfl
    rw [R.w, R.h] at e
    exact e ▸ hj

/-! ### Blueprints -/

theorem depicts_export {n : Network} {size : Size} {T : Nat × Nat → Tile} {v : Json} (hT : BalancerOfSize n size T)
    (hv : Depicts v (boxArr size.2.1.toNat size.2.2.toNat T)) (hE : ∃ a p b q, Ends n a p b q) (c : Codec) (name : List Char) :
    ∃ e, exportSolution c name v = .error e := by
  obtain ⟨hR, F, lab, hI, -⟩ := hT
  have hval : (boxArr size.2.1.toNat size.2.2.toNat T).AllValid := by
    intro y x
    have := hR.basic (x.val, y.val) ⟨x.isLt, y.isLt⟩
    show (T (x.val, y.val)).Valid
    revert this
    cases T (x.val, y.val) <;> simp [Tile.Basic, Tile.Valid]
    exact fun h e => h e.symm
  obtain ⟨cells, hr, hc, rfl, hm⟩ := hv
  unfold exportSolution
  rw [show Json.arr _ = cellsJson ⟨(boxArr size.2.1.toNat size.2.2.toNat T).rows, (boxArr size.2.1.toNat size.2.2.toNat T).cols, cells⟩ from rfl,
    gridOf_cells _ hr]
  simp only
  rw [vectorize_ok (a := ⟨(boxArr size.2.1.toNat size.2.2.toNat T).rows, (boxArr size.2.1.toNat size.2.2.toNat T).cols, cells⟩)
    (b := (boxArr size.2.1.toNat size.2.2.toNat T).get) hr hc fun y x =>
    cellTile_of ((Json.ok_obj _).2 ⟨(hm y x).1, (hm y x).2.1⟩) (hval y x) ⟨_, (hm y x).2.2, fun m hm => hm⟩]
  simp only
  have hne : n ≠ [] := by
    rintro rfl
    obtain ⟨a, p, b, q, hE⟩ := hE
    have := (gio_iff _ _ _ _ _).2 hE
    cases this
  obtain ⟨k, hk⟩ := List.exists_mem_of_ne_nil _ hne
  have hk' : sortNode k ∈ elements (deduplicateNetwork n) := (elements_perm (n.map sortNode)).mem_iff.2 (List.mem_map.2 ⟨k, hk, rfl⟩)
  have hcount := List.count_pos_iff.2 hk'
  rw [← hI.realises.used] at hcount
  obtain ⟨p, hp, hlab⟩ := List.countP_pos_iff.1 hcount
  obtain ⟨d, hd⟩ := (hI.realises.heads p hp).1 ⟨_, by simpa using hlab⟩
  have hin := (mem_boxCells p).1 hp
  obtain ⟨e, he⟩ := c55_export_refuted (some (exportLabel name)) (boxArr size.2.1.toNat size.2.2.toNat T)
    ⟨⟨p.2, hin.2⟩, ⟨p.1, hin.1⟩, by show (T p).BeltLike; rw [hd]; trivial⟩
  refine ⟨e, ?_⟩
  rw [show (⟨(boxArr size.2.1.toNat size.2.2.toNat T).rows, (boxArr size.2.1.toNat size.2.2.toNat T).cols,
    (boxArr size.2.1.toNat size.2.2.toNat T).get⟩ : Arr Tile) = boxArr size.2.1.toNat size.2.2.toNat T from rfl, he]

theorem queryLoop_export {obj : Objective} {ul : Int} {imperfect : Bool} {stores : List Store} (c : Codec)
    (h : ∀ s ∈ stores, WeakStore s ∧ ∃ a p b q, Ends s.network a p b q) :
    (stores.filter (listed obj ul imperfect) = [] ∧ queryLoop (some c) obj ul imperfect stores = ⟨[], .finished⟩) ∨
    ∃ e, queryLoop (some c) obj ul imperfect stores = ⟨[], .raised e⟩ := by
  induction stores with
  | nil => exact .inl ⟨rfl, rfl⟩
  | cons s rest ih =>
    obtain ⟨hs, hE⟩ := h s (List.mem_cons_self ..)
    have ih := ih fun s hs => h s (List.mem_cons_of_mem _ hs)
    have key : (listed obj ul imperfect s = false ∧ queryStore (some c) obj ul imperfect s = .ok none) ∨
        ∃ e, queryStore (some c) obj ul imperfect s = .error e := by
      unfold queryStore listed
      rw [passedOver_ok hE]
      generalize (imperfect || (match nextSize obj s ul with | .ok none => true | _ => false)) = b
      cases b
      · exact .inl ⟨rfl, rfl⟩
      · cases hb : s.best obj ul with
        | none => exact .inl ⟨rfl, rfl⟩
        | some v =>
          right
          obtain ⟨size, -, -, hr, -⟩ := hs.best_right hb
          cases hr with
          | yes T hT hv =>
            obtain ⟨e, he⟩ := depicts_export hT hv hE c s.name
            obtain ⟨cells, -, -, rfl, -⟩ := hv
            refine ⟨e, ?_⟩
            simp only [Bool.not_true, encodeSolution, he]
    rw [queryLoop, List.filter_cons]
    rcases key with ⟨h1, h2⟩ | ⟨e, h2⟩
    · rw [h1, h2]
      exact ih
    · rw [h2]
      exact .inr ⟨e, rfl⟩

/-- C112 is false of `--export-blueprints`: whenever there is anything to report, the program prints nothing and fails, because it passes the
name of a belt level where a level is needed. -/
theorem c112_export_refuted (ul : Int) {nets : List (List Char × Network)} {file : Option (List Char)}
    {listing : List (List Char × Network)} (hd : Directory nets) (hf : RecordedAny nets file) (hl : listing.Perm nets) (obj : Objective)
    (imperfect : Bool) (c : Codec) (h : (queryMain none obj ul imperfect file listing).out ≠ []) :
    ∃ e, queryMain (some c) obj ul imperfect file listing = ⟨[], .raised e⟩ := by
  obtain ⟨stores, hf⟩ := hf.fileOf hd
  obtain ⟨sorted, h1, h2, h3, h4, -⟩ := queryMain_ok hd hf hl
  rw [h4, queryLoop_ok (fun s hs => (h3 s hs).2) fun s hs => (h3 s hs).1.2] at h
  rw [h4]
  rcases queryLoop_export (obj := obj) (ul := ul) (imperfect := imperfect) c (fun s hs => ⟨(h3 s hs).1.2, (h3 s hs).2⟩) with ⟨g1, -⟩ | g
  · rw [g1] at h
    exact absurd rfl h
  · exact g

/-! ### A case: one splitter -/

/-- The directory of the example. -/
def exDirectory : List (List Char × Network) := [(['2', 'x', '2'], oneSplitter)]

theorem exDirectory_ok : Directory exDirectory :=
  ⟨by decide, fun e he => by rw [List.mem_singleton.1 he]; exact ⟨0, 2, 1, 2, oneSplitter_ends⟩⟩

theorem oneSplitter_answer : ∃ v, RightAnswer oneSplitter (4, 3, 2) (some v) := by
  obtain ⟨g, node, cs, s', h1, h2⟩ := balancerCnf_ok oneSplitter_sat
  obtain ⟨-, h3⟩ := c112_answer naiveLib_correct (by simp [oneSplitter, Node.HasColour]) (by decide) (by decide) h1
  obtain ⟨T, -, h4⟩ := h3 _ h2
  obtain ⟨t, P, -⟩ := solveBalancer_parts h1
  obtain ⟨k, V, a, m, b, q, R⟩ := P.ready naiveLib_correct (dedup_colours (by simp [oneSplitter, Node.HasColour])) (by decide) (by decide)
  refine ⟨cellsJson (tileCells (layoutArr g T)), h4 _ ⟨fun y x => [member "tile" (.obj ((layoutArr g T).get y x).members)], ?_, ?_, rfl,
    fun y x => ⟨by simp, fun e he => ?_, by simp⟩⟩⟩
  · show 0 < g.height
    rw [R.h]; decide
  · show 0 < g.width
    rw [R.w]; decide
  · rw [List.mem_singleton.1 he]
    exact members_ok _

/-- The hypotheses of `c112_complete` are met: one solver run for one splitter, after which `query` prints its line. -/
example : ∃ (v : Json) (stores : List Store) (line : List Char) (size : Size),
    startUp none (exDirectory.map freshStore) = .ok stores ∧
    RightRun .length 4 (Sys.start .length 4 stores none) [(0, some v)] ∧
    (∀ t ∈ (Sys.run .length 4 (Sys.start .length 4 stores none) [(0, some v)]).tasks, t.state = .done) ∧
    queryMain none .length 4 false (Sys.run .length 4 (Sys.start .length 4 stores none) [(0, some v)]).file exDirectory =
      ⟨textOf [line], .finished⟩ ∧ ReportsBalancer 4 oneSplitter line size ∧ size.2.1 = 3 := by
  obtain ⟨v, hv⟩ := oneSplitter_answer
  have hrun : RightRun .length 4 (Sys.start .length 4 (exDirectory.map freshStore) none) [(0, some v)] := by
    refine .cons (fun t size ht hs => ?_) (.nil _)
    have e : (Sys.start .length 4 (exDirectory.map freshStore) none).tasks =
        [⟨freshStore (['2', 'x', '2'], oneSplitter), .waiting (4, 3, 2)⟩] := by rfl
    rw [e] at ht
    cases ht
    cases hs
    exact hv
  have hdone : ∀ t ∈ (Sys.run .length 4 (Sys.start .length 4 (exDirectory.map freshStore) none) [(0, some v)]).tasks, t.state = .done := by
    intro t ht
    have e : (Sys.run .length 4 (Sys.start .length 4 (exDirectory.map freshStore) none) [(0, some v)]).tasks =
        [⟨((freshStore (['2', 'x', '2'], oneSplitter)).add (4, 3, 2) (some v)).clean, .done⟩] := by rfl
    rw [e] at ht
    rw [List.mem_singleton.1 ht]
  obtain ⟨ns, lines, h1, h2, -, h4⟩ := c112_complete exDirectory_ok .start (.refl _) rfl hrun hdone (.refl _)
  have h2 := List.perm_singleton.1 h2
  subst h2
  obtain ⟨line, ls, ⟨size, h5, h6⟩, hnil, rfl⟩ := List.forall₂_cons_left_iff.1 h4
  obtain rfl := List.forall₂_nil_left_iff.1 hnil
  exact ⟨v, _, line, size, rfl, hrun, hdone, h1, h5, oneSplitter_only size (by obtain ⟨T, h, -⟩ := h5; exact ⟨T, h⟩)⟩

end FSat
