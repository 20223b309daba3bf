import Verif.Lemmas.SearchRuns
import Verif.Lemmas.Commands
import Verif.Spec.Query
/-!
# Lemmas about what `query` reads and prints
-/

namespace FSat

/-- The name and the network of a store. -/
def storeKey (s : Store) : List Char × Network := (s.name, s.network)

/-- What is recorded for the network is right. -/
def SoundStore (ul : Int) (s : Store) : Prop :=
  Computed (HasBalancer s.network) ul s.network s.name s ∧ ∀ size v, (size, v) ∈ s.solutions → RightAnswer s.network size (some v)

theorem soundStore_fresh (ul : Int) (e : List Char × Network) : SoundStore ul (freshStore e) := ⟨.start, nofun⟩

theorem hasBalancer_iff (n : Network) (size : Size) : HasBalancer n size ↔ ∃ T, BalancerOfSize n size T := Iff.rfl

theorem RightAnswer.isSome {n : Network} {size : Size} {ans : Option Json} (h : RightAnswer n size ans) :
    ans.isSome = true ↔ HasBalancer n size := by
  cases h with
  | yes T h1 _ => exact ⟨fun _ => ⟨T, h1⟩, fun _ => rfl⟩
  | no h1 => exact ⟨nofun, fun h => absurd h h1⟩

theorem Depicts.ok {v : Json} {a : Arr Tile} (h : Depicts v a) : v.Ok := by
  obtain ⟨cells, -, -, rfl, h⟩ := h
  rw [Json.ok_arr]
  intro w hw
  obtain ⟨y, rfl⟩ := List.mem_ofFn.1 hw
  rw [Json.ok_arr]
  intro w hw
  obtain ⟨x, rfl⟩ := List.mem_ofFn.1 hw
  exact (Json.ok_obj _).2 ⟨(h y x).1, (h y x).2.1⟩

theorem Depicts.printed {v : Json} {a : Arr Tile} (h : Depicts v a) : PrintedLine v.dumps a := by
  obtain ⟨cells, h1, h2, rfl, h⟩ := h
  exact ⟨cells, h1, h2, rfl, h⟩

theorem Depicts.ne_null {v : Json} {a : Arr Tile} (h : Depicts v a) : v ≠ .null := by
  obtain ⟨cells, -, -, rfl, -⟩ := h
  nofun

theorem SoundStore.step {ul : Int} {s : Store} (h : SoundStore ul s) {a p b q : Int} (hE : Ends s.network a p b q) {obj : Objective}
    {size : Size} (hn : nextSize obj s ul = .ok (some size)) {ans : Option Json} (ha : RightAnswer s.network size ans) :
    SoundStore ul (s.add size ans).clean := by
  refine ⟨.step obj ans h.1 hn ha.isSome, fun k v hk => ?_⟩
  have hv := (h.1.inv hE).valid_solutions
  cases ans with
  | none => exact h.2 k v hk
  | some w =>
    have hk : (k, v) ∈ s.solutions.set size w := hk
    rcases (mem_set_iff hv _ _ _ _).1 hk with ⟨rfl, rfl⟩ | ⟨-, hk⟩
    · exact ha
    · exact h.2 k v hk

/-- What holds of a store with right answers for any underground lengths. -/
structure WeakStore (s : Store) : Prop where
  valid : s.exist.Valid
  valid_solutions : s.solutions.Valid
  stored : ∀ size, (size, true) ∈ s.exist → ∃ v, (size, v) ∈ s.solutions
  right : ∀ size v, (size, v) ∈ s.solutions → RightAnswer s.network size (some v)

theorem weakStore_fresh (e : List Char × Network) : WeakStore (freshStore e) :=
  ⟨List.nodup_nil, List.nodup_nil, nofun, nofun⟩

theorem cleanExist_weak {d : PyDict Size Bool} (hd : d.Valid) : (cleanExist d).Valid ∧ ∀ e ∈ cleanExist d, e ∈ d := by
  have key : ∀ (l : List (Size × Bool)) (m : PyDict Size Bool), (∀ e ∈ l, e ∈ d) → m.Valid → (∀ e ∈ m, e ∈ d) →
      (l.foldl cleanStep m).Valid ∧ ∀ e ∈ l.foldl cleanStep m, e ∈ d := by
    intro l
    induction l with
    | nil => exact fun m _ h1 h2 => ⟨h1, h2⟩
    | cons x l ih =>
      intro m hl h1 h2
      have hm : (cleanStep m x).Valid ∧ ∀ e ∈ cleanStep m x, e ∈ d := by
        unfold cleanStep
        split
        · exact ⟨h1, h2⟩
        · have he : (m.erase x.1).Valid := h1.erase _
          have hs : ∀ e ∈ m.erase x.1, e ∈ d := fun e he => h2 e (List.mem_filter.1 he).1
          simp only
          split
          · refine ⟨he.set _ _, ?_⟩
            rintro ⟨k, b⟩ hk
            rcases (mem_set_iff he _ _ _ _).1 hk with ⟨rfl, rfl⟩ | ⟨-, hk⟩
            · exact hl x (List.mem_cons_self ..)
            · exact hs _ hk
          · exact ⟨he, hs⟩
      exact ih _ (fun e he => hl e (List.mem_cons_of_mem _ he)) hm.1 hm.2
  exact key d d (fun e he => he) hd fun e he => he

theorem WeakStore.step {s : Store} (h : WeakStore s) {size : Size} {ans : Option Json} (ha : RightAnswer s.network size ans) :
    WeakStore (s.add size ans).clean := by
  have hv : (s.add size ans).exist.Valid := h.valid.set _ _
  obtain ⟨c1, c2⟩ := cleanExist_weak hv
  cases ans with
  | none =>
    refine ⟨c1, h.valid_solutions, fun k hk => ?_, h.right⟩
    have hk : (k, true) ∈ s.exist.set size false := c2 _ hk
    rcases (mem_set_iff h.valid _ _ _ _).1 hk with ⟨-, e⟩ | ⟨-, hk⟩
    · cases e
    · exact h.stored k hk
  | some v =>
    refine ⟨c1, h.valid_solutions.set _ _, fun k hk => ?_, fun k w hk => ?_⟩
    · have hk : (k, true) ∈ s.exist.set size true := c2 _ hk
      show ∃ w, (k, w) ∈ s.solutions.set size v
      rcases (mem_set_iff h.valid _ _ _ _).1 hk with ⟨rfl, -⟩ | ⟨hne, hk⟩
      · exact ⟨v, (mem_set_iff h.valid_solutions _ _ _ _).2 (.inl ⟨rfl, rfl⟩)⟩
      · obtain ⟨w, hw⟩ := h.stored k hk
        exact ⟨w, (mem_set_iff h.valid_solutions _ _ _ _).2 (.inr ⟨hne, hw⟩)⟩
    · have hk : (k, w) ∈ s.solutions.set size v := hk
      rcases (mem_set_iff h.valid_solutions _ _ _ _).1 hk with ⟨rfl, rfl⟩ | ⟨-, hk⟩
      · exact ha
      · exact h.right k w hk

theorem SoundStore.weak {ul : Int} {s : Store} (h : SoundStore ul s) {a p b q : Int} (hE : Ends s.network a p b q) : WeakStore s :=
  have hi := h.1.inv hE
  ⟨hi.valid, hi.valid_solutions, hi.stored, h.2⟩

/-! ### The runs of `compute` -/

/-- A property of stores that right answers keep. -/
def KeptBy (ul : Int) (S : Store → Prop) : Prop :=
  ∀ {s : Store}, S s → (∃ a p b q, Ends s.network a p b q) → ∀ {obj : Objective} {size : Size}, nextSize obj s ul = .ok (some size) →
    ∀ {ans : Option Json}, RightAnswer s.network size ans → S (s.add size ans).clean

theorem soundStore_kept (ul : Int) : KeptBy ul (SoundStore ul) := fun h ⟨_, _, _, _, hE⟩ _ _ hn _ ha => h.step hE hn ha

theorem weakStore_kept (ul : Int) : KeptBy ul WeakStore := fun h _ _ _ _ _ ha => h.step ha

/-- What holds while `compute` runs. -/
def GoodSys (obj : Objective) (ul : Int) (S : Store → Prop) (listing : List (List Char × Network)) (y : Sys) : Prop :=
  y.tasks.map (fun t => storeKey t.store) = listing ∧ ∀ t ∈ y.tasks, t = Task.go obj ul t.store ∧ S t.store

section
variable {S : Store → Prop}

theorem good_start {obj : Objective} {ul : Int} {stores : List Store} {file : Option (List Char)} (h : ∀ s ∈ stores, S s) :
    GoodSys obj ul S (stores.map storeKey) (Sys.start obj ul stores file) := by
  refine ⟨?_, fun t ht => ?_⟩
  · simp only [Sys.start, List.map_map]
    exact List.map_congr_left fun s _ => by simp only [Function.comp, go_store]
  · obtain ⟨s, hs, rfl⟩ := List.mem_map.1 ht
    rw [go_store]
    exact ⟨rfl, h s hs⟩

theorem go_waiting {obj : Objective} {ul : Int} {s : Store} {size : Size} (h : (Task.go obj ul s).state = .waiting size) :
    nextSize obj s ul = .ok (some size) := by
  unfold Task.go at h
  split at h
  · cases h
  · cases h
  · cases h; assumption

theorem good_event {obj : Objective} {ul : Int} {listing : List (List Char × Network)} {y : Sys} {ev : Nat × Option Json}
    (hS : KeptBy ul S) (hE : ∀ e ∈ listing, ∃ a p b q, Ends e.2 a p b q) (hy : GoodSys obj ul S listing y)
    (ha : ∀ t size, y.tasks[ev.1]? = some t → t.state = .waiting size → RightAnswer t.store.network size ev.2) :
    GoodSys obj ul S listing (y.event obj ul ev) := by
  unfold Sys.event
  cases ht : y.tasks[ev.1]? with
  | none => exact hy
  | some t =>
    simp only
    cases hst : t.state with
    | done => exact hy
    | failed e => exact hy
    | waiting size =>
      simp only
      have hmem := List.mem_of_getElem? ht
      obtain ⟨h1, h2⟩ := hy.2 t hmem
      have hn : nextSize obj t.store ul = .ok (some size) := go_waiting (by rw [← h1]; exact hst)
      have hE := hE (storeKey t.store) (by rw [← hy.1]; exact List.mem_map.2 ⟨t, hmem, rfl⟩)
      have hs := hS h2 hE hn (ha t size ht hst)
      have hr : t.resume obj ul ev.2 = Task.go obj ul (t.store.add size ev.2).clean := by
        unfold Task.resume
        rw [hst]
      have hk : storeKey (t.resume obj ul ev.2).store = storeKey t.store := by
        rw [hr, go_store]; rfl
      refine ⟨?_, fun u hu => ?_⟩
      · show (y.tasks.set ev.1 (t.resume obj ul ev.2)).map (fun t => storeKey t.store) = listing
        rw [← hy.1]
        apply List.ext_getElem?
        intro j
        rw [List.getElem?_map, List.getElem?_map, List.getElem?_set]
        split
        · next hj =>
          subst hj
          obtain ⟨hlt, -⟩ := List.getElem?_eq_some_iff.1 ht
          rw [if_pos hlt, ht]
          simp only [Option.map_some, hk]
        · rfl
      · rcases List.mem_or_eq_of_mem_set hu with hu | rfl
        · exact hy.2 u hu
        · rw [hr, go_store]
          exact ⟨rfl, hs⟩

theorem good_run {obj : Objective} {ul : Int} {listing : List (List Char × Network)} (hS : KeptBy ul S)
    (hE : ∀ e ∈ listing, ∃ a p b q, Ends e.2 a p b q)
    {y : Sys} {evs : List (Nat × Option Json)} (h : RightRun obj ul y evs) (hy : GoodSys obj ul S listing y) :
    GoodSys obj ul S listing (y.run obj ul evs) := by
  induction h with
  | nil y => exact hy
  | cons ha _ ih => exact ih (good_event hS hE hy ha)

/-! ### The database -/

end

theorem WeakStore.saveable {s : Store} (h : WeakStore s) : (s.exist.Valid ∧ s.solutions.Valid) ∧ ∀ e ∈ s.solutions, e.2.Ok := by
  refine ⟨⟨h.valid, h.valid_solutions⟩, fun e he => ?_⟩
  cases h.right e.1 e.2 he with
  | yes T _ hd => exact hd.ok

theorem saveable_of_weak {nets : List (List Char × Network)} (hd : Directory nets) {stores : List Store}
    (hk : (stores.map storeKey).Perm nets) (h : ∀ s ∈ stores, WeakStore s) : Saveable stores := by
  refine ⟨?_, fun s hs => (h s hs).saveable.1, fun s hs => (h s hs).saveable.2⟩
  have := (hk.map Prod.fst).nodup_iff.2 hd.names
  rw [List.map_map] at this
  exact this

/-- A rearrangement of the images is the image of a rearrangement. -/
theorem perm_lift {α β : Type} (f : α → β) {l : List α} {m : List β} (h : m.Perm (l.map f)) : ∃ l' : List α, l'.Perm l ∧ l'.map f = m := by
  generalize hk : l.map f = k at h
  induction h generalizing l with
  | nil => exact ⟨[], by rw [List.map_eq_nil_iff.1 hk], rfl⟩
  | cons x _ ih =>
    obtain ⟨y, t, rfl, rfl, rfl⟩ := List.map_eq_cons_iff.1 hk
    obtain ⟨l', h1, h2⟩ := ih rfl
    exact ⟨y :: l', h1.cons y, by rw [List.map_cons, h2]⟩
  | swap x y m =>
    obtain ⟨a, t, rfl, rfl, hk2⟩ := List.map_eq_cons_iff.1 hk
    obtain ⟨b, t, rfl, rfl, rfl⟩ := List.map_eq_cons_iff.1 hk2
    exact ⟨b :: a :: t, List.Perm.swap .., rfl⟩
  | trans _ _ ih1 ih2 =>
    obtain ⟨l1, h1, h2⟩ := ih2 hk
    obtain ⟨l2, h3, h4⟩ := ih1 h2
    exact ⟨l2, h3.trans h1, h4⟩

/-- What the database holds. -/
def FileOf (S : Store → Prop) (nets : List (List Char × Network)) (file : Option (List Char)) (stores : List Store) : Prop :=
  (stores.map storeKey).Perm nets ∧ (∀ s ∈ stores, S s ∧ WeakStore s) ∧
    (file = some (databaseOf stores).dumps ∨ file = none ∧ stores = stores.map Store.blank)

section
variable {S : Store → Prop}

theorem startUp_file {nets : List (List Char × Network)} (hd : Directory nets) {file : Option (List Char)} {stores : List Store}
    (hf : FileOf S nets file stores) {listing : List (List Char × Network)} (hl : listing.Perm nets) :
    ∃ l, l.Perm stores ∧ l.map storeKey = listing ∧ startUp file (listing.map freshStore) = .ok l := by
  obtain ⟨h1, h2, h3⟩ := hf
  obtain ⟨l, e1, e2⟩ := perm_lift storeKey (hl.trans h1.symm)
  refine ⟨l, e1, e2, ?_⟩
  have hfresh : listing.map freshStore = l.map Store.blank := by
    rw [← e2, List.map_map]
    exact List.map_congr_left fun s _ => rfl
  rw [hfresh]
  rcases h3 with rfl | ⟨rfl, h3⟩
  · have hs := saveable_of_weak hd h1 fun s hs => (h2 s hs).2
    unfold startUp
    simp only
    rw [Json.loads_dumps _ (ok_database hs)]
    exact readStores_database hs l fun s hs => e1.mem_iff.1 hs
  · show Except.ok (l.map Store.blank) = Except.ok l
    congr 1
    have hb : ∀ s ∈ stores, s.blank = s := by
      intro s hs
      rw [h3] at hs
      obtain ⟨t, -, rfl⟩ := List.mem_map.1 hs
      rfl
    conv_rhs => rw [← List.map_id l]
    exact List.map_congr_left fun s hs => hb s (e1.mem_iff.1 hs)

theorem fileOf_run {ul : Int} {nets : List (List Char × Network)} (hd : Directory nets) {file : Option (List Char)} {stores : List Store}
    (hS : KeptBy ul S) (hf : FileOf S nets file stores) {listing : List (List Char × Network)} (hl : listing.Perm nets) {l : List Store}
    (hst : startUp file (listing.map freshStore) = .ok l) {obj : Objective} {evs : List (Nat × Option Json)}
    (hr : RightRun obj ul (Sys.start obj ul l file) evs) :
    GoodSys obj ul (fun s => S s ∧ WeakStore s) listing (Sys.run obj ul (Sys.start obj ul l file) evs) ∧
    ∃ stores', stores'.Perm ((Sys.run obj ul (Sys.start obj ul l file) evs).tasks.map Task.store) ∧
      FileOf S nets (Sys.run obj ul (Sys.start obj ul l file) evs).file stores' := by
  obtain ⟨l', e1, e2, e3⟩ := startUp_file hd hf hl
  rw [hst] at e3
  cases e3
  obtain ⟨h1, h2, h3⟩ := hf
  have hls : ∀ s ∈ l, S s ∧ WeakStore s := fun s hs => h2 s (e1.mem_iff.1 hs)
  have hg := good_start (obj := obj) (ul := ul) (file := file) hls
  rw [e2] at hg
  have hboth : KeptBy ul fun s => S s ∧ WeakStore s := fun h hE _ _ hn _ ha => ⟨hS h.1 hE hn ha, h.2.step ha⟩
  have hg' := good_run hboth (fun e he => hd.ends e (hl.mem_iff.1 he)) hr hg
  refine ⟨hg', ?_⟩
  have htasks : (Sys.start obj ul l file).tasks.map Task.store = l := by
    simp only [Sys.start, List.map_map]
    conv_rhs => rw [← List.map_id l]
    exact List.map_congr_left fun s _ => go_store obj ul s
  rcases run_file obj ul evs (Sys.start obj ul l file) with h | h
  · rw [h, htasks]
    exact ⟨stores, e1.symm, h1, h2, h3⟩
  · refine ⟨_, .refl _, ?_, fun s hs => ?_, .inl h⟩
    · rw [List.map_map]
      show (List.map (fun t : Task => storeKey t.store) _).Perm nets
      rw [hg'.1]
      exact hl
    · obtain ⟨t, ht, rfl⟩ := List.mem_map.1 hs
      exact (hg'.2 t ht).2

theorem fileOf_start {nets : List (List Char × Network)} (hS : ∀ e, S (freshStore e)) : ∃ stores, FileOf S nets none stores := by
  refine ⟨nets.map freshStore, ?_, fun s hs => ?_, .inr ⟨rfl, ?_⟩⟩
  · rw [List.map_map]
    conv_rhs => rw [← List.map_id nets]
    exact .of_eq (List.map_congr_left fun s _ => rfl)
  · obtain ⟨e, -, rfl⟩ := List.mem_map.1 hs
    exact ⟨hS e, weakStore_fresh e⟩
  · rw [List.map_map]
    exact List.map_congr_left fun s _ => rfl

end

theorem Recorded.fileOf {ul : Int} {nets : List (List Char × Network)} (hd : Directory nets) {file : Option (List Char)}
    (h : Recorded ul nets file) : ∃ stores, FileOf (SoundStore ul) nets file stores := by
  induction h with
  | start => exact fileOf_start (soundStore_fresh ul)
  | run obj _ hl hst hr ih =>
    obtain ⟨stores, hf⟩ := ih
    obtain ⟨-, s', -, h⟩ := fileOf_run hd (soundStore_kept ul) hf hl hst hr
    exact ⟨s', h⟩

theorem RecordedAny.fileOf {nets : List (List Char × Network)} (hd : Directory nets) {file : Option (List Char)}
    (h : RecordedAny nets file) : ∃ stores, FileOf (fun _ => True) nets file stores := by
  induction h with
  | start => exact fileOf_start fun _ => trivial
  | run obj ul _ hl hst hr ih =>
    obtain ⟨stores, hf⟩ := ih
    obtain ⟨-, s', -, h⟩ := fileOf_run hd (fun _ _ _ _ _ _ _ => trivial) hf hl hst hr
    exact ⟨s', h⟩

end FSat
