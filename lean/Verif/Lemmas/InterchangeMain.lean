import Verif.Lemmas.InterchangeParts
import Verif.Lemmas.PowerOfTwo
/-!
# What the clauses of the program `interchange` say
-/

set_option linter.unusedSimpArgs false
set_option linter.unusedVariables false

namespace FSat

section
variable {lib : CardLib} {width height L : Nat} {o : InterchangeOptions} {g : Grid} {s' : Nat} {v : Asg} {T : Nat × Nat → Tile} {cs : Cnf}

/-! ### Cells and their places -/

theorem walk_flat (hg : g.WF) (hf : Flat g) {p : Nat × Nat} (hp : g.In p) (d : Dir) (k : Nat) (q : Nat × Nat) :
    walk g.nb p d k = some q ↔ g.In q ∧ (q.1 : Int) = p.1 + d.dx * k ∧ (q.2 : Int) = p.2 + d.dy * k := by
  rw [← Grid.offset_walk hg hp, Grid.offset_iff hg]
  have : g.edge.wrapX = false ∧ g.edge.wrapY = false := by rw [hf]; exact ⟨rfl, rfl⟩
  rw [this.1, this.2]
  unfold AxisAt Grid.In
  simp only [Bool.false_eq_true, if_false]
  constructor
  · rintro ⟨⟨a, b⟩, c, d⟩; exact ⟨⟨a, c⟩, by omega, by omega⟩
  · rintro ⟨⟨a, c⟩, b, d⟩; exact ⟨⟨a, by omega⟩, c, by omega⟩

theorem nb_flat (hg : g.WF) (hf : Flat g) {p : Nat × Nat} (hp : g.In p) (d : Dir) (q : Nat × Nat) :
    g.nb p d = some q ↔ g.In q ∧ (q.1 : Int) = p.1 + d.dx ∧ (q.2 : Int) = p.2 + d.dy := by
  have := walk_flat hg hf hp d 1 q
  simpa [walk] using this

/-! ### The optimisations -/

theorem Sat_smallLoops_plain (hS : Solved g v T) : Sat v (preventSmallLoops g) ↔
    ∀ x y, x + 1 < g.width → y + 1 < g.height → ¬ SmallLoop T x y := c59_small_loops hS

theorem not_glued (hp : ∀ p, g.In p → ¬ (T p).IsSplitter) {p : Nat × Nat} {d : Dir} (h : g.In p) : ¬ GluedSplitter g.nb T p d := by
  rintro ⟨ht, _⟩
  exact hp p h ⟨_, _, ht⟩

theorem not_loose (hp : ∀ p, g.In p → ¬ (T p).IsSplitter) {p : Nat × Nat} {d : Dir} {f : Nat × Nat → Dir → Prop} (h : g.In p) :
    ¬ LooseSplitter g.nb T f p d := by
  rintro ⟨q, a, b, ⟨ht, _⟩, _⟩
  exact hp p h ⟨_, _, ht⟩

/-- What the optimisations say. -/
theorem optimisations_iff (hS : Solved g v T) (hflat : Flat g) (hL : g.ugLen = some L) (hplain : ∀ p, g.In p → ¬ (T p).IsSplitter)
    (hlen : ∀ p q d k, g.In p → UgPair g.nb T p q d k → k - 1 ≤ L) (rot : Bool) :
    ∃ c, interchangeOptimisations g rot = .ok c ∧ (Sat v c ↔ TidyBelts g.nb g.In g.width g.height L T ∧
      (rot = false → ∀ p d t, g.In p → d.Across t → ¬ Zigzag g.nb T p d t) ∧
      (rot = true → RotSem g (g.vals v) ∧ ∀ p d k, g.In p → k ≤ L → ¬ BeltIntoUnderground g.nb T p d k ∧ ¬ UndergroundIntoBelt g.nb T p d k)) := by
  have hg := hS.wf
  have tidy : Sat v (preventSmallLoops g) ∧ Sat v (preventEmptyAlongUnderground g) ∧ Sat v (preventBeltHooks g) ∧
      Sat v (preventMergeableUnderground g) ∧ Sat v (preventSemicircles g) ∧ Sat v (preventUndergroundHook g) ↔
      TidyBelts g.nb g.In g.width g.height L T := by
    rw [c59_small_loops hS, c59_empty_span hS, c59_belt_hooks hS, c59_mergeable_flat hS (by rw [hflat]) (by rw [hflat]), c59_semicircles hS,
      c59_underground_hooks hS]
    constructor
    · rintro ⟨a, b, c, d, e, f⟩
      exact ⟨a, fun p q x k hp hs => b p q x k hp (fun l hl => by rw [hL] at hl; cases hl; exact hlen p q x k hp hs.1) hs,
        fun p x k m hp hk => d p x k m hp fun l hl => by rw [hL] at hl; cases hl; exact hk,
        fun p x t hp ht => ⟨c p x t hp ht, e p x t hp ht, (f p x t hp ht).1, (f p x t hp ht).2⟩⟩
    · rintro ⟨a, b, d, e⟩
      exact ⟨a, fun p q x k hp _ => b p q x k hp, fun p x t hp ht => (e p x t hp ht).1,
        fun p x k m hp hk => d p x k m hp (hk L hL), fun p x t hp ht => (e p x t hp ht).2.1, fun p x t hp ht => (e p x t hp ht).2.2⟩
  unfold interchangeOptimisations
  cases rot with
  | true =>
    obtain ⟨cr, r1, r2⟩ := rot_iff g
    obtain ⟨ce, e1, e2⟩ := c59_expand hg {} (by unfold Window.Inside Window.hiX Window.hiY; simp only [Option.getD_none]; omega) L hL
    refine ⟨_, by rw [if_pos rfl, r1, e1]; rfl, ?_⟩
    simp only [Sat_append, r2, e2 v T hS]
    have hex : (∀ (p : Nat × Nat) (d : Dir) (k : Nat), g.In p → InBox 0 0 (Window.hiX {} g) (Window.hiY {} g) p.1 p.2 →
        InBox 0 0 (Window.hiX {} g) (Window.hiY {} g) (p.1 + d.dx * (k + 1)) (p.2 + d.dy * (k + 1)) → k ≤ L →
        ¬ BeltIntoUnderground g.nb T p d k ∧ ¬ UndergroundIntoBelt g.nb T p d k) ↔
        ∀ p d k, g.In p → k ≤ L → ¬ BeltIntoUnderground g.nb T p d k ∧ ¬ UndergroundIntoBelt g.nb T p d k := by
      have box : ∀ x y : Int, InBox 0 0 (Window.hiX {} g) (Window.hiY {} g) x y ↔ 0 ≤ x ∧ x < g.width ∧ 0 ≤ y ∧ y < g.height := by
        intro x y
        unfold InBox Window.hiX Window.hiY
        simp only [Option.getD_none]
        omega
      have start : ∀ p : Nat × Nat, g.In p → InBox 0 0 (Window.hiX {} g) (Window.hiY {} g) p.1 p.2 := fun p hp => by
        have h1 := hp.1
        have h2 := hp.2
        rw [box]; omega
      have stop : ∀ p d k r, g.In p → walk g.nb p d (k + 1) = some r →
          InBox 0 0 (Window.hiX {} g) (Window.hiY {} g) (p.1 + d.dx * (k + 1)) (p.2 + d.dy * (k + 1)) := fun p d k r hp hw => by
        obtain ⟨hr, h1, h2⟩ := (walk_flat hg hflat hp d (k + 1) r).1 hw
        have h3 := start r hr
        rw [h1, h2] at h3
        exact_mod_cast h3
      refine ⟨fun h p d k hp hk => ⟨fun hpat => ?_, fun hpat => ?_⟩, fun h p d k hp _ _ hk => h p d k hp hk⟩
      · have hpat' := hpat
        obtain ⟨_, q, r, h1, h2⟩ := hpat
        refine (h p d k hp (start p hp) (stop p d k r hp ?_) hk).1 hpat'
        rw [Nat.add_comm, walk_add]
        simp only [walk, h1, Option.bind_some]
        exact h2.2.1
      · have hpat' := hpat
        obtain ⟨q, r, h1, h2, _⟩ := hpat
        refine (h p d k hp (start p hp) (stop p d k r hp ?_) hk).2 hpat'
        rw [walk_add, h1.2.1]
        simp only [walk, h2, Option.bind_some]
    rw [← tidy]
    constructor
    · rintro ⟨a, b, c, d, e, f, i, j, _⟩
      exact ⟨⟨c, d, e, f, i, j⟩, (fun h => by cases h), fun _ => ⟨a, hex.1 b⟩⟩
    · rintro ⟨⟨c, d, e, f, i, j⟩, _, ab⟩
      exact ⟨(ab trivial).1, hex.2 (ab trivial).2, c, d, e, f, i, j, by simp⟩
  | false =>
    obtain ⟨cz, z1, z2⟩ := zigzags_iff hg
    obtain ⟨cp, p1, p2⟩ := parallel_iff hg
    obtain ⟨cl, l1, l2⟩ := gluePartial_iff hg
    refine ⟨_, by rw [if_neg (by simp), applyGenericOptimisations, z1, p1, l1]; rfl, ?_⟩
    have hb := hS.base
    simp only [Sat_append, z2 v T hb, p2 v T hb, l2 v T hb, Sat_glue hb]
    rw [← tidy]
    constructor
    · rintro ⟨⟨⟨⟨⟨⟨⟨a, b⟩, c⟩, d⟩, e⟩, f⟩, g'⟩, h', i, j⟩
      exact ⟨⟨a, b, d, e, f, g'⟩, fun _ => h', (fun h => by cases h)⟩
    · rintro ⟨⟨a, b, d, e, f, g'⟩, h', _⟩
      refine ⟨⟨⟨⟨⟨⟨⟨a, b⟩, fun p d hp _ => not_glued hplain hp⟩, d⟩, e⟩, f⟩, g'⟩, h' trivial, ?_, fun p d hp _ _ => not_loose hplain hp⟩
      rintro p d t hp ht ⟨q, b, c, h1, h2, h3, _, _, e', h4⟩
      exact hplain c (Grid.nb_in hg h3) ⟨_, _, h4⟩

/-! ### Symmetry -/

theorem turned_in {p : Nat × Nat} (hp : g.In p) : g.In (g.turned p) := by
  have h1 := hp.1
  have h2 := hp.2
  constructor <;> simp only [Grid.turned] <;> omega

theorem turned_turned {p : Nat × Nat} (hp : g.In p) : g.turned (g.turned p) = p := by
  have h1 := hp.1
  have h2 := hp.2
  refine Prod.ext ?_ ?_ <;> simp only [Grid.turned] <;> omega

theorem turned_walk (hg : g.WF) (hf : Flat g) {p q : Nat × Nat} {d : Dir} {k : Nat} (hp : g.In p) (h : walk g.nb p d k = some q) :
    walk g.nb (g.turned q) d k = some (g.turned p) := by
  obtain ⟨hq, h1, h2⟩ := (walk_flat hg hf hp d k q).1 h
  refine (walk_flat hg hf (turned_in hq) d k _).2 ⟨turned_in hp, ?_, ?_⟩
  · have a := hp.1
    have b := hq.1
    simp only [Grid.turned]
    generalize d.dx * (k : Int) = x at h1 ⊢
    omega
  · have a := hp.2
    have b := hq.2
    simp only [Grid.turned]
    generalize d.dy * (k : Int) = x at h2 ⊢
    omega

/-- The layout is symmetric. -/
def Symmetric (g : Grid) (T : Nat × Nat → Tile) : Prop := ∀ p, g.In p → T (g.turned p) = (T p).backwards

theorem rot_sound {C : Nat × Nat → CellVal} (hT : Lays g C T) (hplain : ∀ p, g.In p → ¬ (T p).IsSplitter) (h : RotSem g C) :
    Symmetric g T := by
  intro p hp
  have hp' := turned_in hp
  refine (hT _ hp').unique ?_
  obtain ⟨r1, r2, r3, r4, r5, r6, r7, r8, _⟩ := h p hp
  have hhead : (C (g.turned p)).isHead = false := by
    rw [← Bool.not_eq_true, (hT _ hp').isHead_iff]
    rintro ⟨d, hd⟩
    exact hplain _ hp' ⟨d, _, hd⟩
  have ha := hT p hp
  have hs := hplain p hp
  revert ha hs
  cases T p with
  | belt i o =>
    rintro ⟨h1, h2, h3, h4, h5⟩ _
    simp only [CellVal.kinds, List.cons.injEq, and_true] at h1
    refine ⟨?_, hhead, fun d => ?_, fun d => ?_, fun h => h5 ?_⟩
    · simp only [CellVal.kinds, ← r4, ← r5, ← r6, ← r7, ← r8, h1]
    · rw [← r2, h4]
    · rw [← r1, h3]
    · rw [h, Dir.opp_opp]
  | underground d b =>
    cases b with
    | true =>
      rintro ⟨h1, h2, h3, h4⟩ _
      simp only [CellVal.kinds, List.cons.injEq, and_true] at h1
      refine ⟨?_, hhead, fun d => ?_, fun d => ?_⟩
      · simp only [CellVal.kinds, ← r4, ← r5, ← r6, ← r7, ← r8, h1]
      · rw [← r2, h4]
      · rw [← r1, h3]
    | false =>
      rintro ⟨h1, h2, h3, h4⟩ _
      simp only [CellVal.kinds, List.cons.injEq, and_true] at h1
      refine ⟨?_, hhead, fun d => ?_, fun d => ?_⟩
      · simp only [CellVal.kinds, ← r4, ← r5, ← r6, ← r7, ← r8, h1]
      · rw [← r2, h4]
      · rw [← r1, h3]
  | empty =>
    rintro ⟨h1, h2, h3, h4⟩ _
    simp only [CellVal.kinds, List.cons.injEq, and_true] at h1
    refine ⟨?_, hhead, fun d => ?_, fun d => ?_⟩
    · simp only [CellVal.kinds, ← r4, ← r5, ← r6, ← r7, ← r8, h1]
    · rw [← r2, h4]
    · rw [← r1, h3]
  | splitter d b => intro _ h; exact absurd ⟨d, b, rfl⟩ h
  | _ => intro h; exact h.elim

theorem Tile.backwards_iff (t : Tile) : (∀ d, t.backwards.Takes d ↔ t.Emits d) ∧ (∀ d, t.backwards.Emits d ↔ t.Takes d) := by
  cases t with
  | underground e b => cases b <;> exact ⟨fun d => Iff.rfl, fun d => Iff.rfl⟩
  | _ => exact ⟨fun d => Iff.rfl, fun d => Iff.rfl⟩

theorem turned_pair (hg : g.WF) (hf : Flat g) (hs : Symmetric g T) {p q : Nat × Nat} {d : Dir} {k : Nat} (hp : g.In p)
    (h : UgPair g.nb T p q d k) : UgPair g.nb T (g.turned q) (g.turned p) d k := by
  obtain ⟨h1, h2, h3, h4, h5⟩ := h
  have hq := walk_in hg hp h2
  refine ⟨h1, turned_walk hg hf hp h2, by rw [hs q hq, h4]; rfl, by rw [hs p hp, h3]; rfl, fun i hi hik r hr hal => ?_⟩
  have hr' := walk_in hg (turned_in hq) hr
  have hw := turned_walk hg hf hp h2
  have e : k = i + (k - i) := by omega
  rw [e, walk_add, hr] at hw
  have hw2 := turned_walk hg hf hr' hw
  rw [turned_turned hp] at hw2
  refine h5 (k - i) (by omega) (by omega) _ hw2 ?_
  rw [hs r hr']
  revert hal
  cases T r <;> simp [Tile.UgAlong, Tile.backwards]

theorem turned_covered (hg : g.WF) (hf : Flat g) (hs : Symmetric g T) {p : Nat × Nat} {d : Dir} 
    (h : ∃ p0, CoveredBy g T d p p0) : ∃ p0, CoveredBy g T d (g.turned p) p0 := by
  obtain ⟨p0, hp0, q, k, i, hpair, hi, hik, hw⟩ := h
  have hq := walk_in hg hp0 hpair.2.1
  refine ⟨g.turned q, turned_in hq, g.turned p0, k, k - i, turned_pair hg hf hs hp0 hpair, by omega, by omega, ?_⟩
  have hp := walk_in hg hp0 hw
  have h2 := hpair.2.1
  have e : k = i + (k - i) := by omega
  rw [e, walk_add, hw] at h2
  exact turned_walk hg hf hp h2

theorem rot_complete {col : Nat × Nat → Nat} (hg : g.WF) (hf : Flat g) (hl : Lays g (realise g T col) T)
    (hplain : ∀ p, g.In p → ¬ (T p).IsSplitter) (hs : Symmetric g T) : RotSem g (realise g T col) := by
  intro p hp
  have hp' := turned_in hp
  have e := hs p hp
  have fi : ∀ p, g.In p → ∀ d, (realise g T col p).inp d = decide ((T p).Takes d) := fun p hp => ((hl p hp).flow (hplain p hp)).1
  have fo : ∀ p, g.In p → ∀ d, (realise g T col p).out d = decide ((T p).Emits d) := fun p hp => ((hl p hp).flow (hplain p hp)).2
  have hb := (T p).backwards_iff
  refine ⟨fun d => ?_, fun d => ?_, fun d => ?_, ?_, ?_, ?_, ?_, ?_, ?_⟩
  · rw [fi p hp, fo _ hp', e, decide_eq_decide, hb.2]
  · rw [fo p hp, fi _ hp', e, decide_eq_decide, hb.1]
  · refine decide_eq_decide.2 ⟨turned_covered hg hf hs, fun h => ?_⟩
    have := turned_covered hg hf hs h
    rwa [turned_turned hp] at this
  · refine decide_eq_decide.2 ?_
    rw [e]; cases T p <;> simp [Tile.backwards]
  · refine decide_eq_decide.2 ?_
    rw [e]; cases T p <;> simp [Tile.backwards]
  · have := hplain p hp
    have h2 := hplain _ hp'
    refine decide_eq_decide.2 ?_
    simp [this, h2]
  · refine decide_eq_decide.2 ?_
    rw [e]; cases T p <;> simp [Tile.backwards]
  · refine decide_eq_decide.2 ?_
    rw [e]; cases T p <;> simp [Tile.backwards]
  · rintro ⟨h, _⟩
    obtain ⟨d, hd⟩ := (hl p hp).isHead_iff.1 h
    exact hplain p hp ⟨d, _, hd⟩

/-! ### All the clauses -/

/-- What the clauses about the cells say, without the optimisations. -/
structure StaticSem (g : Grid) (L : Nat) (alternating : Bool) (C : Nat × Nat → CellVal) : Prop where
  init : InitSem g C
  plain : ∀ p, g.In p → (C p).isSplitter = false
  entry : ∀ y < g.height, (C (0, y)).inp .right = true
  exit : ∀ y < g.height, (C (g.width - 1, y)).out .right = true
  inputs : ∀ y < g.height, binVal (C (0, y)).colour = inputKind g.height y
  outputs : if alternating then ∀ y < g.height, binVal (C (g.width - 1, y)).colour = y % 2
    else ∀ i < g.height / 2, (binVal (C (g.width - 1, 2 * i)).colour = 0 ∧ binVal (C (g.width - 1, 2 * i + 1)).colour = 1) ∨
      (binVal (C (g.width - 1, 2 * i)).colour = 1 ∧ binVal (C (g.width - 1, 2 * i + 1)).colour = 0)
  blockUg : BlockUgSem g (.ofBool true) C
  blockBelt : BlockBeltSem g (.ofPair false true) C
  under : UndergroundSem g C
  colour : ColourSem g C
  inter : IntersectionSem g C
  len : LengthSem g C L

/-- The variables of the cells. -/
def interchangeVars (width height : Nat) : Nat := height * width * (gridFields (some 2) .nil).variableCount

/-- The parts of the clauses. -/
structure InterchangeParts (lib : CardLib) (width height L : Nat) (o : InterchangeOptions) (g : Grid) (cs : Cnf) (s' : Nat) where
  opt : Cnf
  pass : Cnf
  awk : Cnf
  move : Cnf
  set : Cnf
  gd : g = mkGrid width height ⟨false, false⟩ (some 2) (some L) .nil 0
  w : 0 < width
  h : 0 < height
  even : height % 2 = 0
  l : 1 ≤ L
  hinit : ∃ ci extra, initClauses g = .ok ci ∧ cs = ci ++ extra
  hopt : interchangeOptimisations g o.rotSymmetry = .ok opt
  hpass : preventPassing g = .ok pass
  hawk : preventAwkwardEntry g = .ok awk
  hmove : requireTransport lib g (interchangeVars width height) = .ok (move, s')
  hset : (match o.partialLayout with
      | some rows => setNonemptyTiles g rows
      | none => .ok []) = .ok set
  sat : ∀ v, Sat v cs ↔ StaticSem g L o.alternating (g.vals v) ∧ Sat v opt ∧ Sat v pass ∧ Sat v awk ∧ Sat v move ∧ Sat v set

theorem outputs_iff (hg : g.WF) (hc : g.colours = some 2) (alternating : Bool) :
    ∃ c, interchangeOutputs g alternating = .ok c ∧ ∀ v, Sat v c ↔ if alternating then ∀ y < g.height, binVal (g.vals v (g.width - 1, y)).colour = y % 2
    else ∀ i < g.height / 2, (binVal (g.vals v (g.width - 1, 2 * i)).colour = 0 ∧ binVal (g.vals v (g.width - 1, 2 * i + 1)).colour = 1) ∨
      (binVal (g.vals v (g.width - 1, 2 * i)).colour = 1 ∧ binVal (g.vals v (g.width - 1, 2 * i + 1)).colour = 0) := by
  have hb : g.bits = 1 := by simp [Grid.bits, hc]
  have hlen : ∀ x y, (g.tile x y).colour.length = 1 := fun x y => (hg.c (x, y)).trans hb
  unfold interchangeOutputs
  cases alternating with
  | true =>
    obtain ⟨c, h1, h2⟩ := concatE_iff (fun y : Nat => setNumber ((y % 2 : Nat) : Int) (g.tile (g.width - 1) y).colour)
      (fun v y => binVal (g.vals v (g.width - 1, y)).colour = y % 2) (List.range g.height) (fun y _ => by
        obtain ⟨c, h1, h2⟩ := (c06_set_number (y % 2) (g.tile (g.width - 1) y).colour).1 (by rw [hlen]; omega)
        exact ⟨c, h1, h2⟩)
    refine ⟨c, by rw [if_pos rfl]; exact h1, fun v => ?_⟩
    rw [h2, if_pos rfl]
    simp only [List.mem_range]
  | false =>
    obtain ⟨c, h1, h2⟩ := concatE_iff (fun i : Nat => setNumbers 0 1 (g.tile (g.width - 1) (2 * i)).colour (g.tile (g.width - 1) (2 * i + 1)).colour)
      (fun v i => (binVal (g.vals v (g.width - 1, 2 * i)).colour = 0 ∧ binVal (g.vals v (g.width - 1, 2 * i + 1)).colour = 1) ∨
      (binVal (g.vals v (g.width - 1, 2 * i)).colour = 1 ∧ binVal (g.vals v (g.width - 1, 2 * i + 1)).colour = 0)) (List.range (g.height / 2))
      (fun i _ => by
        obtain ⟨c, h1, h2⟩ := c07_set_numbers 0 1 (g.tile (g.width - 1) (2 * i)).colour (g.tile (g.width - 1) (2 * i + 1)).colour
          (by rw [hlen, hlen]) (by rw [hlen]; omega) (by rw [hlen]; omega)
        exact ⟨c, h1, h2⟩)
    refine ⟨c, by rw [if_neg (by simp)]; exact h1, fun v => ?_⟩
    rw [h2, if_neg (by simp)]
    simp only [List.mem_range]

theorem inputs_iff (hg : g.WF) (hc : g.colours = some 2) :
    ∃ c, interchangeInputs g = .ok c ∧ ∀ v, Sat v c ↔ ∀ y < g.height, binVal (g.vals v (0, y)).colour = inputKind g.height y := by
  obtain ⟨c, h1, h2⟩ := concatE_iff (fun y : Nat => setColour g 0 y (if y < g.height / 2 then 0 else 1))
    (fun v y => binVal (g.vals v (0, y)).colour = inputKind g.height y) (List.range g.height) (fun y hy => by
      have hin : g.In (0, y) := ⟨hg.w, List.mem_range.1 hy⟩
      have := setColour_iff hg hc (k := inputKind g.height y) (by unfold inputKind; split <;> omega) hin
      unfold inputKind at this ⊢
      split
      · rw [if_pos ‹_›] at this; exact this
      · rw [if_neg ‹_›] at this; exact this)
  refine ⟨c, h1, fun v => ?_⟩
  rw [h2]
  simp only [List.mem_range]

theorem interchangeEnds_iff (v : Asg) : Sat v (interchangeEnds g) ↔ (∀ y < g.height, (g.vals v (0, y)).inp .right = true) ∧
    ∀ y < g.height, (g.vals v (g.width - 1, y)).out .right = true := by
  unfold interchangeEnds
  rw [Sat_flatMap]
  simp only [Sat_cons, Sat_nil, SatC_cons, SatC_nil, or_false, and_true, List.mem_range]
  exact ⟨fun h => ⟨fun y hy => (h y hy).1, fun y hy => (h y hy).2⟩, fun h y hy => ⟨h.1 y hy, h.2 y hy⟩⟩

theorem noSplitters_iff (v : Asg) : Sat v (g.cells.map fun p => [-(g.at' p).isSplitter]) ↔ ∀ p, g.In p → (g.vals v p).isSplitter = false := by
  rw [Sat_map]
  simp only [SatC_cons, SatC_nil, or_false, ev_neg, Grid.mem_cells, Bool.not_eq_true']
  exact Iff.rfl

theorem interchangeMain_parts (h : interchangeMain lib width height L o = .ok (g, cs, s')) :
    Nonempty (InterchangeParts lib width height L o g cs s') := by
  unfold interchangeMain at h
  split at h
  · cases h
  split at h
  · cases h
  split at h
  · cases h
  rename_i hh he hw
  simp only at h
  split at h
  · cases h
  rename_i cs1 s1' h1
  cases h
  have hg := mkGrid_wf (show 0 < width by omega) (show 0 < height by omega) ⟨false, false⟩ (some 2) (some L) (by intro n h; cases h; omega) .nil 0
  generalize hgd : mkGrid width height ⟨false, false⟩ (some 2) (some L) .nil 0 = g at h1 hg ⊢
  have hcol : g.colours = some 2 := by rw [← hgd]; rfl
  have hug : g.ugLen = some L := by rw [← hgd]; rfl
  unfold interchangeClauses at h1
  obtain ⟨c1, t1, d1, a1, k1, e1⟩ := Gen.cons_ok h1
  obtain ⟨b1, rfl⟩ := Gen.pure_ok a1
  obtain ⟨c2, t2, d2, a2, k2, e2⟩ := Gen.cons_ok k1
  obtain ⟨b2, rfl⟩ := Gen.pure_ok a2
  obtain ⟨c3, t3, d3, a3, k3, e3⟩ := Gen.cons_ok k2
  obtain ⟨b3, rfl⟩ := Gen.pure_ok a3
  obtain ⟨c4, t4, d4, a4, k4, e4⟩ := Gen.cons_ok k3
  obtain ⟨b4, rfl⟩ := Gen.pure_ok a4
  obtain ⟨c5, t5, d5, a5, k5, e5⟩ := Gen.cons_ok k4
  obtain ⟨b5, rfl⟩ := Gen.pure_ok a5
  obtain ⟨c6, t6, d6, a6, k6, e6⟩ := Gen.cons_ok k5
  obtain ⟨b6, rfl⟩ := Gen.pure_ok a6
  obtain ⟨c7, t7, d7, a7, k7, e7⟩ := Gen.cons_ok k6
  obtain ⟨b7, rfl⟩ := Gen.pure_ok a7
  obtain ⟨c8, t8, d8, a8, k8, e8⟩ := Gen.cons_ok k7
  obtain ⟨b8, rfl⟩ := Gen.pure_ok a8
  obtain ⟨c9, t9, d9, a9, k9, e9⟩ := Gen.cons_ok k8
  obtain ⟨b9, rfl⟩ := Gen.pure_ok a9
  obtain ⟨c10, t10, d10, a10, k10, e10⟩ := Gen.cons_ok k9
  obtain ⟨b10, rfl⟩ := Gen.pure_ok a10
  obtain ⟨c11, t11, d11, a11, k11, e11⟩ := Gen.cons_ok k10
  obtain ⟨b11, rfl⟩ := Gen.pure_ok a11
  obtain ⟨c12, t12, d12, a12, k12, e12⟩ := Gen.cons_ok k11
  obtain ⟨b12, rfl⟩ := Gen.pure_ok a12
  obtain ⟨c13, t13, d13, a13, k13, e13⟩ := Gen.cons_ok k12
  obtain ⟨b13, rfl⟩ := Gen.pure_ok a13
  obtain ⟨c14, t14, d14, a14, k14, e14⟩ := Gen.cons_ok k13
  obtain ⟨b14, rfl⟩ := Gen.pure_ok a14
  obtain ⟨c15, t15, d15, a15, k15, e15⟩ := Gen.cons_ok k14
  obtain ⟨c16, t16, d16, a16, k16, e16⟩ := Gen.cons_ok k15
  obtain ⟨b16, rfl⟩ := Gen.pure_ok a16
  obtain ⟨e17, rfl⟩ := Gen.nil_ok k16
  have hl : 1 ≤ L := by
    rcases Nat.eq_zero_or_pos L with rfl | h'
    · rw [(c21_no_limit g).2 hug] at b11; cases b11
    · exact h'
  obtain ⟨ci, hi1, hi2⟩ := init_iff hg
  obtain ⟨cc, hc1, hc2⟩ := colouring_iff hg
  obtain ⟨cl, hl1, hl2⟩ := length_iff hg L hug hl
  obtain ⟨cin, hin1, hin2⟩ := inputs_iff hg hcol
  obtain ⟨cout, hout1, hout2⟩ := outputs_iff hg hcol o.alternating
  rw [hi1] at b1; cases b1
  cases b2
  cases b3
  rw [hin1] at b4; cases b4
  rw [hout1] at b5; cases b5
  cases b6
  cases b7
  cases b8
  rw [hc1] at b9; cases b9
  cases b10
  rw [hl1] at b11; cases b11
  refine ⟨⟨c12, c13, c14, c15, c16, hgd.symm, by omega, by omega, by omega, hl, ⟨_, _, hi1, e1⟩, b12, b13, b14, a15, b16, fun v => ?_⟩⟩
  simp only [e1, e2, e3, e4, e5, e6, e7, e8, e9, e10, e11, e12, e13, e14, e15, e16, e17, Sat_append, Sat_nil, and_true, hi2, hc2, hl2, hin2, hout2,
    Sat_intersection, Sat_underground, Sat_blockBelt hg, Sat_blockUg hg, interchangeEnds_iff, noSplitters_iff]
  constructor
  · rintro ⟨x1, x2, ⟨x3, x3'⟩, x4, x5, x6, x7, x8, x9, x10, x11, x12, x13, x14, x15, x16⟩
    exact ⟨⟨x1, x2, x3, x3', x4, x5, x6, x7, x8, x9, x10, x11⟩, x12, x13, x14, x15, x16⟩
  · rintro ⟨⟨x1, x2, x3, x3', x4, x5, x6, x7, x8, x9, x10, x11⟩, x12, x13, x14, x15, x16⟩
    exact ⟨x1, x2, ⟨x3, x3'⟩, x4, x5, x6, x7, x8, x9, x10, x11, x12, x13, x14, x15, x16⟩

/-! ### Soundness and completeness -/

theorem InterchangeParts.wf (P : InterchangeParts lib width height L o g cs s') : g.WF ∧ g.colours = some 2 ∧ g.ugLen = some L ∧ Flat g ∧
    g.width = width ∧ g.height = height ∧ g.LitsLe (interchangeVars width height) := by
  have hg := mkGrid_wf P.w P.h ⟨false, false⟩ (some 2) (some L) (by intro n h; cases h; omega) .nil 0
  have hb := (mkGrid_lits width height ⟨false, false⟩ (some 2) (some L) .nil 0).1
  rw [Nat.zero_add] at hb
  rw [P.gd]
  exact ⟨hg, rfl, rfl, rfl, rfl, rfl, hb⟩

theorem InterchangeParts.set_sem (P : InterchangeParts lib width height L o g cs s') (hl : Lays g (g.vals v) T) :
    Sat v P.set ↔ ∀ rows, o.partialLayout = some rows → Contains T rows := by
  have h := P.hset
  cases hp : o.partialLayout with
  | none =>
    rw [hp] at h
    rw [← Except.ok.inj h]; simp
  | some rows =>
    rw [hp] at h
    rw [setNonempty_sem hl h]; simp

theorem StaticSem.rules {C : Nat × Nat → CellVal} {alt : Bool} (hg : g.WF) (h : StaticSem g L alt C) (hlay : Lays g C T) :
    BasicRules g.In g.nb T (g.shut (.ofPair false true)) (g.shut (.ofBool true)) (some L) := by
  have hE : g.Sealed (.ofBool true) := fun d _ => by cases d <;> rfl
  refine ⟨fun p hp => (hlay p hp).basic, (splitterSem_iff hg hlay).1 h.init.splitter, joined_of_sem hg hlay h.inter, ends_of_sem hg hlay h.inter,
    ⟨fun p d hp ht => ?_, fun q d hq ht => ?_, fun p q d k hp hpair l hul => ?_⟩,
    (blockBelt_iff hlay _).1 h.blockBelt, underShut_of_sem hg hlay h.under h.blockUg⟩
  · obtain ⟨q, k, a, b, _⟩ := entrance_run hg hlay h.under h.blockUg hE hp ht
    exact ⟨q, k, a, b⟩
  · obtain ⟨p, k, a, b⟩ := exit_run hg hlay h.under h.blockUg hE hq ht
    exact ⟨p, k, a, b⟩
  · cases hul; exact pairs_len hg hlay h.under h.len hp hpair

theorem StaticSem.solved {alt : Bool} (hg : g.WF) (h : StaticSem g L alt (g.vals v)) (hT : Decodes g v T) : Solved g v T := by
  obtain ⟨ci, hi1, hi2⟩ := init_iff hg
  exact ⟨hg, ⟨ci, hi1, (hi2 v).2 h.init⟩, (Sat_intersection g v).2 h.inter, (Sat_underground g v).2 h.under, hT⟩

theorem StaticSem.plain_tiles {C : Nat × Nat → CellVal} {alt : Bool} (h : StaticSem g L alt C) (hlay : Lays g C T) {p : Nat × Nat}
    (hp : g.In p) : ¬ (T p).IsSplitter := by
  intro hs
  have := (hlay p hp).isSplitter_iff.2 hs
  rw [h.plain p hp] at this
  cases this

theorem InterchangeParts.sound (P : InterchangeParts lib width height L o g cs s') (hs : Sat v cs) (hT : Decodes g v T) :
    IsInterchange g.nb g.In (g.shut (.ofPair false true)) (g.shut (.ofBool true)) width height L o.alternating o.rotSymmetry T
      (fun p => value v (g.at' p).colour) ∧ ∀ rows, o.partialLayout = some rows → Contains T rows := by
  obtain ⟨hg, hcol, hug, hflat, hw, hh, _⟩ := P.wf
  have hbits : g.bits = 1 := by simp [Grid.bits, hcol]
  obtain ⟨hS, h1, h2, h3, h4, h5⟩ := (P.sat v).1 hs
  have hlay := lays_of_decodes hS.init hT
  have hrules := hS.rules hg hlay
  have hsolved := hS.solved hg hT
  have hplain : ∀ p, g.In p → ¬ (T p).IsSplitter := fun p hp => hS.plain_tiles hlay hp
  have hlen : ∀ p q d k, g.In p → UgPair g.nb T p q d k → k - 1 ≤ L := fun p q d k hp hpair => hrules.undergrounds.len p q d k hp hpair L rfl
  obtain ⟨co, ho1, ho2⟩ := optimisations_iff hsolved hflat hug hplain hlen o.rotSymmetry
  obtain ⟨cp, hp1, hp2⟩ := passing_iff hg hbits
  obtain ⟨ca, ha1, ha2⟩ := awkward_iff hg
  rw [Except.ok.inj (P.hopt.symm.trans ho1), ho2] at h1
  rw [Except.ok.inj (P.hpass.symm.trans hp1), hp2 v T hlay hplain] at h2
  rw [Except.ok.inj (P.hawk.symm.trans ha1), ha2 v T hlay hS.under hplain] at h3
  have hcr := colourRules_of_sem hg hlay hS.under hS.colour fun p hp => (hS.init.range p hp).1
  rw [hcol] at hcr
  refine ⟨⟨hrules, hplain, fun y hy => ?_, fun y hy => ?_, hcr, fun y hy => ?_, ?_, h2, h3, ?_, h1.2.1, fun hr x y hx hy => ?_,
    fun hr => (h1.2.2 hr).2⟩, (P.set_sem hlay).1 h5⟩
  · exact (hlay (0, y) ⟨hg.w, hh ▸ hy⟩).inp_takes (hS.entry y (hh ▸ hy))
  · have := hS.exit y (hh ▸ hy)
    rw [hw] at this
    exact (hlay (width - 1, y) ⟨by have := P.w; show width - 1 < g.width; omega, hh ▸ hy⟩).out_emits this
  · rw [← hh]; exact hS.inputs y (hh ▸ hy)
  · have := hS.outputs
    rw [hw, hh] at this
    split
    · rw [if_pos ‹_›] at this; exact this
    · rw [if_neg ‹_›] at this
      intro i hi heq
      have heq : binVal (g.vals v (width - 1, 2 * i)).colour = binVal (g.vals v (width - 1, 2 * i + 1)).colour := heq
      rcases this i (by omega) with ⟨a, b⟩ | ⟨a, b⟩ <;> rw [a, b] at heq <;> cases heq
  · rw [← hw, ← hh]; exact h1.1
  · have := rot_sound hlay hplain (h1.2.2 hr).1 (x, y) ⟨by rw [hw]; exact hx, by rw [hh]; exact hy⟩
    simp only [Grid.turned, hw, hh] at this
    exact this

theorem InterchangeParts.complete (hl : lib.Correct) (P : InterchangeParts lib width height L o g cs s') {col : Nat × Nat → Nat}
    (hI : IsInterchange g.nb g.In (g.shut (.ofPair false true)) (g.shut (.ofBool true)) width height L o.alternating o.rotSymmetry T col)
    (hset : ∀ rows, o.partialLayout = some rows → Contains T rows) :
    ∃ v, Sat v cs ∧ Decodes g v T ∧ ∀ p, g.In p → value v (g.at' p).colour = col p := by
  obtain ⟨hg, hcol, hug, hflat, hw, hh, hb⟩ := P.wf
  have hbits : g.bits = 1 := by simp [Grid.bits, hcol]
  have hr := hI.rules
  have hcr : ColourRules g.In g.nb T (g.colours.getD 1) col := by rw [hcol]; exact hI.colours
  have hl' := realise_lays (col := col) hg hr.basic hr.joined hr.ends
  obtain ⟨v0, _, hv0⟩ := mkGrid_free width height ⟨false, false⟩ (some 2) (some L) .nil 0 (fun _ => false) (realise g T col)
    (fun _ => List.replicate TFields.nil.variableCount false) (fun p => by simp [realise, drawCell, hbits])
    (fun p => by simp [realise, drawCell, hbits]) (fun p => by simp [realise, drawCell, hbits]) (fun p => by simp)
  rw [← P.gd] at hv0
  have hvals : ∀ p, g.In p → g.vals v0 p = realise g T col p := fun p hp => (hv0 p hp).1
  have hplain := hI.noSplitter
  have hcolr : ∀ p, g.In p → binVal (realise g T col p).colour = col p := fun p hp =>
    binVal_getBits_of_range _ _ (bits_lt hg (hcr.lt p hp))
  have c0 : ∀ y < g.height, g.In (0, y) := fun y hy => ⟨hg.w, hy⟩
  have cw : ∀ y < g.height, g.In (g.width - 1, y) := fun y hy => ⟨by have := hg.w; show g.width - 1 < g.width; omega, hy⟩
  have flow := fun p hp => (hl' p hp).flow (hplain p hp)
  have hstat : ∀ u, (∀ p, g.In p → g.vals u p = realise g T col p) → StaticSem g L o.alternating (g.vals u) := by
    intro u hu
    refine ⟨(realise_init hg hl' hr.splitters hcr.lt).congr hg hu, fun p hp => ?_, fun y hy => ?_, fun y hy => ?_, fun y hy => ?_, ?_,
      (realise_blockUg hg hl' hr.under).congr hu, ((blockBelt_iff hl' _).2 hr.surface).congr hu,
      (realise_underground hg hl' hr.undergrounds).congr hg hu, (realise_colour hg hl' hr.undergrounds hcr).congr hg hu,
      (realise_intersection hg hr.basic hr.joined hr.ends).congr hg hu, (realise_length hg hr.undergrounds).congr hg hu⟩
    · rw [hu p hp]; exact (hl' p hp).isSplitter_false (hplain p hp)
    · rw [hu _ (c0 y hy), (flow _ (c0 y hy)).1, decide_eq_true_iff]
      exact hI.entry y (hh ▸ hy)
    · rw [hu _ (cw y hy), (flow _ (cw y hy)).2, decide_eq_true_iff, hw]
      exact hI.exit y (hh ▸ hy)
    · rw [hu _ (c0 y hy), hcolr _ (c0 y hy), hh]
      exact hI.inputs y (hh ▸ hy)
    · have := hI.outputs
      split
      · rw [if_pos ‹_›] at this
        intro y hy
        rw [hu _ (cw y hy), hcolr _ (cw y hy), hw]
        exact this y (hh ▸ hy)
      · rw [if_neg ‹_›] at this
        intro i hi
        have i0 := cw (2 * i) (by omega)
        have i1 := cw (2 * i + 1) (by omega)
        rw [hu _ i0, hu _ i1, hcolr _ i0, hcolr _ i1]
        have l0 := hI.colours.lt _ i0
        have l1 := hI.colours.lt _ i1
        have := this i (by omega)
        rw [hw] at l0 l1 ⊢
        omega
  have hmove := (requireTransport_enc hl hg hb (by rw [hbits]; omega) (show g.height = 2 * (height / 2) by have := P.even; omega)).enc _ le_rfl _ _ P.hmove
  have hS0 := hstat v0 hvals
  have hlays : ∀ u, (∀ p, g.In p → g.vals u p = realise g T col p) → Lays g (g.vals u) T := fun u hu p hp => by
    rw [hu p hp]; exact hl' p hp
  obtain ⟨v, hv, hmv⟩ := hmove.complete v0 (cuts_of (n := height / 2) ⟨hg, hlays v0 hvals, hplain, hS0.inter, hS0.under, hS0.colour⟩ hflat
    ⟨hS0.blockBelt, hS0.blockUg⟩ hS0.entry hS0.exit (by have := P.even; omega) (fun y hy => by
      rw [hS0.inputs y hy, inputKind, hh]) (fun i hi => by
        have := hS0.outputs
        split at this
        · have a := this (2 * i) (by omega)
          have b := this (2 * i + 1) (by omega)
          rw [a, b]; omega
        · exact this i (by omega)))
  have hu : ∀ p, g.In p → g.vals v p = realise g T col p := fun p hp => (g.vals_agree hb hv hp).trans (hvals p hp)
  have hS := hstat v hu
  have hlay := hlays v hu
  have hT := decodes_of_lays hlay
  have hsolved := hS.solved hg hT
  have hval : ∀ p, g.In p → value v (g.at' p).colour = col p := fun p hp => by
    show binVal (g.vals v p).colour = _
    rw [hu p hp]; exact hcolr p hp
  have hlen : ∀ p q d k, g.In p → UgPair g.nb T p q d k → k - 1 ≤ L := fun p q d k hp hpair => hr.undergrounds.len p q d k hp hpair L rfl
  obtain ⟨co, ho1, ho2⟩ := optimisations_iff hsolved hflat hug hplain hlen o.rotSymmetry
  obtain ⟨cp, hp1, hp2⟩ := passing_iff hg hbits
  obtain ⟨ca, ha1, ha2⟩ := awkward_iff hg
  refine ⟨v, (P.sat v).2 ⟨hS, ?_, ?_, ?_, hmv, (P.set_sem hlay).2 hset⟩, hT, hval⟩
  · rw [Except.ok.inj (P.hopt.symm.trans ho1), ho2, hw, hh]
    refine ⟨hI.tidy, hI.zigzags, fun hrot => ⟨?_, hI.expanded hrot⟩⟩
    have hsym : Symmetric g T := fun p hp => by
      have := hI.symmetric hrot p.1 p.2 (hw ▸ hp.1) (hh ▸ hp.2)
      simp only [Grid.turned, hw, hh]
      exact this
    have := rot_complete (col := col) hg hflat hl' hplain hsym
    intro p hp
    rw [hu p hp, hu _ (turned_in hp)]
    exact this p hp
  · rw [Except.ok.inj (P.hpass.symm.trans hp1), hp2 v T hlay hplain]
    rintro p d hp ⟨a, b, e, e1, e2, e3, t1, t2, t3, t4, k1, k2, k3⟩
    have ia := Grid.nb_in hg e1
    have ib := Grid.nb_in hg e2
    have ie := Grid.nb_in hg e3
    beta_reduce at k1 k2 k3
    rw [hval p hp] at k1 k2 k3
    rw [hval a ia] at k1
    rw [hval b ib] at k2
    rw [hval e ie] at k3
    exact hI.passing p d hp ⟨a, b, e, e1, e2, e3, t1, t2, t3, t4, k1, k2, k3⟩
  · rw [Except.ok.inj (P.hawk.symm.trans ha1), ha2 v T hlay hS.under hplain]
    exact hI.awkward

end

end FSat
