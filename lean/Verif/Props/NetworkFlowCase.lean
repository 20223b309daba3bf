import Verif.Props.NetworkFlow
import Verif.Props.BalancerBuilds
import Verif.Props.PowerOfTwoCase
import Verif.Props.Mirror
/-!
# C77: examples, and two splitters one in front of the other
-/

set_option linter.unusedVariables false
set_option linter.unusedSimpArgs false

namespace FSat

/-! ### Checking finite layouts -/

instance (s t : Colour × Colour) : Decidable (SameSide s t) := by unfold SameSide; infer_instance

/-- Whether the splitter with its head at `p` is wired as the node says. -/
def wiredB {P : Type} [DecidableEq P] (nb : P → Dir → Option P) (T : P → Tile) (F : Flow P) (k : Node) (p : P) (d : Dir) : Bool :=
  match nb p d.ccw, nb p d with
  | some q, some p' =>
    match nb q d with
    | some q' => decide (T q = .splitter d false) &&
        decide (SameSide (colourIf (F.inp p d) (F.col p), colourIf (F.inp q d) (F.col q)) k.1 ∧
          SameSide (colourIf (F.out p d) (F.col p'), colourIf (F.out q d) (F.col q')) k.2)
    | none => false
  | _, _ => false

def realisesB {P : Type} [DecidableEq P] (nb : P → Dir → Option P) (T : P → Tile) (F : Flow P) (cells : List P) (n : Network)
    (lab : P → Option Node) : Bool :=
  decide ((cells.filterMap lab).Perm n) && cells.all fun p =>
    match lab p, T p with
    | some k, .splitter d true => wiredB nb T F k p d
    | some _, _ => false
    | none, .splitter _ true => false
    | none, _ => true

theorem realises_of_check {P : Type} [DecidableEq P] {nb : P → Dir → Option P} {T : P → Tile} {F : Flow P} {cells : List P} {n : Network}
    {lab : P → Option Node} (h : realisesB nb T F cells n lab = true) : Realises nb T F cells n lab := by
  unfold realisesB at h
  rw [Bool.and_eq_true, decide_eq_true_eq, List.all_eq_true] at h
  obtain ⟨hp, ha⟩ := h
  refine ⟨fun p hpc => ?_, fun k => ?_, fun p hpc k d hk hd => ?_⟩
  · have := ha p hpc
    cases hl : lab p with
    | none =>
      rw [hl] at this
      refine ⟨fun ⟨_, h⟩ => (by cases h), fun ⟨d, hd⟩ => ?_⟩
      rw [hd] at this; cases this
    | some k =>
      rw [hl] at this
      refine ⟨fun _ => ?_, fun _ => ⟨k, rfl⟩⟩
      cases ht : T p with
      | splitter d b =>
        cases b with
        | true => exact ⟨d, rfl⟩
        | false => rw [ht] at this; cases this
      | _ => rw [ht] at this; cases this
  · rw [← hp.count_eq, List.count, List.countP_filterMap]
    refine List.countP_congr fun p _ => ?_
    cases hl : lab p with
    | none => simp
    | some k' => simp
  · have := ha p hpc
    rw [hk, hd] at this
    simp only at this
    unfold wiredB at this
    split at this
    · rename_i q p' e1 e2
      split at this
      · rename_i q' e3
        rw [Bool.and_eq_true, decide_eq_true_eq, decide_eq_true_eq] at this
        exact ⟨q, p', q', ⟨hd, e1, this.1⟩, e2, e3, this.2.1, this.2.2⟩
      · cases this
    · cases this

/-- In the game, what a splitter half gets. -/
def getsB (g : Grid) (T : Nat × Nat → Tile) (supplied : Nat × Nat → Bool) (F : Nat × Nat → ℚ) (p : Nat × Nat) (d : Dir) : ℚ :=
  match g.nb p d.opp with
  | none => if supplied p then F p else 0
  | some r => if (T r).Emits d ∧ (T p).Takes d then F p else 0

/-- In the game, how many outputs a splitter half has. -/
def outletsB (g : Grid) (T : Nat × Nat → Tile) (p : Nat × Nat) (d : Dir) : ℚ :=
  match g.nb p d with
  | none => 0
  | some r => if (T p).Emits d ∧ (T r).Takes d then 1 else 0

theorem gets_eq {g : Grid} (hg : g.WF) {T : Nat × Nat → Tile} {supplied : Nat × Nat → Bool} {F : Nat × Nat → ℚ} {p : Nat × Nat} (hp : g.In p)
    (d : Dir) : gets g.In g.nb (Connected g.nb T) (fun p => supplied p = true) F p d = getsB g T supplied F p d := by
  unfold gets getsB FedAt Connected
  cases hn : g.nb p d.opp with
  | none =>
    have : ¬ ∃ r, g.In r ∧ g.nb r d = some p ∧ (T r).Emits d ∧ (T p).Takes d := by
      rintro ⟨r, hr, h, _⟩
      rw [g.nb_opp hg hr h] at hn; cases hn
    simp only [this, false_or, true_and]
  | some r =>
    have h1 := g.nb_opp hg hp hn
    rw [Dir.opp_opp] at h1
    have : (∃ r, g.In r ∧ g.nb r d = some p ∧ (T r).Emits d ∧ (T p).Takes d) ↔ (T r).Emits d ∧ (T p).Takes d := by
      constructor
      · rintro ⟨r', hr', h, h'⟩
        have := g.nb_opp hg hr' h
        rw [hn] at this; cases this; exact h'
      · exact fun h => ⟨r, g.nb_in hg hn, h1, h⟩
    simp only [this, reduceCtorEq, false_and, or_false]

theorem outlets_game {g : Grid} {T : Nat × Nat → Tile} (p : Nat × Nat) (d : Dir) : outlets (Connected g.nb T) p d = outletsB g T p d := by
  unfold outlets outletsB Connected
  cases hn : g.nb p d with
  | none => simp
  | some r =>
    have : (∃ q, some r = some q ∧ (T p).Emits d ∧ (T q).Takes d) ↔ (T p).Emits d ∧ (T r).Takes d :=
      ⟨fun ⟨q, h, h'⟩ => by cases h; exact h', fun h => ⟨r, rfl, h⟩⟩
    simp only [this]

/-- Checks a flow on a layout without undergrounds, cell by cell. -/
def carriesB (g : Grid) (T : Nat × Nat → Tile) (supplied : Nat × Nat → Bool) (F : Nat × Nat → ℚ) : Bool :=
  g.cells.all fun p => Dir.all.all fun d =>
    (match T p with | .underground _ _ => false | _ => true) &&
    (match g.nb p d with
      | none => true
      | some q => (match T p with | .splitter _ _ => true | _ => false) || !(decide ((T p).Emits d ∧ (T q).Takes d)) || decide (F q = F p)) &&
    (match T p, g.nb p d.ccw with
      | .splitter e true, some q => if e = d ∧ T q = .splitter d false then
          [p, q].all fun s => match g.nb s d with
            | none => true
            | some r => !(decide ((T s).Emits d ∧ (T r).Takes d)) ||
                decide (F r * (outletsB g T p d + outletsB g T q d) = getsB g T supplied F p d + getsB g T supplied F q d)
          else true
      | _, _ => true)

theorem carries_of_check {g : Grid} (hg : g.WF) {T : Nat × Nat → Tile} {supplied : Nat × Nat → Bool} {F : Nat × Nat → ℚ}
    (h : carriesB g T supplied F = true) : Carries g.In g.nb T (Connected g.nb T) (fun p => supplied p = true) F := by
  unfold carriesB at h
  rw [List.all_eq_true] at h
  have key : ∀ p, g.In p → ∀ d, _ := fun p hp d => by
    have h1 := h p ((g.mem_cells p).2 hp)
    rw [List.all_eq_true] at h1
    have h2 := h1 d (by cases d <;> simp [Dir.all])
    rw [Bool.and_eq_true, Bool.and_eq_true] at h2
    exact h2
  refine ⟨fun p q d hp hc hs => ?_, fun p q d k hp hu => ?_, fun p q d hp hq hpr r hr => ?_⟩
  · have := (key p hp d).1.2
    rw [hc.1] at this
    simp only [Bool.or_eq_true, Bool.not_eq_true', decide_eq_false_iff_not, decide_eq_true_eq] at this
    rcases this with (h | h) | h
    · split at h
      · rename_i e b ht; exact absurd ⟨e, b, ht⟩ hs
      · cases h
    · exact absurd hc.2 h
    · exact h
  · have := (key p hp d).1.1
    rw [hu.2.2.1] at this; cases this
  · have := (key p hp d).2
    rw [hpr.1, hpr.2.1] at this
    simp only [hpr.2.2, and_self, if_true, List.all_cons, List.all_nil, Bool.and_true, Bool.and_eq_true] at this
    rw [gets_eq hg hp, gets_eq hg hq, outlets_game, outlets_game]
    rcases hr with hr | hr
    · have h1 := this.1
      rw [hr.1] at h1
      simp only [Bool.or_eq_true, Bool.not_eq_true', decide_eq_false_iff_not, decide_eq_true_eq] at h1
      exact h1.resolve_left fun hn => hn (hpr.1 ▸ hr.2)
    · have h1 := this.2
      rw [hr.1] at h1
      simp only [Bool.or_eq_true, Bool.not_eq_true', decide_eq_false_iff_not, decide_eq_true_eq] at h1
      exact h1.resolve_left fun hn => hn (hpr.2.2 ▸ hr.2)

/-! ### A network, and a layout printed for it in which one splitter leaks into another -/

/-- A balancer for two belts: a splitter, and then for each belt a splitter that divides it and one that joins it again. -/
def leakNet : PyDict Node Nat :=
  [(((some 0, some 0), (some 1, some 1)), 1), (((some 1, none), (some 2, some 2)), 2), (((some 2, some 2), (some 3, none)), 2)]

theorem leakNet_elements : elements leakNet = [((some 0, some 0), (some 1, some 1)), ((some 1, none), (some 2, some 2)),
    ((some 1, none), (some 2, some 2)), ((some 2, some 2), (some 3, none)), ((some 2, some 2), (some 3, none))] := rfl

theorem leakNet_balancer : IsBalancer (elements leakNet) 0 3 := by
  intro flow inputs outputs hf
  obtain ⟨flow', h1, h2⟩ := perm_of_map hf.nodes
  have hs : ∀ x ∈ flow', Shares x.1 x.2 := fun x hx => hf.shares x (h1.mem_iff.1 hx)
  have hc : ∀ c : Int, leaving flow' (some c) + (if c = 0 then inputs else 0) = arriving flow' (some c) + (if c = 3 then outputs else 0) := by
    intro c
    rw [leaving_perm h1, arriving_perm h1]
    exact hf.connected c
  rw [leakNet_elements] at h2
  obtain ⟨y1, r1, rfl, e1, h2⟩ := List.map_eq_cons_iff.1 h2
  obtain ⟨y2, r2, rfl, e2, h2⟩ := List.map_eq_cons_iff.1 h2
  obtain ⟨y3, r3, rfl, e3, h2⟩ := List.map_eq_cons_iff.1 h2
  obtain ⟨y4, r4, rfl, e4, h2⟩ := List.map_eq_cons_iff.1 h2
  obtain ⟨y5, r5, rfl, e5, h2⟩ := List.map_eq_cons_iff.1 h2
  rw [List.map_eq_nil_iff] at h2
  subst h2
  have s1 := hs y1 (by simp)
  have s2 := hs y2 (by simp)
  have s3 := hs y3 (by simp)
  have s4 := hs y4 (by simp)
  have s5 := hs y5 (by simp)
  rw [e1] at s1
  rw [e2] at s2
  rw [e3] at s3
  rw [e4] at s4
  rw [e5] at s5
  have c1 := hc 1
  have c2 := hc 2
  have c3 := hc 3
  simp only [leaving_cons, arriving_cons, e1, e2, e3, e4, e5] at c1 c2 c3
  simp [leaving, arriving] at c1 c2 c3
  have o1 := s1.out1
  have o2 := s1.out2
  have p1 := s2.out1
  have p2 := s2.out2
  have q1 := s3.out1
  have q2 := s3.out2
  have i2 := s2.in2 rfl
  have i3 := s3.in2 rfl
  have t1 := s4.out1
  have t2 := s5.out1
  simp [Node.outputs] at o1 o2 p1 p2 q1 q2 t1 t2 i2 i3
  have m2 : y2.2.1.1 ∈ (y1.2.2.1 ::ₘ {y1.2.2.2} : Multiset ℚ) := by rw [c1]; simp
  have m3 : y3.2.1.1 ∈ (y1.2.2.1 ::ₘ {y1.2.2.2} : Multiset ℚ) := by rw [c1]; simp
  simp only [Multiset.mem_cons, Multiset.mem_singleton] at m2 m3
  have e : ∀ z ∈ (y5.2.1.1 ::ₘ y4.2.1.1 ::ₘ y4.2.1.2 ::ₘ {y5.2.1.2} : Multiset ℚ), z * 4 = y1.2.1.1 + y1.2.1.2 := by
    rw [← c2]
    intro z hz
    simp only [Multiset.mem_cons, Multiset.mem_singleton] at hz
    rcases hz with rfl | rfl | rfl | rfl <;> rcases m2 with m2 | m2 <;> rcases m3 with m3 | m3 <;> linarith
  have f1 := e y4.2.1.1 (by simp)
  have f2 := e y4.2.1.2 (by simp)
  have f3 := e y5.2.1.1 (by simp)
  have f4 := e y5.2.1.2 (by simp)
  have g : ∀ x ∈ outputs, x * 2 = y1.2.1.1 + y1.2.1.2 := by
    rw [← c3]
    intro x hx
    simp only [Multiset.mem_cons, Multiset.mem_singleton] at hx
    rcases hx with rfl | rfl <;> linarith
  intro x hx y hy
  linarith [g x hx, g y hy]

/-- The layout: all belts and splitters face to the right.  The third splitter (at x = 3) joins a belt; its second output is not to be
used, but the fourth splitter (at x = 4) is directly in front of it. -/
def leakAsg : Asg := cellsAsg 29 [
  exCell 1 false false false false false 0 [false, false, false], exCell 1 false false false false false 0 [false, false, false],
  exCell 2 false false false false true 1 [false, false, false], exCell 2 false false false true true 2 [false, false, false],
  exCell 0 false false false true true 3 [false, false, false], exCell 0 false false false true true 3 [false, false, false],
  exCell 0 false false true true true 3 [false, false, false],
  exCell 0 false true false true true 0 [false, false, false], exCell 2 false false false true true 0 [false, false, false],
  exCell 2 true false false true true 1 [false, true, false], exCell 2 true false false true false 2 [false, false, true],
  exCell 2 false false false false true 1 [false, false, false], exCell 2 false false false true true 2 [false, false, false],
  exCell 0 false false true true true 3 [false, false, false],
  exCell 0 false true false true true 0 [false, false, false], exCell 2 true false false true true 0 [true, false, false],
  exCell 0 false false false true true 1 [false, false, false], exCell 0 false false false true true 1 [false, false, false],
  exCell 2 true false false true true 1 [false, true, false], exCell 2 true false false true false 2 [false, false, true],
  exCell 1 false false false false false 0 [false, false, false]]

def leakGrid : Grid := mkGrid 7 3 ⟨false, false⟩ (some 4) (some 4) (nodeFields 3) 0

def leakLayout (p : Nat × Nat) : Tile :=
  if p = (0, 0) ∨ p = (1, 0) ∨ p = (6, 2) then .empty
  else if p = (2, 0) ∨ p = (3, 0) ∨ p = (1, 1) ∨ p = (4, 1) ∨ p = (5, 1) then .splitter .right false
  else if p = (2, 1) ∨ p = (3, 1) ∨ p = (1, 2) ∨ p = (4, 2) ∨ p = (5, 2) then .splitter .right true
  else .belt .right .right

def leakLabel (p : Nat × Nat) : Option Node :=
  if p = (1, 2) then some ((some 0, some 0), (some 1, some 1))
  else if p = (2, 1) ∨ p = (4, 2) then some ((some 1, none), (some 2, some 2))
  else if p = (3, 1) ∨ p = (5, 2) then some ((some 2, some 2), (some 3, none))
  else none

/-- How much each belt carries in the game, with 4 on each of the two inputs. -/
def leakFlow (p : Nat × Nat) : ℚ :=
  if p = (6, 1) then 6 else if p = (5, 1) ∨ p = (5, 2) then 3
  else if p = (3, 0) ∨ p = (3, 1) ∨ p = (4, 0) ∨ p = (4, 1) ∨ p = (5, 0) ∨ p = (6, 0) then 2 else 4

theorem leakGrid_wf : leakGrid.WF := mkGrid_wf (by decide) (by decide) _ _ _ (by intro n h; cases h; omega) _ _

theorem leak_decodes : Decodes leakGrid leakAsg leakLayout := by
  have key : ∀ x < 7, ∀ y < 3, (decodeCell leakGrid leakAsg (x, y)).toOption = some (leakLayout (x, y)) := by decide +kernel
  intro p hp
  have := key p.1 hp.1 p.2 hp.2
  cases h : decodeCell leakGrid leakAsg p with
  | error e => rw [show (p.1, p.2) = p from rfl, h] at this; cases this
  | ok t => rw [show (p.1, p.2) = p from rfl, h] at this; simpa [Except.toOption] using this

theorem leak_init : okSat leakAsg (initClauses leakGrid) = true := by decide +kernel
theorem leak_colour : okSat leakAsg (preventBadColouring leakGrid) = true := by decide +kernel
theorem leak_block : okSat leakAsg (.ok (blockUnderground leakGrid (.ofBool true))) = true := by decide +kernel
theorem leak_under : okSat leakAsg (.ok (preventBadUndergrounding leakGrid)) = true := by decide +kernel
theorem leak_inter : okSat leakAsg (.ok (preventIntersection leakGrid)) = true := by decide +kernel
theorem leak_realises : Realises leakGrid.nb leakLayout (leakGrid.flow leakAsg) leakGrid.cells (elements leakNet) leakLabel :=
  realises_of_check (by decide +kernel)
theorem leak_carries : Carries leakGrid.In leakGrid.nb leakLayout (Connected leakGrid.nb leakLayout)
    (fun p => ev leakAsg (leakGrid.at' p).isInput = true) leakFlow :=
  carries_of_check leakGrid_wf (supplied := fun p => ev leakAsg (leakGrid.at' p).isInput) (by decide +kernel)
theorem leak_ends : Ends (elements leakNet) 0 2 3 2 := (gio_iff _ _ _ _ _).1 (by decide)

/-- C77 is false without the condition that no splitter is directly in front of another one.  `leakNet` is a balancer, and the solver
prints a layout for it in which, with the same amount on both inputs, one output carries three times as much as the other. -/
theorem c77_adjacent_refuted : ∃ (lib : CardLib) (net : PyDict Node Nat) (width height : Nat) (ugLen : Option Nat) (g : Grid)
    (node : Nat × Nat → List Lit) (cs : Cnf) (s' : Nat) (v : Asg) (T : Nat × Nat → Tile) (a m b n : Int) (F : Nat × Nat → ℚ),
    lib.Correct ∧ net.Valid ∧ (∀ c ∈ netColours net, 0 ≤ c) ∧ createBalancer lib net width height ugLen = .ok (g, node, cs, s') ∧
    2 ≤ width ∧ 2 ≤ height ∧ Sat v cs ∧ Sat v (preventIntersection g) ∧ Decodes g v T ∧ Ends (elements net) a m b n ∧
    IsBalancer (elements net) a b ∧ Carries g.In g.nb T (Connected g.nb T) (fun p => ev v (g.at' p).isInput = true) F ∧
    (∀ p q, g.In p → g.In q → ev v (g.at' p).isInput = true → ev v (g.at' q).isInput = true → F p = F q) ∧
    ∃ p q, g.In p ∧ g.In q ∧ LeavesAt g.nb T p ∧ LeavesAt g.nb T q ∧ F p = 3 * F q ∧ F q ≠ 0 := by
  have hpos : ∀ c ∈ netColours leakNet, 0 ≤ c := by decide
  have hval : leakNet.Valid := by unfold PyDict.Valid; decide
  obtain ⟨⟨g, node, cs, s'⟩, hc⟩ := c78_builds (lib := naiveLib) (fun ls n s hn _ => naiveLib_total ls n s hn) (net := leakNet) (by decide)
    hpos leak_ends (by decide) (width := 7) (height := 3) (by decide) (by decide) (by decide) (by decide) (by decide) (some 4)
  have hg : g = leakGrid := createBalancer_grid hc (m := 3) (by decide)
  subst hg
  obtain ⟨ci, hci, hi⟩ := okSat_iff.1 leak_init
  obtain ⟨cc, hcc, hcs⟩ := okSat_iff.1 leak_colour
  obtain ⟨cb, hcb, hb⟩ := okSat_iff.1 leak_block
  obtain ⟨cu, hcu, hu⟩ := okSat_iff.1 leak_under
  obtain ⟨cx, hcx, hx⟩ := okSat_iff.1 leak_inter
  cases hcb; cases hcu; cases hcx
  have hin : ∀ x < 7, ∀ y < 3, ev leakAsg (leakGrid.at' (x, y)).isInput = true → (leakGrid.flow leakAsg).col (x, y) = 0 ∧ leakFlow (x, y) = 4 := by
    decide +kernel
  have hout : ∀ x < 7, ∀ y < 3, ev leakAsg (leakGrid.at' (x, y)).isOutput = true → (leakGrid.flow leakAsg).col (x, y) = 3 := by decide +kernel
  obtain ⟨v', hv', hs⟩ := c27_complete naiveLib_correct hval hpos hc leakAsg hci hi hb hu hcc hcs
    (by
      intro c hc' hn
      have : ∀ c : Nat, c < 4 → (c : Int) ∈ netColours leakNet := by decide
      exact absurd (this c hc') hn)
    leakLayout leak_decodes leakLabel leak_realises 0 2 3 2 leak_ends (by decide +kernel) (by decide +kernel)
    (fun p hp h => by have := (hin p.1 hp.1 p.2 hp.2 h).1; exact_mod_cast this)
    (fun p hp h => by have := hout p.1 hp.1 p.2 hp.2 h; exact_mod_cast this)
  have hI : ∀ p, leakGrid.In p → ev v' (leakGrid.at' p).isInput = ev leakAsg (leakGrid.at' p).isInput := fun p hp =>
    congrArg CellVal.isInput (hv' p hp)
  refine ⟨naiveLib, leakNet, 7, 3, some 4, leakGrid, node, cs, s', v', leakLayout, 0, 2, 3, 2, leakFlow, naiveLib_correct, hval, hpos, hc,
    by decide, by decide, hs, ?_, ?_, leak_ends, leakNet_balancer, ?_, ?_, ?_⟩
  · rw [Sat_intersection] at hx ⊢
    intro d p q hp hn
    have h1 : leakGrid.vals v' p = leakGrid.vals leakAsg p := hv' p hp
    have h2 : leakGrid.vals v' q = leakGrid.vals leakAsg q := hv' q (leakGrid.nb_in leakGrid_wf hn)
    rw [h1, h2]
    exact hx d p q hp hn
  · intro p hp
    have := leak_decodes p hp
    unfold decodeCell at this ⊢
    rw [hv' p hp]; exact this
  · have h := leak_carries
    have hgets : ∀ p, leakGrid.In p → ∀ d, gets leakGrid.In leakGrid.nb (Connected leakGrid.nb leakLayout)
        (fun p => ev v' (leakGrid.at' p).isInput = true) leakFlow p d = gets leakGrid.In leakGrid.nb (Connected leakGrid.nb leakLayout)
        (fun p => ev leakAsg (leakGrid.at' p).isInput = true) leakFlow p d := by
      intro p hp d
      have h : FedAt leakGrid.In leakGrid.nb (Connected leakGrid.nb leakLayout) (fun p => ev v' (leakGrid.at' p).isInput = true) p d =
          FedAt leakGrid.In leakGrid.nb (Connected leakGrid.nb leakLayout) (fun p => ev leakAsg (leakGrid.at' p).isInput = true) p d := by
        unfold FedAt
        simp only [hI p hp]
      unfold gets
      split_ifs with h1 h2 h2
      · rfl
      · exact absurd (h.mp h1) h2
      · exact absurd (h.mpr h2) h1
      · rfl
    refine ⟨h.surface, h.under, fun p q d hp hq hpr r hr => ?_⟩
    rw [hgets p hp, hgets q hq]
    exact h.splitter p q d hp hq hpr r hr
  · intro p q hp hq h1 h2
    rw [hI p hp] at h1
    rw [hI q hq] at h2
    rw [show leakFlow p = 4 from (hin p.1 hp.1 p.2 hp.2 h1).2, show leakFlow q = 4 from (hin q.1 hq.1 q.2 hq.2 h2).2]
  · exact ⟨(6, 1), (6, 0), by decide, by decide, ⟨.right, by decide, by decide⟩, ⟨.right, by decide, by decide⟩,
      by norm_num [leakFlow], by norm_num [leakFlow]⟩

/-! ### Cases that meet the hypotheses -/

/-- One splitter between two rows of belts. -/
def exShareAsg : Asg := cellsAsg 24 [
  exOneCell 0 false true false true false false, exOneCell 2 false false false true false false, exOneCell 0 false false true true true false,
  exOneCell 0 false true false true false false, exOneCell 2 true false false true false true, exOneCell 0 false false true true true false]

def exShareGrid : Grid := mkGrid 3 2 ⟨false, false⟩ (some 2) (some 4) (nodeFields 1) 0

def exShareLayout (p : Nat × Nat) : Tile := if p.1 = 1 then .splitter .right (p.2 == 1) else .belt .right .right

theorem exShare_sat : okSat exShareAsg (balancerCnf (createBalancer naiveLib exOne 3 2 (some 4))) = true := by decide +kernel

theorem exShare_ok : ∃ node cs s', createBalancer naiveLib exOne 3 2 (some 4) = .ok (exShareGrid, node, cs, s') ∧ Sat exShareAsg cs := by
  obtain ⟨cs, h1, h2⟩ := okSat_iff.1 exShare_sat
  unfold balancerCnf at h1
  split at h1
  · cases h1
  · rename_i g node cs' s' h
    cases h1
    have := createBalancer_grid h (m := 1) (by decide)
    subst this
    exact ⟨node, _, s', h, h2⟩

theorem exShare_decodes : Decodes exShareGrid exShareAsg exShareLayout := by
  have key : ∀ x < 3, ∀ y < 2, (decodeCell exShareGrid exShareAsg (x, y)).toOption = some (exShareLayout (x, y)) := by decide +kernel
  intro p hp
  have := key p.1 hp.1 p.2 hp.2
  cases h : decodeCell exShareGrid exShareAsg p with
  | error e => rw [show (p.1, p.2) = p from rfl, h] at this; cases this
  | ok t => rw [show (p.1, p.2) = p from rfl, h] at this; simpa [Except.toOption] using this

theorem exOne_balancer : IsBalancer (elements exOne) 0 1 := by
  intro flow inputs outputs hf
  obtain ⟨flow', h1, h2⟩ := perm_of_map hf.nodes
  have hs : ∀ x ∈ flow', Shares x.1 x.2 := fun x hx => hf.shares x (h1.mem_iff.1 hx)
  have hc := hf.connected 1
  rw [← leaving_perm h1, ← arriving_perm h1] at hc
  rw [show elements exOne = [((some 0, some 0), (some 1, some 1))] from rfl] at h2
  obtain ⟨y1, r1, rfl, e1, h2⟩ := List.map_eq_cons_iff.1 h2
  rw [List.map_eq_nil_iff] at h2
  subst h2
  have s1 := hs y1 (by simp)
  rw [e1] at s1
  simp only [leaving_cons, arriving_cons, e1] at hc
  simp [leaving, arriving] at hc
  have o1 := s1.out1
  have o2 := s1.out2
  simp [Node.outputs] at o1 o2
  rw [← hc]
  intro x hx y hy
  simp only [Multiset.mem_cons, Multiset.mem_singleton] at hx hy
  rcases hx with rfl | rfl <;> rcases hy with rfl | rfl <;> linarith

/-- What arrives on the two belts, 1 and 5, is shared: 3 and 3. -/
def exShareFlow (p : Nat × Nat) : ℚ := if p.1 = 2 then 3 else if p.2 = 0 then 1 else 5

/-- All the hypotheses of `c77_balances_partial` hold for a splitter between two rows of belts. -/
theorem exShare_case : ∃ node cs s', exOne.Valid ∧ (∀ c ∈ netColours exOne, 0 ≤ c) ∧
    createBalancer naiveLib exOne 3 2 (some 4) = .ok (exShareGrid, node, cs, s') ∧ Sat exShareAsg cs ∧
    Sat exShareAsg (preventIntersection exShareGrid) ∧ Decodes exShareGrid exShareAsg exShareLayout ∧ Ends (elements exOne) 0 2 1 2 ∧
    IsBalancer (elements exOne) 0 1 ∧
    (∀ p q d, exShareGrid.In p → Connected exShareGrid.nb exShareLayout p q d →
      ¬ ((exShareLayout p).IsSplitter ∧ (exShareLayout q).IsSplitter)) ∧
    Carries exShareGrid.In exShareGrid.nb exShareLayout (Connected exShareGrid.nb exShareLayout)
      (fun p => ev exShareAsg (exShareGrid.at' p).isInput = true) exShareFlow := by
  obtain ⟨node, cs, s', h1, h2⟩ := exShare_ok
  refine ⟨node, cs, s', by unfold PyDict.Valid; decide, by decide, h1, h2, ?_, exShare_decodes, (gio_iff _ _ _ _ _).1 (by decide),
    exOne_balancer, ?_, ?_⟩
  · exact (okSat_iff (v := exShareAsg) (e := .ok (preventIntersection exShareGrid))).1 (by decide +kernel) |>.elim
      fun c h => by cases h.1; exact h.2
  · rintro ⟨x, y⟩ q d ⟨hx, hy⟩ hc ⟨⟨e, b, hp⟩, ⟨e', b', hq⟩⟩
    have key : ∀ x < 3, ∀ y < 2, ∀ d ∈ Dir.all, ∀ q, exShareGrid.nb (x, y) d = some q → x = 1 → (d = .right ∨ d = .left) → q.1 ≠ 1 := by
      intro x hx y hy d hd q hq
      have : ∀ x < 3, ∀ y < 2, ∀ d ∈ Dir.all, x = 1 → (d = .right ∨ d = .left) → (exShareGrid.nb (x, y) d).all (fun q => q.1 != 1) = true := by
        decide +kernel
      intro h1 h2
      have := this x hx y hy d hd h1 h2
      rw [hq] at this
      simpa using this
    unfold exShareLayout at hp hq
    split at hp
    · rename_i h1
      split at hq
      · rename_i h2
        refine key x hx y hy d (by cases d <;> simp [Dir.all]) q hc.1 h1 ?_ h2
        have := hc.2.1
        unfold exShareLayout at this
        rw [if_pos h1] at this
        cases d <;> simp_all [Tile.Emits]
      · cases hq
    · cases hp
  · exact carries_of_check (mkGrid_wf (by decide) (by decide) _ _ _ (by intro n h; cases h; omega) _ _)
      (supplied := fun p => ev exShareAsg (exShareGrid.at' p).isInput) (by decide +kernel)

end FSat
