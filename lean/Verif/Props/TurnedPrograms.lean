import Verif.Spec.TurnedPasted
import Verif.Props.TurnedFlow
/-!
# C116: `... | rotate | blueprint encode` for the programs without a network and for `interchange`
-/

namespace FSat

theorem rotateLine_one (op : Operation) {l : List Char} {a : Arr Tile} (hl : '\n' ∉ l) (hs : SolutionLine l a) (ha : a.AllValid) :
    ∃ line b, rotateLine op l = .ok line ∧ '\n' ∉ line ∧ SolutionLine line b ∧ op.Produces a b := by
  obtain ⟨line, b, h1, h2, h3, h4⟩ := rotate_one op hl hs ha
  unfold rotateMain at h1
  rw [inputLines_of (isInput_textOf (ls := [l]) (by simpa using hl))] at h1
  cases hr : rotateLine op l with
  | error e => rw [lineLoop, hr] at h1; simp at h1
  | ok o =>
    rw [lineLoop, hr] at h1
    simp [lineLoop, textOf] at h1
    exact ⟨line, b, by rw [h1], h2, h3, h4⟩

/-- One printed layout that obeys the basic rules. -/
theorem c116_line {g : Grid} (hg : g.WF) (hw : g.NoWrap) (op : Operation) (c : Codec) (label : Option (List Char)) (level : BeltLevel)
    {shutB shutU : Nat × Nat → Dir → Prop} {L : Option Nat} {T : Nat × Nat → Tile} (hB : BasicRules g.In g.nb T shutB shutU L)
    (hne : ∃ p, g.In p ∧ T p ≠ .empty) {l : List Char} (hp : PrintedLine l (layoutArr g T)) :
    ∃ line text, rotateLine op l = .ok line ∧ '\n' ∉ line ∧ encodeLine c label level line = .ok text ∧ PastesTurned op g c T text := by
  have hval := valid_of_rules hB
  obtain ⟨line, r, h1, h2, h3, h4⟩ := rotateLine_one op hp.line (c96_printed hp) hval
  obtain ⟨k1, k2, k3, k4, k5, k6, k7⟩ := c114_flow op hval h4
  have hrules := k6 ((turning_layout hg hw T).rules (PlainRules.ofBasic hB))
  have hsize : 0 < r.rows ∧ 0 < r.cols := ⟨h3.choose_spec.1.1, h3.choose_spec.1.2.1⟩
  obtain ⟨p0, hp0, hne0⟩ := hne
  obtain ⟨text, B, q1, q2, q3, q4, q5⟩ := c114_pasted hsize.1 hsize.2 hrules
    ⟨op.pos (layoutArr g T).cols (layoutArr g T).rows (toPlane p0), (k3 _).2 ((inArea T _).2 ⟨p0, hp0, rfl⟩), by
      rw [(op.produces_iff _ _ hval).1 h4]
      show ((op.grid (layoutArr g T)).map op.tileMap).board _ ≠ _
      rw [op.board, layout_board T hp0]
      revert hne0
      cases T p0 <;> simp [Operation.tileMap]⟩ c label level h3
  have D := copy_area hg hw T
  have hmoved : ∀ p, g.In p → r.In (op.pos g.width g.height (toPlane p)) := fun p hp => (k3 _).2 ((inArea T _).2 ⟨p, hp, rfl⟩)
  refine ⟨line, text, h1, h2, q1, r, B, h4, q2, fun q => ⟨fun hq => ?_, ?_⟩, q3,
    fun p hp => (q4 _ (hmoved p hp)).trans ((k4 _).trans (D.leaves hp)), fun supplied F => (q5 _ F).trans ((k7 _ F).trans ?_)⟩
  · obtain ⟨p, rfl⟩ := k1 q
    obtain ⟨p, hp, rfl⟩ := (inArea T p).1 ((k3 p).1 hq)
    exact ⟨p, hp, rfl⟩
  · rintro ⟨p, hp, rfl⟩
    exact hmoved p hp
  · have hsup : ∀ p, g.In p → ((∃ p', (g.In p' ∧ supplied p') ∧ op.pos g.width g.height (toPlane p') = op.pos g.width g.height (toPlane p)) ↔
        supplied p) := by
      intro p hp
      constructor
      · rintro ⟨p1, ⟨_, h⟩, e⟩
        rw [← toPlane_inj _ _ (k2 _ _ e)]
        exact h
      · intro h
        exact ⟨p, ⟨hp, h⟩, rfl⟩
    exact ⟨fun h => D.carries hsup h, fun h => D.carries_back hsup h⟩

/-- C116: lines printed for layouts that obey the basic rules and contain something can be turned or mirrored and then made into blueprints, and
what is pasted does the same. -/
theorem c116_lines {g : Grid} (hg : g.WF) (hw : g.NoWrap) (op : Operation) (c : Codec) (label : Option (List Char)) (level : BeltLevel)
    {shutB shutU : Nat × Nat → Dir → Prop} {L : Option Nat} {Wanted : (Nat × Nat → Tile) → Prop}
    (hW : ∀ T, Wanted T → BasicRules g.In g.nb T shutB shutU L ∧ ∃ p, g.In p ∧ T p ≠ .empty)
    {ls : List (List Char)} {Ts : List (Nat × Nat → Tile)} (hi : IsInput (textOf ls) ls)
    (hp : List.Forall₂ PrintedLine ls (Ts.map (layoutArr g))) (hT : ∀ T ∈ Ts, Wanted T) :
    PastedTurned op g Wanted c label level ⟨textOf ls, .finished⟩ := by
  have key : ∃ lines texts, List.Forall₂ (fun l m => rotateLine op l = .ok m) ls lines ∧ (∀ l ∈ lines, '\n' ∉ l) ∧
      List.Forall₂ (fun l m => encodeLine c label level l = .ok m) lines texts ∧ List.Forall₂ (PastesTurned op g c) Ts texts := by
    clear hi
    induction Ts generalizing ls with
    | nil =>
      rw [List.map_nil, List.forall₂_nil_right_iff] at hp
      subst hp
      exact ⟨[], [], .nil, by simp, .nil, .nil⟩
    | cons T Ts ih =>
      rw [List.map_cons] at hp
      cases hp with
      | cons h t =>
        obtain ⟨lines, texts, e1, e2, e3, e4⟩ := ih t fun T h => hT T (.tail _ h)
        obtain ⟨hr, hne⟩ := hW T (hT T (.head _))
        obtain ⟨line, text, f1, f2, f3, f4⟩ := c116_line hg hw op c label level hr hne h
        refine ⟨line :: lines, text :: texts, .cons f1 e1, fun l hl => ?_, .cons f3 e3, .cons f4 e4⟩
        rcases List.mem_cons.1 hl with rfl | hl
        · exact f2
        · exact e2 l hl
  obtain ⟨lines, texts, e1, e2, e3, e4⟩ := key
  refine ⟨ls, Ts, textOf lines, texts, rfl, hp, hT, ?_, ?_, e4⟩
  · unfold rotateMain
    rw [inputLines_of hi, lineLoop_all e1]
  · unfold blueprintEncode
    rw [inputLines_of (isInput_textOf e2), lineLoop_all e3]

/-- Both ways to call a program. -/
theorem pastedTurned_runs {op : Operation} {g : Grid} {Wanted : (Nat × Nat → Tile) → Prop} {c : Codec} {label : Option (List Char)} {level : BeltLevel}
    (hlines : ∀ (ls : List (List Char)) (Ts : List (Nat × Nat → Tile)), IsInput (textOf ls) ls →
      List.Forall₂ PrintedLine ls (Ts.map (layoutArr g)) → (∀ T ∈ Ts, Wanted T) → PastedTurned op g Wanted c label level ⟨textOf ls, .finished⟩)
    {all first : Nat → Run} (ha : PrintsAll g Wanted all) (hf : ∀ fuel, PrintsFirst g Wanted (first fuel)) :
    (∃ enough, ∀ fuel, enough ≤ fuel → PastedTurned op g Wanted c label level (all fuel)) ∧
      ∀ fuel, PastedTurned op g Wanted c label level (first fuel) := by
  constructor
  · obtain ⟨enough, h⟩ := ha
    refine ⟨enough, fun fuel hle => ?_⟩
    obtain ⟨ls, Ts, e1, e2, e3, e4, _⟩ := h fuel hle
    rw [e1]
    exact hlines ls Ts e2 e3 e4
  · intro fuel
    rcases hf fuel with ⟨e, _⟩ | ⟨l, T, e1, e2, e3, e4⟩
    · rw [e]
      exact hlines [] [] (isInput_textOf (ls := []) (by simp)) .nil (by simp)
    · rw [e1]
      exact hlines [l] [T] e2 (.cons e3 .nil) (by simpa using e4)

section
variable {width height : Nat} {ugLen : Option Nat} {aligned : Bool} {layout : Option (List (List Tile))} {g : Grid} {cs : Cnf} {s : Nat}
  {solver : Oracle}

/-- C116: `belt_balancer_net_free | rotate | blueprint encode`, for equally many inputs and outputs. -/
theorem c116_free {size : Nat} (hw : 2 ≤ width) (hh : 0 < height) (hn : 0 < size) (hL : ∀ l, ugLen = some l → 1 ≤ l)
    (h : freeProgram width height ugLen size size aligned layout = .ok (g, cs, s)) (hs : CorrectSolver solver) (hf : CompleteSolver solver)
    (op : Operation) (c : Codec) (label : Option (List Char)) (level : BeltLevel) :
    let Wanted := fun T => (ShareBalancer g T size (Nat.lcm (2 ^ Nat.clog 2 size) size) aligned ∧
      TidyFree g.In g.nb width height ugLen T (fun p d => (T p).Takes d) (fun p d => (T p).Emits d)) ∧
      ∀ rows, layout = some rows → Contains T rows
    (∃ enough, ∀ fuel, enough ≤ fuel →
      PastedTurned op g Wanted c label level (freeRun width height ugLen size size aligned layout solver true fuel)) ∧
    ∀ fuel, PastedTurned op g Wanted c label level (freeRun width height ugLen size size aligned layout solver false fuel) := by
  intro Wanted
  obtain ⟨_, e0, _⟩ := createNToN_eq (ugLen := ugLen) (show 0 < width by omega) hh hn
  obtain ⟨hgd, _⟩ := freeProgram_grid e0 h
  have hg : g.WF := by rw [hgd]; exact mkGrid_wf (by omega) hh _ none _ (by intro n h; cases h) _ _
  have hnw : g.NoWrap := by rw [hgd]; exact ⟨rfl, rfl⟩
  obtain ⟨k1, k2⟩ := c105_free hw hh hn hL h hs hf
  refine pastedTurned_runs (fun ls Ts hi hp hT => c116_lines hg hnw op c label level (Wanted := Wanted)
    (shutB := g.shut (.ofPair false true)) (shutU := g.shut (.ofBool true)) (L := g.ugLen) ?_ hi hp hT) k1.all k2
  rintro T ⟨⟨⟨hr, _, i, j, b0, b1, _⟩, _⟩, _⟩
  have hi := b0.1
  refine ⟨hr, (0, i), ⟨by show 0 < _; have := hg.w; omega, by show i < _; omega⟩, ?_⟩
  have := b0.2 i (by omega)
  rw [if_pos (by omega)] at this
  rw [this]
  simp

/-- C116: the same for other numbers of inputs and outputs. -/
theorem c116_mix {m n : Nat} (hw : 2 ≤ width) (hh : 0 < height) (hm : 0 < m) (hn : 0 < n) (hne : m ≠ n) (hL : ∀ l, ugLen = some l → 1 ≤ l)
    (h : freeProgram width height ugLen m n aligned layout = .ok (g, cs, s)) (hs : CorrectSolver solver) (hf : CompleteSolver solver)
    (op : Operation) (c : Codec) (label : Option (List Char)) (level : BeltLevel) :
    let Wanted := fun T => (∃ conn, MixBalancer g T conn m n (mixUnit m n) aligned ∧
      TidyFree g.In g.nb width height ugLen T (EntryUsed g.nb T conn) (ExitUsed g.nb T conn)) ∧
      ∀ rows, layout = some rows → Contains T rows
    (∃ enough, ∀ fuel, enough ≤ fuel →
      PastedTurned op g Wanted c label level (freeRun width height ugLen m n aligned layout solver true fuel)) ∧
    ∀ fuel, PastedTurned op g Wanted c label level (freeRun width height ugLen m n aligned layout solver false fuel) := by
  intro Wanted
  obtain ⟨_, e0, _⟩ := createNToM_eq (ugLen := ugLen) (show 0 < width by omega) hh hm hn hne
  obtain ⟨hgd, _⟩ := freeProgram_grid e0 h
  have hg : g.WF := by rw [hgd]; exact mkGrid_wf (by omega) hh _ none _ (by intro n h; cases h) _ _
  have hnw : g.NoWrap := by rw [hgd]; exact ⟨rfl, rfl⟩
  obtain ⟨k1, k2⟩ := c105_mix hw hh hm hn hne hL h hs hf
  refine pastedTurned_runs (fun ls Ts hi hp hT => c116_lines hg hnw op c label level (Wanted := Wanted)
    (shutB := g.shut (.ofPair false true)) (shutU := g.shut (.ofBool true)) (L := g.ugLen) ?_ hi hp hT) k1 k2
  rintro T ⟨⟨_, ⟨hr, _, _, i, j, b0, b1, _⟩, _⟩, _⟩
  have hi := b0.1
  refine ⟨hr, (0, i), ⟨by show 0 < _; have := hg.w; omega, by show i < _; omega⟩, ?_⟩
  have := b0.2 i (by omega)
  rw [if_pos (by omega)] at this
  rw [this]
  simp

/-- C116: `belt_balancer_net_free_power_of_2 | rotate | blueprint encode`. -/
theorem c116_power {lib : CardLib} (hl : lib.Correct) (hw : 2 ≤ width) (hL : ∀ l, ugLen = some l → 1 ≤ l)
    (h : powerProgram lib width height ugLen layout = .ok (g, cs, s)) (hs : CorrectSolver solver) (hf : CompleteSolver solver)
    (op : Operation) (c : Codec) (label : Option (List Char)) (level : BeltLevel) :
    let Wanted := fun T => (PowerBalancer g T width height ugLen ∧
      TidyPower g.In g.nb width height ugLen T (fun p d => (T p).Takes d) (fun p d => (T p).Emits d)) ∧
      ∀ rows, layout = some rows → Contains T rows
    (∃ enough, ∀ fuel, enough ≤ fuel →
      PastedTurned op g Wanted c label level (powerRun lib width height ugLen layout solver true fuel)) ∧
    ∀ fuel, PastedTurned op g Wanted c label level (powerRun lib width height ugLen layout solver false fuel) := by
  intro Wanted
  obtain ⟨cs0, cs1, e0, e1, _⟩ := withPartial_exact h
  obtain ⟨hh, hgd⟩ : 0 < height ∧
      g = mkGrid width height ⟨false, false⟩ (some (2 ^ (height / 2))) ugLen (levelFields (powerLevels height)) 0 := by
    unfold powerBalancerMain at e0
    split at e0
    · cases e0
    · rename_i e2
      split at e0
      · cases e0
      · simp only [Except.ok.injEq, Prod.mk.injEq] at e0
        obtain ⟨rfl, rfl, rfl⟩ := e0
        obtain ⟨_, b, c, _⟩ := power_mentions e2
        exact ⟨b, c⟩
  have hg : g.WF := by rw [hgd]; exact mkGrid_wf (by omega) hh _ _ _ (by intro n h; cases h; exact Nat.one_le_two_pow) _ _
  have hnw : g.NoWrap := by rw [hgd]; exact ⟨rfl, rfl⟩
  have hw0 : 0 < g.width := by have := hg.w; omega
  have hh0 : 0 < g.height := by have := hg.h; omega
  have eh : g.height = height := by rw [hgd]; rfl
  obtain ⟨k1, k2⟩ := c105_power hl hw hL h hs hf
  refine pastedTurned_runs (fun ls Ts hi hp hT => c116_lines hg hnw op c label level (Wanted := Wanted)
    (shutB := g.shut (.ofPair false true)) (shutU := g.shut (.ofBool true)) (L := ugLen) ?_ hi hp hT) k1.all k2
  rintro T ⟨⟨⟨hr, hcol, _⟩, _⟩, _⟩
  rw [← eh] at hcol
  exact ⟨hr, (0, 0), ⟨hw0, hh0⟩, by rw [(hcol 0 hh0).1]; simp⟩

/-- C116: `interchange | rotate | blueprint encode`. -/
theorem c116_interchange {lib : CardLib} (hl : lib.Correct) {width height L : Nat} {o : InterchangeOptions} {g : Grid} {cs : Cnf} {s : Nat}
    (h : interchangeMain lib width height L o = .ok (g, cs, s)) {solver : Oracle} (hs : CorrectSolver solver) (hf : CompleteSolver solver)
    (op : Operation) (c : Codec) (label : Option (List Char)) (level : BeltLevel) :
    let Wanted := fun T => (∃ col, IsInterchange g.nb g.In (g.shut (.ofPair false true)) (g.shut (.ofBool true)) width height L o.alternating
      o.rotSymmetry T col) ∧ ∀ rows, o.partialLayout = some rows → Contains T rows
    (∃ enough, ∀ fuel, enough ≤ fuel → PastedTurned op g Wanted c label level (interchangeRun lib width height L o solver true fuel)) ∧
    ∀ fuel, PastedTurned op g Wanted c label level (interchangeRun lib width height L o solver false fuel) := by
  intro Wanted
  obtain ⟨P⟩ := interchangeMain_parts h
  have hg : g.WF := P.wf.1
  have hnw : g.NoWrap := by rw [P.gd]; exact ⟨rfl, rfl⟩
  have hw0 : 0 < g.width := by have := hg.w; omega
  have hh0 : 0 < g.height := by have := hg.h; omega
  have eh : g.height = height := by rw [P.gd]; rfl
  obtain ⟨k1, k2⟩ := c105_interchange hl h hs hf
  refine pastedTurned_runs (fun ls Ts hi hp hT => c116_lines hg hnw op c label level (Wanted := Wanted)
    (shutB := g.shut (.ofPair false true)) (shutU := g.shut (.ofBool true)) (L := some L) ?_ hi hp hT) k1.all k2
  rintro T ⟨⟨col, hI⟩, _⟩
  have h0 := hI.entry
  rw [← eh] at h0
  exact ⟨hI.rules, (0, 0), ⟨hw0, hh0⟩, fun e => by have := h0 0 hh0; rw [e] at this; exact this⟩

end

/-! ### What is pasted does what the layout is for -/

/-- If all splitters are connected, then nothing depends on what is supplied from outside. -/
theorem Carries.steady_full {P : Type} {In : P → Prop} {nb : P → Dir → Option P} {T : P → Tile} {conn : P → P → Dir → Prop} {supplied : P → Prop}
    {F : P → ℚ} (h : Carries In nb T conn supplied F) (hf : FullSplitters In T conn) : Steady In nb T conn F := by
  classical
  refine ⟨h.surface, h.under, fun p q d hp hq hs r hr => ?_⟩
  rw [h.splitter p q d hp hq hs r hr]
  have h1 := (hf p d true hp hs.1).2
  have h2 := (hf q d false hq hs.2.2).2
  unfold gets arrives
  rw [if_pos (show FedAt In nb conn supplied p d from .inl h1), if_pos (show FedAt In nb conn supplied q d from .inl h2), if_pos h1, if_pos h2]

/-- C116: what is pasted from a turned or mirrored layout of `belt_balancer_net_free` balances.  Whatever is supplied wherever, each belt at the moved outputs
carries the same part of the sum of the moved inputs. -/
theorem c116_free_balances {width height size : Nat} {ugLen : Option Nat} {aligned : Bool} {layout : Option (List (List Tile))} {g : Grid} {cs : Cnf}
    {s : Nat} (hw : 2 ≤ width) (hh : 0 < height) (hn : 0 < size) (hL : ∀ l, ugLen = some l → 1 ≤ l)
    (h : freeProgram width height ugLen size size aligned layout = .ok (g, cs, s)) {T : Nat × Nat → Tile}
    (hT : ShareBalancer g T size (Nat.lcm (2 ^ Nat.clog 2 size) size) aligned) {op : Operation} {c : Codec} {text : List Char}
    (ht : PastesTurned op g c T text) :
    ∃ (r : Arr Tile) (B : Int × Int → Tile) (i j : Nat), op.Produces (layoutArr g T) r ∧ PastedAs c text B ∧
      BlockAt height i size (fun y => T (0, y) = .belt .right .right) (fun y => T (0, y) = .empty) ∧
      BlockAt height j size (fun y => T (width - 1, y) = .belt .right .right) (fun y => T (width - 1, y) = .empty) ∧
      let move := fun p : Nat × Nat => op.pos width height (toPlane p)
      ∀ (supplied : Nat × Nat → Prop) (F : Int × Int → ℚ),
        Carries r.In r.nb B (Connected r.nb B) (fun q => ∃ p, (g.In p ∧ supplied p) ∧ move p = q) F →
        ∀ y, j ≤ y → y < j + size → F (move (width - 1, y)) = (∑ k ∈ Finset.range size, F (move (0, i + k))) / size := by
  obtain ⟨cs0, e0, _⟩ := createNToN_eq (ugLen := ugLen) (show 0 < width by omega) hh hn
  obtain ⟨hgd, _⟩ := freeProgram_grid e0 h
  obtain ⟨g', cs', s', h', hgw, hgh, _, _, hex⟩ := c84_exact (ugLen := ugLen) (show 0 < width by omega) hh hn hL aligned
  obtain ⟨_, _, e⟩ := freeBalancer_grid h'
  rw [e0] at e
  simp only [Except.ok.injEq, Prod.mk.injEq] at e
  have hgg : g' = g := by rw [hgd]; exact e.1.symm
  subst hgg
  obtain ⟨v, hv, hd⟩ := (hex T).2 hT
  obtain ⟨i, j, b1, b2, h3, _⟩ := c29_balances hL h' hv hd
  obtain ⟨r, B, k1, k2, _, _, _, k6⟩ := ht
  refine ⟨r, B, i, j, k1, k2, b1, b2, fun supplied F hF y hy hy' => ?_⟩
  rw [hgw, hgh] at k6
  exact h3 _ (((k6 supplied F).1 hF).steady_full hT.2.1) y hy hy'

/-- C116: what is pasted from a turned or mirrored layout of `interchange` mixes its belts as it should: there is a permutation of the rows that mixes the two
halves, and each moved output carries what the input that it belongs to gets. -/
theorem c116_interchange_routes {lib : CardLib} {width height L : Nat} {o : InterchangeOptions} {g : Grid} {cs : Cnf} {s : Nat}
    (h : interchangeMain lib width height L o = .ok (g, cs, s)) {T : Nat × Nat → Tile} {col : Nat × Nat → Nat}
    (hT : IsInterchange g.nb g.In (g.shut (.ofPair false true)) (g.shut (.ofBool true)) width height L o.alternating o.rotSymmetry T col)
    {op : Operation} {c : Codec} {text : List Char} (ht : PastesTurned op g c T text) :
    ∃ (r : Arr Tile) (B : Int × Int → Tile) (π : Equiv.Perm (Fin height)), op.Produces (layoutArr g T) r ∧ PastedAs c text B ∧
      Routed g.nb T width height o.alternating π ∧
      let move := fun p : Nat × Nat => op.pos width height (toPlane p)
      ∀ (supplied : Nat × Nat → Prop) (F : Int × Int → ℚ),
        Carries r.In r.nb B (Connected r.nb B) (fun q => ∃ p, (g.In p ∧ supplied p) ∧ move p = q) F →
        ∀ y : Fin height, F (move (width - 1, (π y).1)) = F (move (0, y.1)) := by
  obtain ⟨P⟩ := interchangeMain_parts h
  obtain ⟨hg, _, _, hf, hw, hh, _⟩ := P.wf
  have hI := hT
  have hnw : g.NoWrap := by rw [P.gd]; exact ⟨rfl, rfl⟩
  obtain ⟨r, B, k1, k2, _, _, _, k6⟩ := ht
  subst hw hh
  obtain ⟨π, h1, _⟩ := interchange_routes hg hf hT
  refine ⟨r, B, π, k1, k2, h1, fun supplied F hF y => ?_⟩
  have hC := (k6 supplied F).1 hF
  have key : ∀ p q, Relation.ReflTransGen (Follows g.nb T) p q → g.In p →
      g.In q ∧ F (op.pos g.width g.height (toPlane q)) = F (op.pos g.width g.height (toPlane p)) := by
    intro p q hpq hp
    induction hpq with
    | refl => exact ⟨hp, rfl⟩
    | @tail q r' _ hs ih =>
      obtain ⟨hq, e⟩ := ih
      rcases hs with ⟨d, hd⟩ | ⟨d, k, hd⟩
      · exact ⟨Grid.nb_in hg hd.1, (hC.surface q r' d hq hd (hI.noSplitter q hq)).trans e⟩
      · exact ⟨((copy_area hg hnw T).walk hq d k).2 r' hd.2.1, (hC.under q r' d k hq hd).trans e⟩
  exact (key _ _ (h1.runs y) ⟨hg.w, y.2⟩).2

/-- C116: what is pasted from a turned or mirrored layout of `belt_balancer_net_free_power_of_2` does its part of the work: if the two belts of each pair of moved inputs
carry the mean of two amounts, as behind a splitter, then the mean of each pair of moved outputs is the mean of all of them. -/
theorem c116_power_balances {lib : CardLib} (hl : lib.Correct) {width height : Nat} {ugLen : Option Nat} {g : Grid} {cs : Cnf} {s : Nat}
    (hL : ∀ l, ugLen = some l → 1 ≤ l) (h : powerBalancer lib width height ugLen = .ok (g, cs, s)) {T : Nat × Nat → Tile}
    (hT : PowerBalancer g T width height ugLen) {op : Operation} {c : Codec} {text : List Char} (ht : PastesTurned op g c T text) :
    ∃ (r : Arr Tile) (B : Int × Int → Tile), op.Produces (layoutArr g T) r ∧ PastedAs c text B ∧
      let move := fun p : Nat × Nat => op.pos width height (toPlane p)
      ∀ (supplied : Nat × Nat → Prop) (F : Int × Int → ℚ) (a : Nat → ℚ),
        Carries r.In r.nb B (Connected r.nb B) (fun q => ∃ p, (g.In p ∧ supplied p) ∧ move p = q) F →
        (∀ k < height / 2, ∀ y, y = 2 * k ∨ y = 2 * k + 1 → F (move (0, y)) = (a (2 * k) + a (2 * k + 1)) / 2) →
        ∀ k < height / 2, (F (move (width - 1, 2 * k)) + F (move (width - 1, 2 * k + 1))) / 2 = (∑ y ∈ Finset.range height, a y) / height := by
  obtain ⟨v, hv, hd⟩ := (c90_exact hl hL h T).2 hT
  obtain ⟨e, he, he1, hg, hedge, hw, hh, _⟩ := power_all hl hL h
  obtain ⟨r, B, k1, k2, _, _, _, k6⟩ := ht
  refine ⟨r, B, k1, k2, fun supplied F a hF hin => ?_⟩
  rw [hw, hh] at k6
  exact (c31_balances hl hL h hv hd a).1 _ (((k6 supplied F).1 hF).steady_full hT.2.2.1) hin

/-! ### Cases -/

theorem pastedTurned_one {op : Operation} {g : Grid} {Wanted : (Nat × Nat → Tile) → Prop} {c : Codec} {label : Option (List Char)} {level : BeltLevel}
    {run : Run} {l : List Char} (h : PastedTurned op g Wanted c label level run) (e : run = ⟨textOf [l], .finished⟩) :
    ∃ T mid text texts, Wanted T ∧ rotateMain op (textOf [l]) = ⟨mid, .endOfInput⟩ ∧
      blueprintEncode c label level mid = ⟨textOf (text :: texts), .endOfInput⟩ ∧ PastesTurned op g c T text := by
  obtain ⟨ls, Ts, mid, texts, e0, e1, e2, e3, e4, e5⟩ := h
  have h0 : textOf ls = textOf [l] := congrArg Run.out (e0.symm.trans e)
  rw [e] at e3
  cases e5 with
  | nil =>
    rw [List.map_nil, List.forall₂_nil_right_iff] at e1
    subst e1
    simp [textOf] at h0
  | @cons T text Ts texts hb t => exact ⟨T, mid, text, texts, e2 T (.head _), e3, e4, hb⟩

/-- An interchange of two belts, turned and mirrored in every way and pasted: each belt carries on what it gets. -/
example (op : Operation) : ∃ solver l mid text texts g T, interchangeRun naiveLib 2 2 1 { alternating := true, rotSymmetry := true } solver false 0 =
      ⟨textOf [l], .finished⟩ ∧
    rotateMain op (textOf [l]) = ⟨mid, .endOfInput⟩ ∧ blueprintEncode pairCodec none .normal mid = ⟨textOf (text :: texts), .endOfInput⟩ ∧
    PastesTurned op g pairCodec T text := by
  obtain ⟨g, cs, s, h, hv⟩ := interchangeCnf_sat exPair_sat
  obtain ⟨solver, hs, hf⟩ := exists_complete
  have h1 := (c105_interchange naiveLib_correct h hs hf).2 0
  have h2 := (c116_interchange naiveLib_correct h hs hf op pairCodec none .normal).2 0
  obtain ⟨l, hl⟩ : ∃ l, interchangeRun naiveLib 2 2 1 { alternating := true, rotSymmetry := true } solver false 0 = ⟨textOf [l], .finished⟩ := by
    unfold interchangeRun at h1 ⊢
    rw [h] at h1 ⊢
    obtain ⟨l, _, hl, _⟩ := program_nonempty hs hv h1
    exact ⟨l, hl⟩
  obtain ⟨T, mid, text, texts, _, h4, h5, h6⟩ := pastedTurned_one h2 hl
  exact ⟨solver, l, mid, text, texts, g, T, hl, h4, h5, h6⟩

/-- Two inputs and two outputs, without a network: a line is printed, turned and pasted. -/
example (op : Operation) : ∃ solver l mid text texts g T, freeRun 3 2 (some 4) 2 2 true (some pairRows) solver false 0 = ⟨textOf [l], .finished⟩ ∧
    rotateMain op (textOf [l]) = ⟨mid, .endOfInput⟩ ∧ blueprintEncode pairCodec none .normal mid = ⟨textOf (text :: texts), .endOfInput⟩ ∧
    PastesTurned op g pairCodec T text := by
  obtain ⟨g, cs, s, h, hv⟩ := program_found pairRows_sat
  obtain ⟨solver, hs, hf⟩ := exists_complete
  have h1 := (c105_free (by decide) (by decide) (by decide) (by intro l h; cases h; decide) h hs hf).2 0
  have h2 := (c116_free (by decide) (by decide) (by decide) (by intro l h; cases h; decide) h hs hf op pairCodec none .normal).2 0
  obtain ⟨l, hl⟩ : ∃ l, freeRun 3 2 (some 4) 2 2 true (some pairRows) solver false 0 = ⟨textOf [l], .finished⟩ := by
    unfold freeRun at h1 ⊢
    rw [h] at h1 ⊢
    obtain ⟨l, _, hl, _⟩ := program_nonempty hs hv h1
    exact ⟨l, hl⟩
  obtain ⟨T, mid, text, texts, _, h4, h5, h6⟩ := pastedTurned_one h2 hl
  exact ⟨solver, l, mid, text, texts, g, T, hl, h4, h5, h6⟩

end FSat
