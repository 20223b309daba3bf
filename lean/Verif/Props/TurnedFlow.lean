import Verif.Lemmas.TurnedRules
import Verif.Props.BalancesUsed
import Verif.Props.ProgramPasted
import Verif.Props.Reported
/-!
# C114: a turned or mirrored layout does the same
-/

namespace FSat

theorem PlainRules.ofBasic {P : Type} {In : P → Prop} {nb : P → Dir → Option P} {T : P → Tile} {shutB shutU : P → Dir → Prop} {L : Option Nat}
    (h : BasicRules In nb T shutB shutU L) : PlainRules In nb T :=
  ⟨h.basic, h.splitters, h.joined, h.ends, ⟨h.undergrounds.entrance, h.undergrounds.exit, nofun⟩, fun _ _ _ => False.elim,
    fun _ _ _ => False.elim, by intros; exact ⟨id, id⟩⟩

theorem arr_nb_in {a : Arr Tile} {p q : Int × Int} {d : Dir} (h : a.nb p d = some q) : a.In q := by
  unfold Arr.nb at h
  rw [Option.filter_eq_some_iff] at h
  simpa [Arr.In] using h.2

theorem noOp_map (t : Tile) : Operation.noOp.tileMap t = t := by
  cases t <;> simp [Operation.tileMap, Operation.dir, Operation.mirrors]

/-- The operation turns an array. -/
theorem turning_arr (op : Operation) (a : Arr Tile) :
    Turning op a.In a.nb a.board (op.turned a).In (op.turned a).nb (op.turned a).board (op.moves a) :=
  ⟨fun p hp => (op.in_iff a p).2 hp, fun q hq => by
      obtain ⟨p, rfl⟩ := op.moves_surj a q
      exact ⟨p, (op.in_iff a p).1 hq, rfl⟩,
    fun _ _ _ _ h => op.pos_inj a.cols a.rows h, fun p d _ => op.nb_turned a p d, fun _ _ _ _ h => arr_nb_in h,
    fun p q d hp h => (Operation.arr_nb_opp _ p q d hp (arr_nb_in h)).1 h, fun p _ => op.board a p⟩

/-- A layout of a grid, as an array. -/
theorem turning_layout {g : Grid} (hg : g.WF) (hw : g.NoWrap) (T : Nat × Nat → Tile) :
    Turning .noOp g.In g.nb T (layoutArr g T).In (layoutArr g T).nb (layoutArr g T).board toPlane :=
  ⟨fun p hp => (inArea T _).2 ⟨p, hp, rfl⟩, fun q hq => by
      obtain ⟨p, h1, h2⟩ := (inArea T q).1 hq
      exact ⟨p, h1, h2.symm⟩,
    fun p q _ _ h => toPlane_inj p q h, fun _ _ hp => nb_area hg hw T hp _, fun _ _ _ _ h => Grid.nb_in hg h,
    fun p q d hp h => by
      have hq := Grid.nb_in hg h
      have hn : (layoutArr g T).nb (toPlane p) d = some (toPlane q) := by rw [nb_area hg hw T hp, h]; rfl
      have := (Operation.arr_nb_opp _ _ _ d ((inArea T _).2 ⟨p, hp, rfl⟩) ((inArea T _).2 ⟨q, hq, rfl⟩)).1 hn
      rw [nb_area hg hw T hq] at this
      obtain ⟨r, h1, h2⟩ := Option.map_eq_some_iff.1 this
      rw [h1, toPlane_inj _ _ h2],
    fun p hp => by rw [layout_board T hp, noOp_map]⟩

/-- A flow on a layout of a grid is one on the array. -/
theorem copy_area {g : Grid} (hg : g.WF) (hw : g.NoWrap) (T : Nat × Nat → Tile) :
    LayoutCopy g.In g.nb T (layoutArr g T).In (layoutArr g T).nb (layoutArr g T).board toPlane := by
  have hn : ∀ p q d, g.In p → ((layoutArr g T).nb (toPlane p) d = some (toPlane q) ↔ g.nb p d = some q) := by
    intro p q d hp
    rw [nb_area hg hw T hp, Option.map_eq_some_inj (fun {_ _} e => toPlane_inj _ _ e)]
  refine ⟨fun p hp => (inArea T _).2 ⟨p, hp, rfl⟩, fun r hr => (inArea T r).1 hr, toPlane_inj, fun p d hp => nb_area hg hw T hp d,
    fun p q d hp hq => Grid.nb_in hg hq, fun p hp _ => layout_board T hp, fun p i o hp h => ⟨i, by rw [layout_board T hp, h]⟩,
    fun p q d hp hq => ?_⟩
  unfold Connected
  rw [hn p q d hp, layout_board T hp, layout_board T hq]

/-- Every array is a layout of a grid. -/
theorem arr_layout (b : Arr Tile) : layoutArr (plainGrid b.cols b.rows) (fun p => b.board (toPlane p)) = b := by
  refine Arr.ext' rfl rfl fun i j hi hj => ?_
  exact b.board_get ⟨i, hi⟩ ⟨j, hj⟩

theorem rules_of_arr {b : Arr Tile} (hr : 0 < b.rows) (hc : 0 < b.cols) (h : PlainRules b.In b.nb b.board) :
    PlainRules (plainGrid b.cols b.rows).In (plainGrid b.cols b.rows).nb fun p => b.board (toPlane p) := by
  obtain ⟨g, hgd⟩ : ∃ g, g = plainGrid b.cols b.rows := ⟨_, rfl⟩
  obtain ⟨T, hTd⟩ : ∃ T : Nat × Nat → Tile, T = fun p => b.board (toPlane p) := ⟨_, rfl⟩
  have hg : g.WF := by rw [hgd]; exact mkGrid_wf hc hr _ _ _ (by intro _ h; cases h) _ _
  have hw : g.NoWrap := by rw [hgd]; exact ⟨rfl, rfl⟩
  have hb : layoutArr g T = b := by rw [hgd, hTd]; exact arr_layout b
  have C := turning_layout hg hw T
  have key : Turning .noOp (layoutArr g T).In (layoutArr g T).nb (layoutArr g T).board g.In g.nb T (fun q => (q.1.toNat, q.2.toNat)) := by
    have hinv : ∀ p : Nat × Nat, ((toPlane p).1.toNat, (toPlane p).2.toNat) = p := fun p => by simp [toPlane]
    refine ⟨fun q hq => ?_, fun p hp => ⟨toPlane p, C.maps p hp, hinv p⟩, fun q q' hq hq' e => ?_, fun q d hq => ?_, fun _ _ _ _ h => arr_nb_in h,
      fun p q d hp h => (Operation.arr_nb_opp _ p q d hp (arr_nb_in h)).1 h, fun q hq => ?_⟩
    · obtain ⟨p, hp, rfl⟩ := C.onto q hq
      simp only [hinv]
      exact hp
    · obtain ⟨p, hp, rfl⟩ := C.onto q hq
      obtain ⟨p', hp', rfl⟩ := C.onto q' hq'
      simp only [hinv] at e
      rw [e]
    · obtain ⟨p, hp, rfl⟩ := C.onto q hq
      rw [nb_area hg hw T hp, Option.map_map]
      simp only [hinv]
      show g.nb p d = _
      cases g.nb p d <;> simp [hinv]
    · obtain ⟨p, hp, rfl⟩ := C.onto q hq
      rw [layout_board T hp, noOp_map]
      simp only [hinv]
  rw [← hgd, ← hTd]
  rw [← hb] at h
  exact key.rules h

/-- C114: turning or mirroring a layout changes nothing about what it does.  Its cells are those of the original, moved; belts leave and enter the area
at the moved cells; the rules of the game hold on it if they do on the original; and the amounts that it carries, with items supplied at any cells,
are those that the original carries, moved. -/
theorem c114_flow (op : Operation) {a b : Arr Tile} (ha : a.AllValid) (h : op.Produces a b) :
    let move := op.pos a.cols a.rows
    (∀ q, ∃ p, move p = q) ∧ (∀ p q, move p = move q → p = q) ∧ (∀ p, b.In (move p) ↔ a.In p) ∧
    (∀ p, LeavesAt b.nb b.board (move p) ↔ LeavesAt a.nb a.board p) ∧ (∀ p, EntersAt b.nb b.board (move p) ↔ EntersAt a.nb a.board p) ∧
    (BasicRules a.In a.nb a.board (fun _ _ => False) (fun _ _ => False) none → BasicRules b.In b.nb b.board (fun _ _ => False) (fun _ _ => False) none) ∧
    ∀ (supplied : Int × Int → Prop) (F : Int × Int → ℚ),
      Carries b.In b.nb b.board (Connected b.nb b.board) supplied F ↔
      Carries a.In a.nb a.board (Connected a.nb a.board) (fun p => supplied (move p)) (fun p => F (move p)) := by
  obtain rfl := (op.produces_iff _ _ ha).1 h
  exact ⟨op.moves_surj a, fun _ _ => op.pos_inj _ _, op.in_iff a, op.leaves_turned a, op.enters_turned a, (turning_arr op a).rules, op.carries_turned a⟩

/-- C114: a layout on which the rules of the game hold, wherever it comes from, can be turned into a blueprint; and what is pasted carries what the layout
does. -/
theorem c114_pasted {b : Arr Tile} (hr : 0 < b.rows) (hc : 0 < b.cols)
    (hrules : BasicRules b.In b.nb b.board (fun _ _ => False) (fun _ _ => False) none) (hk : ∃ q, b.In q ∧ b.board q ≠ .empty)
    (c : Codec) (label : Option (List Char)) (level : BeltLevel) {line : List Char} (hline : SolutionLine line b) :
    ∃ text B, encodeLine c label level line = .ok text ∧ PastedAs c text B ∧ (∀ q, B q ≠ .empty → b.In q) ∧
      (∀ q, b.In q → (LeavesAt b.nb B q ↔ LeavesAt b.nb b.board q)) ∧
      ∀ (supplied : Int × Int → Prop) (F : Int × Int → ℚ),
        Carries b.In b.nb B (Connected b.nb B) supplied F ↔ Carries b.In b.nb b.board (Connected b.nb b.board) supplied F := by
  have hrT := rules_of_arr hr hc hrules
  obtain ⟨T, hT⟩ : ∃ T : Nat × Nat → Tile, T = fun p => b.board (toPlane p) := ⟨_, rfl⟩
  rw [← hT] at hrT
  have hb := arr_layout b
  rw [← hT] at hb
  have hg : (plainGrid b.cols b.rows).WF := mkGrid_wf hc hr _ _ _ (by intro _ h; cases h) _ _
  have hw : (plainGrid b.cols b.rows).NoWrap := ⟨rfl, rfl⟩
  generalize plainGrid b.cols b.rows = g at hrT hb hg hw
  subst hb
  have hkept : ∃ p, ((layoutArr g T).board p).Kept := by
    obtain ⟨q, hq, hne⟩ := hk
    obtain ⟨p, hp, rfl⟩ := (inArea T q).1 hq
    rw [layout_board T hp] at hne
    exact ⟨_, kept_of_rules hrT hp hne⟩
  obtain ⟨data, b', x0, y0, h1, h2, h3, h4⟩ := c44_roundtrip level label (layoutArr g T) (encodable_of_rules hg hw hrT) hkept
  obtain ⟨C, hC⟩ := copy_restored hg hw hrT.joined hrT.ends (B := placed b' x0 y0) h4 hrT.basic
  have D := copy_area hg hw T
  refine ⟨encodeBlueprint c data, placed b' x0 y0, ?_, ⟨data, b', x0, y0, c72_export c _ label _ data h1, h2, rfl⟩, fun q hq => ?_, fun q hq => ?_,
    fun S F => ⟨fun hF => ?_, fun hF => ?_⟩⟩
  · unfold encodeLine
    rw [layoutOf_line (valid_of_rules hrT) hline]
    simp only
    rw [h1]
  · rw [inArea]
    apply layout_in (T := T)
    intro hem
    have := h4 q
    unfold Restored at this
    rw [hem] at this
    exact hq this
  · obtain ⟨p, hp, rfl⟩ := (inArea T q).1 hq
    rw [C.leaves hp, D.leaves hp]
  · exact D.carries_back (fun _ _ => Iff.rfl) (C.carries (fun _ _ => Iff.rfl) hF)
  · exact C.carries_back (fun _ _ => Iff.rfl) (D.carries (fun _ _ => Iff.rfl) hF)

theorem rotateLine_line {op : Operation} {l o : List Char} (h : rotateLine op l = .ok o) : '\n' ∉ o := by
  unfold rotateLine at h
  split at h
  · cases h
  · split at h
    · cases h
    · split at h
      · cases h
      · cases h
        exact Json.dumps_line _

/-- Printing one layout and turning it gives one line, without a line break in it. -/
theorem rotate_one (op : Operation) {l : List Char} {a : Arr Tile} (hl : '\n' ∉ l) (hs : SolutionLine l a) (ha : a.AllValid) :
    ∃ line b, rotateMain op (textOf [l]) = ⟨textOf [line], .endOfInput⟩ ∧ '\n' ∉ line ∧ SolutionLine line b ∧ op.Produces a b := by
  obtain ⟨outs, bs, h1, h2, h3⟩ := c96_rotate op (isInput_textOf (ls := [l]) (by simpa using hl)) (.cons hs .nil) (by simpa using ha)
  cases h3 with
  | @cons _ b _ bs hb t =>
    cases t
    cases h2 with
    | @cons line _ outs _ hline t =>
      cases t
      refine ⟨line, b, h1, ?_, hline, hb⟩
      unfold rotateMain at h1
      rw [inputLines_of (isInput_textOf (ls := [l]) (by simpa using hl))] at h1
      cases hr : rotateLine op l with
      | error e => rw [lineLoop, hr] at h1; simp at h1
      | ok o =>
        rw [lineLoop, hr] at h1
        simp [lineLoop, textOf] at h1
        rw [← h1]
        exact rotateLine_line hr

/-- C114: `belt_balancer | rotate | blueprint encode` prints nothing if there is no balancer, and otherwise one string.  What `rotate` prints is the
printed layout, turned or mirrored.  On it, and on what is pasted from the string, belts leave the area at the moved outputs, and with items
supplied at the moved inputs it carries what the printed layout does, moved. -/
theorem c114_turned {lib : CardLib} (hl : lib.Correct) {net : PyDict Node Nat} (hv : net.Valid) (hpos : ∀ c ∈ netColours net, 0 ≤ c)
    (hcnt : ∀ e ∈ net, 0 < e.2) {width height : Nat} (hw : 2 ≤ width) (hh : 2 ≤ height) {ugLen : Option Nat} {o : BalancerOptions} {g : Grid}
    {node : Nat × Nat → List Lit} {cs : Cnf} {s : Nat} (hc : balancerMain lib net width height ugLen o = .ok (g, node, cs, s))
    {solver : Oracle} (hs : CorrectSolver solver) (hf : CompleteSolver solver) (fuel : Nat) (op : Operation) (c : Codec)
    (label : Option (List Char)) (level : BeltLevel) :
    let printed := balancerRun lib net width height ugLen o solver false fuel
    let rotated := rotateMain op printed.out
    let encoded := blueprintEncode c label level rotated.out
    let move := fun p : Nat × Nat => op.pos g.width g.height (toPlane p)
    printed.ending = .finished ∧
    ((printed.out = [] ∧ (¬ ∃ v, Sat v cs) ∧ rotated = ⟨[], .endOfInput⟩ ∧ encoded = ⟨[], .endOfInput⟩) ∨
    ∃ v T line r text B, Sat v cs ∧ Decodes g v T ∧ rotated = ⟨textOf [line], .endOfInput⟩ ∧ SolutionLine line r ∧
      op.Produces (layoutArr g T) r ∧ encoded = ⟨textOf [text], .endOfInput⟩ ∧ PastedAs c text B ∧
      (∀ q, r.In q ↔ ∃ p, g.In p ∧ move p = q) ∧ (∀ q, B q ≠ .empty → r.In q) ∧
      ∀ tiles, tiles = r.board ∨ tiles = B →
        (∀ p, g.In p → (LeavesAt r.nb tiles (move p) ↔ LeavesAt g.nb T p)) ∧
        ∀ F : Int × Int → ℚ,
          Carries r.In r.nb tiles (Connected r.nb tiles) (fun q => ∃ p, (g.In p ∧ ev v (g.at' p).isInput = true) ∧ move p = q) F ↔
          Carries g.In g.nb T (Connected g.nb T) (fun p => ev v (g.at' p).isInput = true) fun p => F (move p)) := by
  intro printed rotated encoded move
  have hprinted : printed = balancerRun lib net width height ugLen o solver false fuel := rfl
  have hrotated : rotated = rotateMain op printed.out := rfl
  have hencoded : encoded = blueprintEncode c label level rotated.out := rfl
  clear_value encoded rotated printed
  unfold balancerRun itersolve itersolveFrom at hprinted
  rw [hc] at hprinted
  simp only [Bool.false_eq_true, if_false] at hprinted
  cases hq : solver 0 cs with
  | none =>
    rw [hq] at hprinted
    simp only [printLoop] at hprinted
    rw [hprinted] at hrotated
    have hr : rotated = ⟨[], .endOfInput⟩ := hrotated
    rw [hr] at hencoded
    rw [hprinted]
    exact ⟨rfl, Or.inl ⟨rfl, hs.unsat 0 cs hq, hr, hencoded⟩⟩
  | some m =>
    obtain ⟨l, T, e1, hT, e3⟩ := balancer_prints hl hpos hc (hs.model 0 cs m hq) (hf 0 cs m hq)
    rw [hq] at hprinted
    simp only [printLoop, e1, Bool.false_eq_true, if_false] at hprinted
    have hprinted : printed = ⟨textOf [l], .finished⟩ := hprinted.trans (by simp [textOf])
    have hsat := (hs.model 0 cs m hq).asg
    have hB := (balancerMain_sound hl hv hpos hcnt hw hh hc hsat hT).1
    obtain ⟨P, hP⟩ := balancerMain_parts hc
    obtain ⟨k, V, a0, m0, b0, n0, hR⟩ := P.ready hl hpos hw hh
    have hg := hR.wf
    have hnw : g.NoWrap := by unfold Grid.NoWrap; rw [hR.edge]; exact ⟨rfl, rfl⟩
    have hval := valid_of_rules hB
    obtain ⟨line, r, h1, h2, h3, h4⟩ := rotate_one op e3.line (c96_printed e3) hval
    rw [hprinted] at hrotated
    rw [hrotated, h1] at hencoded
    obtain ⟨k1, k2, k3, k4, k5, k6, k7⟩ := c114_flow op hval h4
    have hrules := k6 ((turning_layout hg hnw T).rules (PlainRules.ofBasic hB))
    have hsize : 0 < r.rows ∧ 0 < r.cols := ⟨h3.choose_spec.1.1, h3.choose_spec.1.2.1⟩
    obtain ⟨p0, hp0, hne0⟩ := printed_nonempty hl hv hpos hcnt hc hsat hT
    obtain ⟨text, B, q1, q2, q3, q4, q5⟩ := c114_pasted hsize.1 hsize.2 hrules
      ⟨op.pos (layoutArr g T).cols (layoutArr g T).rows (toPlane p0), (k3 _).2 ((inArea T _).2 ⟨p0, hp0, rfl⟩), by
        rw [(op.produces_iff _ _ hval).1 h4]
        show ((op.grid (layoutArr g T)).map op.tileMap).board _ ≠ _
        rw [op.board, layout_board T hp0]
        revert hne0
        cases T p0 <;> simp [Operation.tileMap]⟩ c label level h3
    have D := copy_area hg hnw T
    have hmoved : ∀ p, g.In p → r.In (move p) := fun p hp => (k3 _).2 ((inArea T _).2 ⟨p, hp, rfl⟩)
    have hsup : ∀ p, g.In p → ((∃ p', (g.In p' ∧ ev (asgOf m) (g.at' p').isInput = true) ∧ move p' = op.pos g.width g.height (toPlane p)) ↔
        ev (asgOf m) (g.at' p).isInput = true) := by
      intro p hp
      constructor
      · rintro ⟨p1, ⟨_, h⟩, e⟩
        rw [← toPlane_inj _ _ (k2 _ _ e)]
        exact h
      · intro h
        exact ⟨p, ⟨hp, h⟩, rfl⟩
    have hfl : ∀ F : Int × Int → ℚ, Carries r.In r.nb r.board (Connected r.nb r.board)
        (fun q => ∃ p, (g.In p ∧ ev (asgOf m) (g.at' p).isInput = true) ∧ move p = q) F ↔
        Carries g.In g.nb T (Connected g.nb T) (fun p => ev (asgOf m) (g.at' p).isInput = true) fun p => F (move p) := fun F =>
      (k7 _ F).trans ⟨fun h => D.carries hsup h, fun h => D.carries_back hsup h⟩
    have hle : ∀ p, g.In p → (LeavesAt r.nb r.board (move p) ↔ LeavesAt g.nb T p) := fun p hp => (k4 _).trans (D.leaves hp)
    rw [hprinted]
    refine ⟨rfl, Or.inr ⟨asgOf m, T, line, r, text, B, hsat, hT, hrotated.trans h1, h3, h4, ?_, q2, fun q => ⟨fun hq => ?_, ?_⟩, q3, ?_⟩⟩
    · rw [hencoded]
      unfold blueprintEncode
      rw [inputLines_of (isInput_textOf (by simpa using h2))]
      simp [lineLoop, q1, textOf]
    · obtain ⟨p, rfl⟩ := k1 q
      obtain ⟨p, hp, rfl⟩ := (inArea T p).1 ((k3 p).1 hq)
      exact ⟨p, hp, rfl⟩
    · rintro ⟨p, hp, rfl⟩
      exact hmoved p hp
    · rintro tiles (rfl | rfl)
      · exact ⟨hle, hfl⟩
      · exact ⟨fun p hp => (q4 _ (hmoved p hp)).trans (hle p hp), fun F => (q5 _ F).trans (hfl F)⟩

/-- C114: so what `rotate` prints is a balancer, and what is pasted as well: whatever is supplied at the moved inputs, all belts leaving the area carry the
same, under the conditions of C77. -/
theorem c114_balancer {lib : CardLib} (hl : lib.Correct) {net : PyDict Node Nat} (hv : net.Valid) (hpos : ∀ c ∈ netColours net, 0 ≤ c)
    (hcnt : ∀ e ∈ net, 0 < e.2) {width height : Nat} (hw : 2 ≤ width) (hh : 2 ≤ height) {ugLen : Option Nat} {o : BalancerOptions} {g : Grid}
    {node : Nat × Nat → List Lit} {cs : Cnf} {s : Nat} (hc : balancerMain lib net width height ugLen o = .ok (g, node, cs, s))
    {solver : Oracle} (hs : CorrectSolver solver) (hf : CompleteSolver solver) (fuel : Nat) {a i b j : Int}
    (hE : Ends (elements net) a i b j) (hbal : IsBalancer (elements net) a b) (op : Operation) (c : Codec) (label : Option (List Char))
    (level : BeltLevel) :
    let printed := balancerRun lib net width height ugLen o solver false fuel
    let rotated := rotateMain op printed.out
    let encoded := blueprintEncode c label level rotated.out
    (rotated = ⟨[], .endOfInput⟩ ∧ (¬ ∃ v, Sat v cs) ∧ encoded = ⟨[], .endOfInput⟩) ∨
    ∃ v T line r text B, Sat v cs ∧ Decodes g v T ∧ rotated = ⟨textOf [line], .endOfInput⟩ ∧ SolutionLine line r ∧
      op.Produces (layoutArr g T) r ∧ encoded = ⟨textOf [text], .endOfInput⟩ ∧ PastedAs c text B ∧
      (AllOutputsUsed (elements net) ∨ AllInputsUsed (elements net) ∨ Apart g.In g.nb T →
        ∀ tiles, tiles = r.board ∨ tiles = B → ∀ F : Int × Int → ℚ,
          Carries r.In r.nb tiles (Connected r.nb tiles)
            (fun q => ∃ p, (g.In p ∧ ev v (g.at' p).isInput = true) ∧ op.pos g.width g.height (toPlane p) = q) F →
            ∀ p q, r.In p → r.In q → LeavesAt r.nb tiles p → LeavesAt r.nb tiles q → F p = F q) := by
  intro printed rotated encoded
  rcases c114_turned hl hv hpos hcnt hw hh hc hs hf fuel op c label level with
    ⟨-, ⟨-, h1, h2, h3⟩ | ⟨v, T, line, r, text, B, h1, h2, h3, h4, h5, h6, h7, h8, -, h10⟩⟩
  · exact .inl ⟨h2, h1, h3⟩
  · refine .inr ⟨v, T, line, r, text, B, h1, h2, h3, h4, h5, h6, h7, fun hX tiles ht F hF p q hp hq hlp hlq => ?_⟩
    obtain ⟨k1, k2⟩ := h10 tiles ht
    obtain ⟨p, hp', rfl⟩ := (h8 p).1 hp
    obtain ⟨q, hq', rfl⟩ := (h8 q).1 hq
    obtain ⟨P, hP⟩ := balancerMain_parts hc
    have hH := (hP v).1 h1
    exact c77_balances_used hl hv hpos P.hbase hw hh _ hH.1 hH.2.1 T h2 _ _ _ _ hE hbal hX _ ((k2 F).1 hF) p q hp' hq' ((k1 p hp').1 hlp)
      ((k1 q hq').1 hlq)

/-! ### A case: one splitter on three columns, turned and mirrored in every way -/

/-- The printed layout of the case of C77 is valid, its turned and mirrored versions are what the operations produce, and they carry something in which
the inputs differ. -/
example (op : Operation) : (layoutArr exShareGrid exShareLayout).AllValid ∧
    op.Produces (layoutArr exShareGrid exShareLayout) (op.turned (layoutArr exShareGrid exShareLayout)) ∧
    ∃ F, Carries (op.turned (layoutArr exShareGrid exShareLayout)).In (op.turned (layoutArr exShareGrid exShareLayout)).nb
        (op.turned (layoutArr exShareGrid exShareLayout)).board
        (Connected (op.turned (layoutArr exShareGrid exShareLayout)).nb (op.turned (layoutArr exShareGrid exShareLayout)).board)
        (fun q => ∃ p, exShareGrid.inputAt exShareAsg p ∧ op.pos exShareGrid.width exShareGrid.height p = q) F ∧
      F (op.pos 3 2 (0, 0)) = 1 ∧ F (op.pos 3 2 (0, 1)) = 5 ∧ F (op.pos 3 2 (2, 0)) = 3 ∧ F (op.pos 3 2 (2, 1)) = 3 := by
  have hg : exShareGrid.WF := mkGrid_wf (by decide) (by decide) _ _ _ (by rintro _ ⟨⟩; decide) _ _
  have hw : exShareGrid.NoWrap := ⟨rfl, rfl⟩
  have hval : (layoutArr exShareGrid exShareLayout).AllValid := by
    intro y x
    show (exShareLayout (x.val, y.val)).Valid
    unfold exShareLayout
    split <;> simp [Tile.Valid, Dir.opp]
  refine ⟨hval, op.produces_map _ hval, ?_⟩
  obtain ⟨_, _, _, -, -, -, -, -, -, -, -, -, hF⟩ := exShare_case
  have hto : ∀ p, (op.moves_surj (layoutArr exShareGrid exShareLayout) (op.moves (layoutArr exShareGrid exShareLayout) p)).choose = p :=
    fun p => op.pos_inj _ _ (op.moves_surj (layoutArr exShareGrid exShareLayout) (op.moves (layoutArr exShareGrid exShareLayout) p)).choose_spec
  obtain ⟨G, hG⟩ : ∃ G : Int × Int → ℚ, ∀ p, G (op.pos 3 2 p) = exShareFlow (p.1.toNat, p.2.toNat) :=
    ⟨fun q => exShareFlow ((op.moves_surj (layoutArr exShareGrid exShareLayout) q).choose.1.toNat,
      (op.moves_surj (layoutArr exShareGrid exShareLayout) q).choose.2.toNat), fun p => by
        have := hto p
        simp only
        exact congrArg (fun r : Int × Int => exShareFlow (r.1.toNat, r.2.toNat)) this⟩
  refine ⟨G, ?_, ?_⟩
  · rw [op.carries_turned]
    refine (copy_area hg hw exShareLayout).carries_back (supplied := fun p => ev exShareAsg (exShareGrid.at' p).isInput = true) (fun p hp => ?_) ?_
    · constructor
      · rintro ⟨p1, ⟨p2, _, rfl, h⟩, e⟩
        rw [← toPlane_inj _ _ (op.pos_inj _ _ e)]
        exact h
      · intro h
        exact ⟨toPlane p, ⟨p, hp, rfl, h⟩, rfl⟩
    · have : (fun p : Nat × Nat => G (op.moves (layoutArr exShareGrid exShareLayout) (toPlane p))) = exShareFlow := by
        funext p
        exact (hG (toPlane p)).trans (by simp [toPlane])
      exact this ▸ hF
  · refine ⟨(hG _).trans ?_, (hG _).trans ?_, (hG _).trans ?_, (hG _).trans ?_⟩ <;> simp [exShareFlow]

/-- The other hypotheses of `c114_balancer` are met. -/
example : ∃ node cs s', exOne.Valid ∧ (∀ c ∈ netColours exOne, 0 ≤ c) ∧ (∀ e ∈ exOne, 0 < e.2) ∧
    balancerMain naiveLib exOne 3 2 (some 4) {} = .ok (exShareGrid, node, cs, s') ∧ Sat exShareAsg cs ∧ Ends (elements exOne) 0 2 1 2 ∧
    IsBalancer (elements exOne) 0 1 ∧ AllOutputsUsed (elements exOne) := by
  obtain ⟨n, h1, h2, h3, -⟩ := open2x2
  obtain ⟨_, _, _, k1, k2, k3, -, -, k6, k7, k8, -, -⟩ := exShare_case
  obtain ⟨g, node, cs, s', h8, h9⟩ := balancerCnf_ok exShareMain_sat
  have hg : g = exShareGrid := by
    obtain ⟨P, -⟩ := balancerMain_parts h8
    have := P.hbase.symm.trans k3
    simp only [Except.ok.injEq, Prod.mk.injEq] at this
    exact this.1
  subst hg
  exact ⟨node, cs, s', k1, k2, by decide, h8, h9, k7, k8, h3⟩

end FSat
