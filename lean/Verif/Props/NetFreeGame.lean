import Verif.Model.NetFreeMain
import Verif.Props.NetFreeMix
import Verif.Lemmas.FlowCheck
import Verif.Lemmas.CheckClauses
/-!
# C30: a layout that does not balance

The clauses treat a splitter whose end is not used as not connected there.  Two splitters directly behind each other are connected in
the game wherever they touch.
-/

set_option linter.unusedSimpArgs false

namespace FSat

/-! ### The grid -/

/-- The members of a tile whose first variable is `b + 1`. -/
def plainTile (b : Nat) : TileInst :=
  let l := fun n => (⟨b + n, true⟩ : Lit)
  ⟨l 1, l 2, l 3, l 4, l 5, l 6, l 7, l 8, byDir [l 9, l 10, l 11, l 12], byDir [l 13, l 14, l 15, l 16],
    byDir [l 17, l 18, l 19, l 20], [], [], []⟩

theorem mkGrid_plain (w h : Nat) (e : EdgeMode) (L : Option Nat) (ex : TFields) (s : Nat) :
    mkGrid w h e none L ex s = ⟨w, h, e, none, L, fun x y => plainTile (s + (y * w + x) * (gridFields none ex).variableCount)⟩ := rfl

/-- The grid of the example. -/
def gameGrid : Grid := ⟨6, 4, ⟨false, false⟩, none, some 4, fun x y => plainTile ((y * 6 + x) * 110)⟩

theorem gameGrid_eq : mkGrid 6 4 ⟨false, false⟩ none (some 4) (nToMFields 2 4 3) 0 = gameGrid := by
  rw [mkGrid_plain]
  simp only [Nat.zero_add]
  rfl

/-- `k` numbers of three bits. -/
def threeBits (b k : Nat) : List (List Lit) := (List.range k).map fun i => [⟨b + 3 * i + 1, true⟩, ⟨b + 3 * i + 2, true⟩, ⟨b + 3 * i + 3, true⟩]

/-- The flow members of the example. -/
def gameF (p : Nat × Nat) : FlowLits :=
  let b := (p.2 * 6 + p.1) * 110 + 20
  ⟨threeBits b 2, threeBits (b + 6) 2, threeBits (b + 12) 2, threeBits (b + 18) 2, threeBits (b + 24) 2⟩

/-- The flow members of the example. -/
def gameB (p : Nat × Nat) : FlowLits :=
  let b := (p.2 * 6 + p.1) * 110 + 50
  ⟨threeBits b 4, threeBits (b + 12) 4, threeBits (b + 24) 4, threeBits (b + 36) 4, threeBits (b + 48) 4⟩

theorem gameLits_eq (p : Nat × Nat) : nToMLits 6 2 4 3 p = (gameF p, gameB p) := by
  have : nToMLits 6 2 4 3 p = (⟨⟨(gameF p).flow, (gameF p).diff, (gameF p).carry, (gameF p).ux, (gameF p).uy⟩,
    ⟨(gameB p).flow, (gameB p).diff, (gameB p).carry, (gameB p).ux, (gameB p).uy⟩⟩ : FlowLits × FlowLits) := by
    unfold nToMLits cellInstance
    rw [Nat.zero_add]
    rfl
  exact this

/-- The assignment of the example: a variable is true if its bit is set. -/
def gameAsg : Asg := fun x => Nat.testBit 0x13fffffffffffe801fffffe4808c0fff9248000002007f04840202049ffe492000000801fc20640800017ff9201207ff124ff04a04200005ffe480000000493fc00490800017fffffffffff924ffffffc000005fffffffffffe101fffffe4808c0ffffff8007ffa407fffffa402209ffdffffffffe481ffe4fe4808927fffff920000124fff8320402049fffffe000000493fff2490000017fffffffffff924ffffff8800005fffffffffffe021fffffe4808c0fff8080000000487e4c802402049ffe020010000481f924804800827fffff804fffa407ffa5fa402209ffffff248000493fff2490008927fffffffffff924ffffffc002283fffffffffffe005fffffe4808c0ffffffffffff8097fffffa402209fffffffffffe025fffffe900880ffffffffffff8097fffffa402203fffffffffffe493fffffe2008827fffffffffff924ffffff8802282 x

theorem game_init : okB gameAsg (initClauses gameGrid) = true := by decide +kernel
theorem game_shut : satB gameAsg (blockUnderground gameGrid (.ofBool true)) = true := by decide +kernel
theorem game_under : satB gameAsg (preventBadUndergrounding gameGrid) = true := by decide +kernel
theorem game_tiles : (gameGrid.cells.all fun p => okB gameAsg (nToMTile (gameF p) (gameB p) (maxBeltFlow 2 4))) = true := by decide +kernel
theorem game_forward : okB gameAsg (transportQuantity gameGrid (fun p => (gameF p).flow.flatten) (fun p => (gameF p).ux.flatten)
    (fun p => (gameF p).uy.flatten)) = true := by decide +kernel
theorem game_backward : okB gameAsg (transportQuantity gameGrid (fun p => (gameB p).flow.flatten) (fun p => (gameB p).ux.flatten)
    (fun p => (gameB p).uy.flatten)) = true := by decide +kernel
theorem game_cells : (gameGrid.cells.all fun p => Dir.all.all fun d => okB gameAsg (nToMCell gameGrid gameF gameB p d)) = true := by
  decide +kernel

/-- What `create_n_to_m_balancer` generates is satisfied. -/
theorem game_clauses : okB gameAsg (nToMClauses gameGrid gameF gameB 2 4) = true := by
  unfold nToMClauses
  refine okB_join ?_
  simp only [List.mem_cons, List.not_mem_nil, or_false, forall_eq_or_imp, forall_eq]
  refine ⟨game_init, game_shut, game_under, okB_concat game_tiles, game_forward, game_backward,
    okB_concat ?_, by decide +kernel, by decide +kernel, by decide +kernel, by decide +kernel, by decide +kernel, by decide +kernel⟩
  rw [List.all_eq_true]
  exact fun p hp => okB_concat (List.all_eq_true.1 game_cells p hp)

/-- The clauses of a generator. -/
def genCnf (e : Except PyErr (Cnf × Nat)) : Except PyErr Cnf :=
  match e with
  | .error e => .error e
  | .ok (cs, _) => .ok cs

theorem game_ends : okB gameAsg (genCnf (Gen.all [freeBalancerEnds gameGrid 2 4 false,
    Gen.pure (.ok (blockBelts gameGrid (.ofPair false true))),
    Gen.pure (.ok (preventIntersection gameGrid)),
    Gen.pure (enforceMaximumUndergroundLength gameGrid)] 2640)) = true := by decide +kernel

theorem game_rest : okB gameAsg (joinE [expandUnderground gameGrid { minX := 1, maxX := some ((gameGrid.width : Int) - 2) },
    applyGenericOptimisations gameGrid, preventDoubleEdgeBelts gameGrid]) = true := by
  refine okB_join ?_
  simp only [List.mem_cons, List.not_mem_nil, or_false, forall_eq_or_imp, forall_eq]
  exact ⟨by decide +kernel, by decide +kernel, by decide +kernel⟩

theorem game_ok : ∃ cs s, freeBalancerMain 6 4 (some 4) 2 4 false = .ok (gameGrid, cs, s) ∧ Sat gameAsg cs := by
  obtain ⟨c1, e1, s1⟩ := okB_iff.1 game_clauses
  obtain ⟨c2, e2, s2⟩ := okB_iff.1 game_ends
  obtain ⟨c3, e3, s3⟩ := okB_iff.1 game_rest
  have hM : (maxBeltFlow 2 4).size = 3 := by decide +kernel
  have h1 : createNToM 6 4 (some 4) 2 4 = .ok (gameGrid, c1, 2640) := by
    unfold createNToM
    rw [if_pos (by decide), if_neg (by decide)]
    simp only [hM, gameLits_eq, gameGrid_eq, e1]
    rfl
  unfold genCnf at e2
  split at e2
  · cases e2
  · rename_i cs s e4
    cases e2
    refine ⟨(c1 ++ c2) ++ c3, s, ?_, (Sat_append _ _ _).2 ⟨(Sat_append _ _ _).2 ⟨s1, s2⟩, s3⟩⟩
    unfold freeBalancerMain freeBalancer
    simp only [h1, e4, e3]

/-- The layout of the example: two inputs, four outputs. -/
def gameLayout (p : Nat × Nat) : Tile :=
  let rows : List (List Nat) := [[1, 2, 1, 1, 2, 1], [1, 3, 2, 2, 3, 1], [0, 0, 3, 3, 2, 1], [0, 0, 0, 0, 3, 1]]
  match (rows.getD p.2 []).getD p.1 0 with
  | 0 => .empty
  | 1 => .belt .right .right
  | 2 => .splitter .right false
  | _ => .splitter .right true

theorem game_decodes : Decodes gameGrid gameAsg gameLayout := by
  have key : ∀ x < 6, ∀ y < 4, (decodeCell gameGrid gameAsg (x, y)).toOption = some (gameLayout (x, y)) := by decide +kernel
  intro p hp
  have := key p.1 hp.1 p.2 hp.2
  cases h : decodeCell gameGrid gameAsg p with
  | error e => rw [show (p.1, p.2) = p from rfl, h] at this; cases this
  | ok t => rw [show (p.1, p.2) = p from rfl, h] at this; exact congrArg _ (Option.some.inj this)

/-- How much passes each cell when both inputs get four. -/
def gameFlow (p : Nat × Nat) : Nat :=
  let rows : List (List Nat) := [[4, 4, 4, 4, 4, 3], [4, 4, 4, 2, 2, 3], [0, 0, 0, 2, 2, 1], [0, 0, 0, 0, 0, 1]]
  (rows.getD p.2 []).getD p.1 0

/-- C30 as claimed fails in the game: the program accepts this layout for two inputs and four outputs (with all that `main` adds), yet
in the game, where splitters that touch are connected, the first two output belts get three times as much as the last two. -/
theorem c30_game_refuted : ∃ (g : Grid) (cs : Cnf) (s : Nat) (v : Asg) (T : Nat × Nat → Tile) (F : Nat × Nat → Rat),
    freeBalancerMain 6 4 (some 4) 2 4 false = .ok (g, cs, s) ∧ Sat v cs ∧ Decodes g v T ∧
    (T (0, 0) = .belt .right .right ∧ T (0, 1) = .belt .right .right ∧ T (0, 2) = .empty ∧ T (0, 3) = .empty ∧
      ∀ y < 4, T (5, y) = .belt .right .right) ∧
    Steady g.In g.nb T (Connected g.nb T) F ∧
    F (0, 0) = 4 ∧ F (0, 1) = 4 ∧ F (5, 0) = 3 ∧ F (5, 1) = 3 ∧ F (5, 2) = 1 ∧ F (5, 3) = 1 := by
  obtain ⟨cs, s, h1, h2⟩ := game_ok
  have hg : gameGrid.WF := gameGrid_eq ▸ mkGrid_wf (by decide) (by decide) _ none _ (by intro n h; cases h) _ _
  have hF : steadyB gameGrid gameLayout gameFlow = true := by decide +kernel
  exact ⟨gameGrid, cs, s, gameAsg, gameLayout, _, h1, h2, game_decodes, by decide, steadyB_sound hg hF, by norm_num [gameFlow], by norm_num [gameFlow],
    by norm_num [gameFlow], by norm_num [gameFlow], by norm_num [gameFlow], by norm_num [gameFlow]⟩

end FSat
