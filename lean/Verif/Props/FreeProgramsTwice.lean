import Verif.Lemmas.CheckClauses
import Verif.Props.FreePrograms
/-!
# C92: layouts that are printed twice
-/

namespace FSat

/-- A solution for one input and two outputs on six columns and five rows. -/
def twiceAsg : Asg := fun x => Nat.testBit 0x211fffe3fe808c0f8878efa02203eabe3ce80c00faa2af24000055e1ebe7000017fffaffc00005fffe9fe808c0fa87a77a03003ebf43ae84080faaf8f3a022035e1eb7f008927affaf7c02283fffe3fe800017aafa77a10203ea9e1fe008127affa7ba002499ebe17e008027fffaffc00005fffe9fe800017fffa7fa04203ffff1ff008827f87a7fa02209fffe9fe80c00ffffaffc00005fffe3fe800017fffa3fa08403fffe9fe82200faafa73a08803fffe9fe84200ffffaffc00004 x

/-- Another one. -/
def twiceAsg' : Asg := fun x => Nat.testBit 0x211fffe3fe808c0fa878f7a02203eabe3e880c00d2a2af04000055e1ebe7000017fffaffc00005fffe9fe808c0fa87a77a03003ea943aa84080fa850f3202203161eb7f00892787faf7c02283fffe3fe800017aafa77a10203e29f1cf008927affa73a02249bebe17e008027fffaffc00005fffe9fe800017fffa7fa04203fffe1fe008027f87a7fa00209fffe9fe80c00ffffaffc00005fffe3fe800017fffa7fa08403febe9fe82200faffa73a08803fffe9fe84200ffffaffc00004 x

/-- The members of a tile without colours whose first variable is `b + 1`. -/
def twiceTile (b : Nat) : TileInst :=
  let l := fun n => (⟨b + n, true⟩ : Lit)
  ⟨l 1, l 2, l 3, l 4, l 5, l 6, l 7, l 8, byDir [l 9, l 10, l 11, l 12], byDir [l 13, l 14, l 15, l 16],
    byDir [l 17, l 18, l 19, l 20], [], [], []⟩

/-- The grid of both. -/
def twiceGrid : Grid := ⟨6, 5, ⟨false, false⟩, none, some 4, fun x y => twiceTile ((y * 6 + x) * 50)⟩

theorem twiceGrid_eq : mkGrid 6 5 ⟨false, false⟩ none (some 4) (nToMFields 1 2 2) 0 = twiceGrid := by
  have : ∀ x y, toTileInst none (nToMFields 1 2 2) (cellInstance 6 none (nToMFields 1 2 2) 0 x y) = twiceTile ((y * 6 + x) * 50) := by
    intro x y
    unfold cellInstance
    rw [Nat.zero_add]
    rfl
  unfold mkGrid
  simp only [this]
  rfl

/-- The flows of its tiles. -/
def twiceLits (p : Nat × Nat) : FlowLits × FlowLits :=
  let l := fun n => (⟨(p.2 * 6 + p.1) * 50 + n, true⟩ : Lit)
  (⟨[[l 21, l 22]], [[l 23, l 24]], [[l 25, l 26]], [[l 27, l 28]], [[l 29, l 30]]⟩,
    ⟨[[l 31, l 32], [l 33, l 34]], [[l 35, l 36], [l 37, l 38]], [[l 39, l 40], [l 41, l 42]], [[l 43, l 44], [l 45, l 46]],
      [[l 47, l 48], [l 49, l 50]]⟩)

theorem twiceLits_eq : nToMLits 6 1 2 2 = twiceLits := by
  funext p
  unfold nToMLits cellInstance
  rw [Nat.zero_add]
  rfl

theorem twice_size : 5 * 6 * (gridFields none (nToMFields 1 2 (maxBeltFlow 1 2).size)).variableCount = 1500 := by decide +kernel

theorem twice_build {v : Asg} (h1 : okB v (nToMClauses twiceGrid (fun p => (twiceLits p).1) (fun p => (twiceLits p).2) 1 2) = true)
    (h2 : okB v ((Gen.all [freeBalancerEnds twiceGrid 1 2 true, Gen.pure (.ok (blockBelts twiceGrid (.ofPair false true))),
      Gen.pure (.ok (preventIntersection twiceGrid)), Gen.pure (enforceMaximumUndergroundLength twiceGrid)] 1500).map Prod.fst) = true)
    (h3 : okB v (joinE [expandUnderground twiceGrid { minX := 1, maxX := some ((twiceGrid.width : Int) - 2) },
      applyGenericOptimisations twiceGrid, preventDoubleEdgeBelts twiceGrid]) = true) :
    ∃ g cs s, freeProgram 6 5 (some 4) 1 2 true none = .ok (g, cs, s) ∧ Sat v cs := by
  obtain ⟨c1, e1, s1⟩ := okB_iff.1 h1
  obtain ⟨c2, e2, s2⟩ := okB_iff.1 h2
  obtain ⟨c3, e3, s3⟩ := okB_iff.1 h3
  obtain ⟨cs, e0, e0'⟩ := createNToM_eq (width := 6) (height := 5) (m := 1) (n := 2) (ugLen := some 4) (by decide) (by decide) (by decide)
    (by decide) (by decide)
  have hb : (maxBeltFlow 1 2).size = 2 := by decide +kernel
  rw [twice_size] at e0
  rw [hb, twiceGrid_eq] at e0 e0'
  rw [twiceLits_eq] at e0'
  have hcs : cs = c1 := Except.ok.inj (e0'.symm.trans e1)
  subst hcs
  cases h : Gen.all [freeBalancerEnds twiceGrid 1 2 true, Gen.pure (.ok (blockBelts twiceGrid (.ofPair false true))),
      Gen.pure (.ok (preventIntersection twiceGrid)), Gen.pure (enforceMaximumUndergroundLength twiceGrid)] 1500 with
  | error e => rw [h] at e2; cases e2
  | ok r =>
    rw [h] at e2
    have hr : r.1 = c2 := Except.ok.inj e2
    refine ⟨twiceGrid, (cs ++ r.1) ++ c3, r.2, ?_, ?_⟩
    · have hf : freeBalancer 6 5 (some 4) 1 2 true = .ok (twiceGrid, cs ++ r.1, r.2) := by
        unfold freeBalancer
        rw [e0]
        show (match Gen.all [freeBalancerEnds twiceGrid 1 2 true, Gen.pure (.ok (blockBelts twiceGrid (.ofPair false true))),
          Gen.pure (.ok (preventIntersection twiceGrid)), Gen.pure (enforceMaximumUndergroundLength twiceGrid)] 1500 with
          | .error e => .error e
          | .ok (cs', s') => .ok (twiceGrid, cs ++ cs', s') : Except PyErr (Grid × Cnf × Nat)) = _
        rw [h]
      unfold freeProgram freeBalancerMain
      rw [hf]
      simp only [e3, withPartial]
    · rw [hr]
      exact (Sat_append _ _ _).2 ⟨(Sat_append _ _ _).2 ⟨s1, s2⟩, s3⟩

theorem twice_plain : okB twiceAsg (nToMClauses twiceGrid (fun p => (twiceLits p).1) (fun p => (twiceLits p).2) 1 2) = true := by
  unfold nToMClauses
  refine okB_join ?_
  simp only [List.mem_cons, List.not_mem_nil, or_false, forall_eq_or_imp, forall_eq]
  refine ⟨by decide +kernel, by decide +kernel, by decide +kernel, okB_concat (by decide +kernel), by decide +kernel, by decide +kernel,
    okB_concat ?_, by decide +kernel, by decide +kernel, by decide +kernel, by decide +kernel, by decide +kernel, by decide +kernel⟩
  have h : (twiceGrid.cells.all fun p => Dir.all.all fun d => okB twiceAsg (nToMCell twiceGrid (fun p => (twiceLits p).1)
    (fun p => (twiceLits p).2) p d)) = true := by decide +kernel
  rw [List.all_eq_true]
  exact fun p hp => okB_concat (List.all_eq_true.1 h p hp)

theorem twice_ends : okB twiceAsg ((Gen.all [freeBalancerEnds twiceGrid 1 2 true, Gen.pure (.ok (blockBelts twiceGrid (.ofPair false true))),
    Gen.pure (.ok (preventIntersection twiceGrid)), Gen.pure (enforceMaximumUndergroundLength twiceGrid)] 1500).map Prod.fst) = true := by
  decide +kernel

theorem twice_tidy : okB twiceAsg (joinE [expandUnderground twiceGrid { minX := 1, maxX := some ((twiceGrid.width : Int) - 2) },
    applyGenericOptimisations twiceGrid, preventDoubleEdgeBelts twiceGrid]) = true := by
  refine okB_join ?_
  simp only [List.mem_cons, List.not_mem_nil, or_false, forall_eq_or_imp, forall_eq]
  exact ⟨by decide +kernel, by decide +kernel, by decide +kernel⟩

theorem twice_sat : ∃ g cs s, freeProgram 6 5 (some 4) 1 2 true none = .ok (g, cs, s) ∧ Sat twiceAsg cs :=
  twice_build twice_plain twice_ends twice_tidy

theorem twice_plain' : okB twiceAsg' (nToMClauses twiceGrid (fun p => (twiceLits p).1) (fun p => (twiceLits p).2) 1 2) = true := by
  unfold nToMClauses
  refine okB_join ?_
  simp only [List.mem_cons, List.not_mem_nil, or_false, forall_eq_or_imp, forall_eq]
  refine ⟨by decide +kernel, by decide +kernel, by decide +kernel, okB_concat (by decide +kernel), by decide +kernel, by decide +kernel,
    okB_concat ?_, by decide +kernel, by decide +kernel, by decide +kernel, by decide +kernel, by decide +kernel, by decide +kernel⟩
  have h : (twiceGrid.cells.all fun p => Dir.all.all fun d => okB twiceAsg' (nToMCell twiceGrid (fun p => (twiceLits p).1)
    (fun p => (twiceLits p).2) p d)) = true := by decide +kernel
  rw [List.all_eq_true]
  exact fun p hp => okB_concat (List.all_eq_true.1 h p hp)

theorem twice_ends' : okB twiceAsg' ((Gen.all [freeBalancerEnds twiceGrid 1 2 true, Gen.pure (.ok (blockBelts twiceGrid (.ofPair false true))),
    Gen.pure (.ok (preventIntersection twiceGrid)), Gen.pure (enforceMaximumUndergroundLength twiceGrid)] 1500).map Prod.fst) = true := by
  decide +kernel

theorem twice_tidy' : okB twiceAsg' (joinE [expandUnderground twiceGrid { minX := 1, maxX := some ((twiceGrid.width : Int) - 2) },
    applyGenericOptimisations twiceGrid, preventDoubleEdgeBelts twiceGrid]) = true := by
  refine okB_join ?_
  simp only [List.mem_cons, List.not_mem_nil, or_false, forall_eq_or_imp, forall_eq]
  exact ⟨by decide +kernel, by decide +kernel, by decide +kernel⟩

theorem twice_sat' : ∃ g cs s, freeProgram 6 5 (some 4) 1 2 true none = .ok (g, cs, s) ∧ Sat twiceAsg' cs :=
  twice_build twice_plain' twice_ends' twice_tidy'

theorem twice_same : ∀ x < 6, ∀ y < 5, (decodeCell twiceGrid twiceAsg (x, y)).toOption = (decodeCell twiceGrid twiceAsg' (x, y)).toOption ∧
    (decodeCell twiceGrid twiceAsg (x, y)).toOption ≠ none := by decide +kernel

theorem twice_diff : ∃ x ∈ (importantLits twiceGrid true).map Lit.var, twiceAsg x ≠ twiceAsg' x := by decide +kernel

theorem same_cell {g : Grid} {v v' : Asg} {p : Nat × Nat} (h : (decodeCell g v p).toOption = (decodeCell g v' p).toOption ∧
    (decodeCell g v p).toOption ≠ none) : decodeCell g v p = decodeCell g v' p := by
  cases h1 : decodeCell g v p with
  | error e => rw [h1] at h; exact (h.2 rfl).elim
  | ok t =>
    cases h2 : decodeCell g v' p with
    | error e => rw [h1, h2] at h; cases h.1
    | ok t' => rw [h1, h2] at h; exact congrArg _ (Option.some.inj h.1)

/-- For different numbers of inputs and outputs a layout may be printed more than once: with one input and two outputs on six columns and
five rows, two splitters that touch in both rows may be connected in either. -/
theorem c92_mix_once_refuted : ∃ (width height m n : Nat) (ugLen : Option Nat) (g : Grid) (cs : Cnf) (s : Nat),
    freeProgram width height ugLen m n true none = .ok (g, cs, s) ∧ ∀ (solver : Oracle) (fuel : Nat), CorrectSolver solver →
      (itersolve solver ((importantLits g true).map Lit.var) fuel cs).2 = true →
      ∃ a b T, [a, b].Subperm (itersolve solver ((importantLits g true).map Lit.var) fuel cs).1 ∧
        Decodes g (asgOf a) T ∧ Decodes g (asgOf b) T := by
  obtain ⟨g, cs, s, h, hv⟩ := twice_sat
  obtain ⟨g', cs', s', h', hv'⟩ := twice_sat'
  rw [h] at h'
  simp only [Except.ok.injEq, Prod.mk.injEq] at h'
  obtain ⟨rfl, rfl, rfl⟩ := h'
  obtain ⟨cs0, cs1, h0, rfl, _⟩ := withPartial_exact h
  obtain ⟨cb, cb', eb, rfl⟩ := mainClauses_parts h0
  obtain ⟨hg, hi⟩ := nToM_first (by decide) (by decide) (by decide) (by decide) (by decide) eb
  have hi := (hi.append cb').append cs1
  obtain ⟨cs0, e0, _⟩ := createNToM_eq (width := 6) (height := 5) (m := 1) (n := 2) (ugLen := some 4) (by decide) (by decide) (by decide)
    (by decide) (by decide)
  have hgg : g = twiceGrid := by
    obtain ⟨c, s, hc⟩ := freeBalancer_grid eb
    rw [e0] at hc
    simp only [Except.ok.injEq, Prod.mk.injEq] at hc
    rw [← hc.1, ← twiceGrid_eq]
    rfl
  subst hgg
  exact ⟨6, 5, 1, 2, some 4, _, _, _, h, fun solver fuel hs hd => run_twice hg ⟨rfl, rfl⟩ hi hv hv'
    (fun p hp => same_cell (twice_same p.1 hp.1 p.2 hp.2)) twice_diff hs hd⟩

/-- Another solution for the network of two splitters, one in front of the other. -/
def exOnceAsg : Asg := fun x => Nat.testBit 0x54023035202048d00024850022825402302520220850022085002282 x

/-- The mirrored one. -/
def exOnceAsg' : Asg := fun x => Nat.testBit 0x54023035202248d00224850022825402302520200850002085002282 x

theorem ex_sat : okSat exOnceAsg (balancerCnf (exMain { fast := true, aligned := true })) = true := by decide +kernel

theorem ex_sat' : okSat exOnceAsg' (balancerCnf (exMain { fast := true, aligned := true })) = true := by decide +kernel

/-- The grid of both. -/
def exTwiceGrid : Grid := mkGrid 4 2 ⟨false, false⟩ (some 3) (some 4) (nodeFields 2) 0

theorem ex_same : ∀ x < 4, ∀ y < 2, (decodeCell exTwiceGrid exOnceAsg (x, y)).toOption = (decodeCell exTwiceGrid exOnceAsg' (x, y)).toOption ∧
    (decodeCell exTwiceGrid exOnceAsg (x, y)).toOption ≠ none := by decide +kernel

theorem ex_diff : ∃ x ∈ (importantLits exTwiceGrid true).map Lit.var, exOnceAsg x ≠ exOnceAsg' x := by decide +kernel

/-- So it is with `belt_balancer`: for the network of two splitters that are connected by one belt, the layout with one directly in front of
the other is printed twice. -/
theorem c92_balancer_once_refuted : ∃ (lib : CardLib) (net : PyDict Node Nat) (o : BalancerOptions) (width height : Nat) (ugLen : Option Nat)
    (g : Grid) (node : Nat × Nat → List Lit) (cs : Cnf) (s : Nat), lib.Correct ∧ net.Valid ∧
    balancerMain lib net width height ugLen o = .ok (g, node, cs, s) ∧ ∀ (solver : Oracle) (fuel : Nat), CorrectSolver solver →
      (itersolve solver ((importantLits g true).map Lit.var) fuel cs).2 = true →
      ∃ a b T, [a, b].Subperm (itersolve solver ((importantLits g true).map Lit.var) fuel cs).1 ∧
        Decodes g (asgOf a) T ∧ Decodes g (asgOf b) T := by
  obtain ⟨g, node, cs, s, h, hv⟩ := balancerCnf_ok ex_sat
  obtain ⟨g', node', cs', s', h', hv'⟩ := balancerCnf_ok ex_sat'
  rw [h] at h'
  simp only [Except.ok.injEq, Prod.mk.injEq] at h'
  obtain ⟨rfl, rfl, rfl, rfl⟩ := h'
  have hi := balancerMain_first h
  obtain ⟨P, _⟩ := balancerMain_parts h
  have hgg : g = exTwiceGrid := createBalancer_grid P.hbase (m := 2) (by decide)
  subst hgg
  exact ⟨naiveLib, exNet, _, 4, 2, some 4, _, _, _, _, naiveLib_correct, by unfold PyDict.Valid; decide, h, fun solver fuel hs hd =>
    run_twice (mkGrid_wf (by decide) (by decide) _ _ _ (by rintro n ⟨⟩; decide) _ _) ⟨rfl, rfl⟩ hi hv hv'
      (fun p hp => same_cell (ex_same p.1 hp.1 p.2 hp.2)) ex_diff hs hd⟩

end FSat
