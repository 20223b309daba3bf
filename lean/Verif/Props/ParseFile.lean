import Verif.Lemmas.RenameFlow
import Verif.Props.ParsePrinted
import Verif.Props.BalancesUsed
import Verif.Props.Recolour
/-!
# C115: tidying, recolouring and writing a network keep what it does

Together with the theorems on `network parse` of C104 this covers the way from the output of `belt_balancer` back to a network file.
-/

namespace FSat

/-- C115: tidying a network keeps its inputs and outputs, and exactly the same flows from them to the outputs. -/
theorem c115_tidy (ord : List Colour → List Colour) (hord : SetOrder ord) (n : Network) {a b p q : Int} (hE : Ends n a p b q) :
    ∃ m a' b', tidyNetwork ord n = .ok m ∧ Ends m a' p b' q ∧
      ∀ I O, (∃ flow, NetworkFlow m a' b' flow I O) ↔ ∃ flow, NetworkFlow n a b flow I O := by
  obtain ⟨f, m, m', e, hinj, hp, hs, -⟩ := c64_tidy ord hord n
  have hsur : ∀ {m m' : Network}, List.Forall₂ SameNode m m' → ∀ c, surplus m c = surplus m' c := by
    intro m m' h c
    induction h with
    | nil => rfl
    | cons h _ ih =>
      rw [surplus_cons, surplus_cons, ih]
      obtain ⟨h1, h2⟩ := h
      unfold SameSide at h1 h2
      rcases h1 with h1 | h1 <;> rcases h2 with h2 | h2 <;> rw [h1, h2] <;> ring
  refine ⟨m, f a, f b, e, (Ends.congr (fun c => (hsur hs c).trans (surplus_perm hp c)) _ _ _ _).2 (hE.rename f hinj), fun I O => ?_⟩
  rw [flow_sides_iff hs, ← flow_rename_iff (f := f) (n := n) (a := a) (b := b) ?_]
  · exact ⟨fun ⟨flow, h⟩ => ⟨flow, h.perm hp⟩, fun ⟨flow, h⟩ => ⟨flow, h.perm hp.symm⟩⟩
  · have mem : ∀ c, some c ∈ some a :: some b :: (insOf n ++ outsOf n) → some c ∈ insOf n ++ outsOf n := by
      intro c hc
      rcases List.mem_cons.1 hc with h | hc
      · exact h ▸ List.mem_append_left _ hE.mem_in
      · rcases List.mem_cons.1 hc with h | hc
        · exact h ▸ List.mem_append_right _ hE.mem_out
        · exact hc
    exact fun c d hc hd => hinj c d (mem c hc) (mem d hd)

/-- C115: a tidied network is a balancer exactly if it was one. -/
theorem c115_tidy_balancer (ord : List Colour → List Colour) (hord : SetOrder ord) (n : Network) {a b p q : Int} (hE : Ends n a p b q) :
    ∃ m a' b', tidyNetwork ord n = .ok m ∧ Ends m a' p b' q ∧ (IsBalancer m a' b' ↔ IsBalancer n a b) := by
  obtain ⟨m, a', b', e, h1, h2⟩ := c115_tidy ord hord n hE
  refine ⟨m, a', b', e, h1, fun h flow I O hf => ?_, fun h flow I O hf => ?_⟩
  · obtain ⟨flow', hf'⟩ := (h2 I O).2 ⟨flow, hf⟩
    exact h flow' I O hf'
  · obtain ⟨flow', hf'⟩ := (h2 I O).1 ⟨flow, hf⟩
    exact h flow' I O hf'

section
variable {ordP : List (Int × Int) → List (Int × Int)} (hP : ∀ l, (ordP l).Perm l) {ordT : List Colour → List Colour} (hT : SetOrder ordT)
include hP hT

open Classical in
/-- C115: the file that `network parse` writes for a line of solver output.  It can be opened, its network has as many inputs and outputs as
belts bring items into the splitters of the layout and take them out, and the flows through it are exactly those of the layout. -/
theorem c115_file {text line : List Char} {rest : List (List Char)} {a : Arr Tile} (hi : IsInput text (line :: rest))
    (hs : SolutionLine line a) (hv : a.AllValid) (hl : SoundLayout a.In a.nb a.board) (hin : ∃ p, BringsIn a.nb a.board p)
    (hout : ∃ p, TakesOut a.nb a.board p) {file : List Char} (hf : networkParse ordP ordT false text = some (.ok file)) :
    ∃ m x y, openNetwork file = .ok m ∧
      Ends m x (a.columns.countP fun p => BringsIn a.nb a.board p : Nat) y (a.columns.countP fun p => TakesOut a.nb a.board p : Nat) ∧
      ∀ I O, (∃ flow, NetworkFlow m x y flow I O) ↔ ∃ F, Steady a.In a.nb a.board (Connected a.nb a.board) F ∧
        I = ((a.columns.filter fun p => BringsIn a.nb a.board p).map F : List ℚ) ∧
        O = ((a.columns.filter fun p => TakesOut a.nb a.board p).map F : List ℚ) := by
  have key : networkParse ordP ordT false text = some (match parseNetwork ordP a false with
      | .error e => .error e
      | .ok n =>
        match tidyNetwork ordT n with
        | .error e => .error e
        | .ok n => .ok (saveNetwork n)) := by
    obtain ⟨cells, hc, ht⟩ := hs
    unfold networkParse
    rw [inputLines_of hi]
    simp only
    rw [hc.2.2]
    simp only
    rw [show Json.arr _ = cellsJson ⟨a.rows, a.cols, cells⟩ from rfl, gridOf_cells _ hc.1]
    simp only
    rw [eachCell_ok (f := cellTile) (a := ⟨a.rows, a.cols, cells⟩) (b := a.get) fun y x => cellTile_of (cells_ok hc y x) (hv y x) (ht y x)]
    rfl
  rw [key] at hf
  cases hn : parseNetwork ordP a false with
  | error e => rw [hn] at hf; cases hf
  | ok n =>
    rw [hn] at hf
    obtain ⟨m, x, y, e, hE, hfl⟩ := c115_tidy ordT hT n ((gio_iff _ _ _ _ _).1 (c98_ends hl hP hn hin hout))
    obtain ⟨m2, total, e2, hc2⟩ := c64_colours ordT hT n
    simp only [e] at e2 hf
    cases e2
    cases hf
    refine ⟨m, x, y, c36_round_trip m fun h => ?_, hE, fun I O => (hfl I O).trans (c104_same hl hP hn I O)⟩
    have := (hc2 (-1)).1 h
    omega

end

section
variable {lib : CardLib} {net : PyDict Node Nat} {width height : Nat} {ugLen : Option Nat} {o : BalancerOptions} {g : Grid}
  {node : Nat × Nat → List Lit} {cs : Cnf} {s' : Nat}

/-- In the layout of a printed balancer, all belts that take items from its splitters out of the layout carry the same. -/
theorem printed_alike (hl : lib.Correct) (hv : net.Valid) (hpos : ∀ c ∈ netColours net, 0 ≤ c) (hw : 2 ≤ width) (hh : 2 ≤ height)
    (hc : balancerMain lib net width height ugLen o = .ok (g, node, cs, s')) (v : Asg) (hs : Sat v cs) (T : Nat × Nat → Tile)
    (hT : Decodes g v T) (a m a' n : Int) (hE : Ends (elements net) a m a' n) (hbal : IsBalancer (elements net) a a')
    (hX : AllOutputsUsed (elements net) ∨ AllInputsUsed (elements net) ∨ Apart g.In g.nb T) (F : Int × Int → ℚ)
    (hF : Steady (layoutArr g T).In (layoutArr g T).nb (layoutArr g T).board (Connected (layoutArr g T).nb (layoutArr g T).board) F) :
    ∀ p q, TakesOut (layoutArr g T).nb (layoutArr g T).board p → TakesOut (layoutArr g T).nb (layoutArr g T).board q → F p = F q := by
  classical
  intro p q hp hq
  obtain ⟨P, hP⟩ := balancerMain_parts hc
  have hH := (hP v).1 hs
  obtain ⟨k, V, a0, m0, b0, n0, hR⟩ := P.ready hl hpos hw hh
  have hg := hR.wf
  have hnw : g.NoWrap := by unfold Grid.NoWrap; rw [hR.edge]; exact ⟨rfl, rfl⟩
  have C := copy_layout hg hnw T
  obtain ⟨p, hp', rfl⟩ := (inArea T p).1 (takesOut_in hp)
  obtain ⟨q, hq', rfl⟩ := (inArea T q).1 (takesOut_in hq)
  have hG := (C.carries (supplied := fun _ => False) (fun _ _ => Iff.rfl) hF.carries).shut (fun p q d hp h => Grid.nb_opp hg hp h)
    (fun p => ev v (g.at' p).isInput = true)
  have := c77_balances_used hl hv hpos P.hbase hw hh v hH.1 hH.2.1 T hT a m a' n hE hbal hX _ hG p q hp' hq'
    ((C.leaves hp').1 hp.2.1) ((C.leaves hq').1 hq.2.1)
  have ne : ∀ {r}, g.In r → TakesOut (layoutArr g T).nb (layoutArr g T).board (toPlane r) → ¬ ∃ d b, T r = .splitter d b ∧ g.nb r d.opp = none :=
    fun hr ht ⟨d, b, h, _⟩ => ht.1 ⟨d, b, by rw [layout_board T hr, h]⟩
  rwa [if_neg (ne hp' hp), if_neg (ne hq' hq)] at this

/-- C104: the network read back from a printed balancer is a balancer, if the two inputs of all splitters of the given network are in use, or
the two outputs, or no two splitters of the layout touch. -/
theorem c104_printed_used (hl : lib.Correct) (hv : net.Valid) (hpos : ∀ c ∈ netColours net, 0 ≤ c) (hw : 2 ≤ width) (hh : 2 ≤ height)
    (hc : balancerMain lib net width height ugLen o = .ok (g, node, cs, s')) (v : Asg) (hs : Sat v cs) (T : Nat × Nat → Tile)
    (hT : Decodes g v T) (a m a' n : Int) (hE : Ends (elements net) a m a' n) (hbal : IsBalancer (elements net) a a')
    (hX : AllOutputsUsed (elements net) ∨ AllInputsUsed (elements net) ∨ Apart g.In g.nb T)
    {ord : List (Int × Int) → List (Int × Int)} (ho : ∀ l, (ord l).Perm l) {net' : Network}
    (h : parseNetwork ord (layoutArr g T) false = .ok net') : IsBalancer net' 0 (net'.length + 1) := by
  rw [c104_balancer (c104_sound hl hpos hw hh hc v hs T hT) ho h]
  exact printed_alike hl hv hpos hw hh hc v hs T hT a m a' n hE hbal hX

/-- C115: `belt_balancer | network parse`.  What the second program makes of the output of the first: nothing is read if there is no
balancer; and if a file is written, then it can be opened and holds a balancer, if the inputs of all splitters of the given network are in use, or
their outputs, or no two splitters of the layout touch. -/
theorem c115_program (hl : lib.Correct) (hv : net.Valid) (hpos : ∀ c ∈ netColours net, 0 ≤ c) (hw : 2 ≤ width) (hh : 2 ≤ height)
    (hc : balancerMain lib net width height ugLen o = .ok (g, node, cs, s')) {solver : Oracle} (hs : CorrectSolver solver)
    (hf : CompleteSolver solver) (fuel : Nat) {a i b j : Int} (hE : Ends (elements net) a i b j) (hbal : IsBalancer (elements net) a b)
    {ordP : List (Int × Int) → List (Int × Int)} (hP : ∀ l, (ordP l).Perm l) {ordT : List Colour → List Colour} (hT : SetOrder ordT) :
    let printed := balancerRun lib net width height ugLen o solver false fuel
    (printed.out = [] ∧ ¬ ∃ v, Sat v cs) ∨
    ∃ v T, Sat v cs ∧ Decodes g v T ∧ ∀ file, networkParse ordP ordT false printed.out = some (.ok file) →
      (∃ p, BringsIn (layoutArr g T).nb (layoutArr g T).board p) → (∃ p, TakesOut (layoutArr g T).nb (layoutArr g T).board p) →
      (AllOutputsUsed (elements net) ∨ AllInputsUsed (elements net) ∨ Apart g.In g.nb T) →
      ∃ m x y p q, openNetwork file = .ok m ∧ Ends m x p y q ∧ IsBalancer m x y := by
  classical
  intro printed
  have hprinted : printed = balancerRun lib net width height ugLen o solver false fuel := rfl
  unfold balancerRun itersolve itersolveFrom at hprinted
  rw [hc] at hprinted
  simp only [Bool.false_eq_true, if_false] at hprinted
  cases hq : solver 0 cs with
  | none =>
    rw [hq] at hprinted
    simp only [printLoop] at hprinted
    rw [hprinted]
    exact Or.inl ⟨rfl, hs.unsat 0 cs hq⟩
  | some m =>
    obtain ⟨l, T, e1, hdec, e3⟩ := balancer_prints hl hpos hc (hs.model 0 cs m hq) (hf 0 cs m hq)
    rw [hq] at hprinted
    simp only [printLoop, e1, Bool.false_eq_true, if_false] at hprinted
    have hprinted : printed = ⟨textOf [l], .finished⟩ := hprinted.trans (by simp [textOf])
    have hsat := (hs.model 0 cs m hq).asg
    rw [hprinted]
    refine Or.inr ⟨asgOf m, T, hsat, hdec, fun file hfile hin hout hX => ?_⟩
    have hsound := c104_sound hl hpos hw hh hc _ hsat T hdec
    have hval : (layoutArr g T).AllValid := by
      intro y x
      have := hsound.basic (toPlane (x.val, y.val)) ((inArea T _).2 ⟨_, ⟨x.isLt, y.isLt⟩, rfl⟩)
      rw [layout_board T ⟨x.isLt, y.isLt⟩] at this
      show (T (x.val, y.val)).Valid
      revert this
      cases T (x.val, y.val) <;> simp [Tile.Basic, Tile.Valid]
      exact fun h e => h e.symm
    obtain ⟨net', x, y, k1, k2, k3⟩ := c115_file hP hT (isInput_textOf (by simpa using e3.line)) (c96_printed e3) hval
      hsound hin hout hfile
    refine ⟨net', x, y, _, _, k1, k2, fun flow I O hfl u hu w hw' => ?_⟩
    obtain ⟨F, hF, rfl, rfl⟩ := (k3 I O).1 ⟨flow, hfl⟩
    obtain ⟨p, hp, rfl⟩ := List.mem_map.1 (Multiset.mem_coe.1 hu)
    obtain ⟨q, hq', rfl⟩ := List.mem_map.1 (Multiset.mem_coe.1 hw')
    exact printed_alike hl hv hpos hw hh hc _ hsat T hdec _ _ _ _ hE hbal hX F hF p q (by simpa using (List.mem_filter.1 hp).2)
      (by simpa using (List.mem_filter.1 hq').2)

end

/-- C115: numbering the colours of a network differently keeps its inputs and outputs and exactly the same flows. -/
theorem c115_renumbered {n : Network} {f : Int → Int} (hf : Renumbers n f) {a b p q : Int} (hE : Ends n a p b q) :
    Ends (rename f n) (f a) p (f b) q ∧
      ∀ I O, (∃ flow, NetworkFlow (rename f n) (f a) (f b) flow I O) ↔ ∃ flow, NetworkFlow n a b flow I O := by
  have uses : ∀ c, some c ∈ insOf n ++ outsOf n → UsesColour n c := fun c hc => by simpa [UsesColour] using hc
  have mem : ∀ c, some c ∈ some a :: some b :: (insOf n ++ outsOf n) → UsesColour n c := by
    intro c hc
    rcases List.mem_cons.1 hc with h | hc
    · exact uses c (h ▸ List.mem_append_left _ hE.mem_in)
    · rcases List.mem_cons.1 hc with h | hc
      · exact uses c (h ▸ List.mem_append_right _ hE.mem_out)
      · exact uses c hc
  exact ⟨hE.rename f fun c d hc hd => hf.inj c d (uses c hc) (uses d hd),
    flow_rename_iff fun c d hc hd => hf.inj c d (mem c hc) (mem d hd)⟩

/-- C115: whenever `optimise_colours` returns a network, it has the inputs, the outputs and the flows of the given one. -/
theorem c115_recoloured {ord : List Colour → List Colour} (ho : SetOrder ord) {solver : Oracle} (hs : CorrectSolver solver) {n m : Network}
    (hn : Countable n) (h : optimiseColours ord solver n = .ok m) {a b p q : Int} (hE : Ends n a p b q) :
    ∃ a' b', Ends m a' p b' q ∧ ∀ I O, (∃ flow, NetworkFlow m a' b' flow I O) ↔ ∃ flow, NetworkFlow n a b flow I O := by
  have same : m = n ∨ ∃ f, Renumbers n f ∧ m = rename f n := by
    by_cases hw : NumberingCost n ≤ 2 ^ Nat.clog 2 (Nat.clog 2 (numColours n) * (innerPairs n).length + 1)
    · by_cases h2 : 2 ≤ Nat.clog 2 (numColours n) * (innerPairs n).length
      · rcases optimise_cases ho hs hn h2 hw with ⟨-, e⟩ | ⟨f, hf, -, -, e⟩
        · rw [e] at h
          exact .inl (Except.ok.inj h).symm
        · rw [e] at h
          split at h
          · cases h
          · exact .inr ⟨f, hf, (Except.ok.inj h).symm⟩
      · have h0 : numColours n ≠ 0 := by
          intro h0
          obtain ⟨f, hf⟩ := exists_renumbers n
          have := hf.range a (by simpa [UsesColour] using List.mem_append_left (outsOf n) hE.mem_in)
          omega
        unfold optimiseColours at h
        rw [calculateCost_eq hn.nonneg, if_pos hn.apart] at h
        dsimp only at h
        rw [colourProblem_small ho hn.apart h0 (by omega)] at h
        cases h
    · rw [c107_large_refuted ho hs hn (by omega)] at h
      cases h
  rcases same with rfl | ⟨f, hf, rfl⟩
  · exact ⟨a, b, hE, fun _ _ => Iff.rfl⟩
  · exact ⟨f a, f b, c115_renumbered hf hE⟩

/-! ### Cases -/

/-- The file written for two splitters in a row holds a balancer with two inputs and two outputs. -/
example : ∃ file m x y, networkParse id id false (textOf [colouredText, colouredText]) = some (.ok file) ∧ openNetwork file = .ok m ∧
    Ends m x 2 y 2 ∧ ∃ flow I O, NetworkFlow m x y flow I O := by
  classical
  have hi : IsInput (textOf [colouredText, colouredText]) [colouredText, colouredText] := isInput_textOf fun l hl => by
    have : l = colouredText := by simpa using hl
    rw [this]
    exact Json.dumps_line _
  have hv : twoSplitters.AllValid := by
    intro y x
    simp only [twoSplitters]
    split <;> simp [Tile.Valid]
  obtain ⟨file, hf⟩ := (c96_parse (ordP := id) (fun _ => .refl _) (ordT := id) (fun _ => .refl _) (assume := false) hi
    (c96_printed colouredText_printed) hv twoSplitters_sound).2.2 ⟨[((some 0, some 0), (some 1, some 1)), ((some 1, some 1), (some 3, some 3))], by rfl⟩
  obtain ⟨h1, h2, _⟩ := c98_divides twoSplitters_sound (ord := id) (fun _ => .refl _)
    (net := [((some 0, some 0), (some 1, some 1)), ((some 1, some 1), (some 3, some 3))]) (by decide +kernel) twoSplitters_divides threeAndOne_steady
  have e1 := List.countP_pos_iff.1 (show 0 < List.countP (fun p => decide (BringsIn twoSplitters.nb twoSplitters.board p)) twoSplitters.columns by rw [h1]; omega)
  have e2 := List.countP_pos_iff.1 (show 0 < List.countP (fun p => decide (TakesOut twoSplitters.nb twoSplitters.board p)) twoSplitters.columns by rw [h2]; omega)
  obtain ⟨p, _, hp⟩ := e1
  obtain ⟨q, _, hq⟩ := e2
  obtain ⟨m, x, y, k1, k2, k3⟩ := c115_file (ordP := id) (fun _ => .refl _) (ordT := id) (fun _ => .refl _) hi (c96_printed colouredText_printed) hv
    twoSplitters_sound ⟨p, by simpa using hp⟩ ⟨q, by simpa using hq⟩ hf
  rw [h1, h2] at k2
  obtain ⟨flow, hfl⟩ := (k3 _ _).2 ⟨threeAndOne, threeAndOne_steady, rfl, rfl⟩
  exact ⟨file, m, x, y, hf, k1, k2, flow, _, _, hfl⟩

/-- Two splitters in a row. -/
def rowOfEnds : Network := [((some 0, some 0), (some 2, some 3)), ((some 2, some 3), (some 1, some 1))]

/-- The hypotheses of `c115_tidy` and `c115_recoloured` can be met. -/
example : ∃ solver : Oracle, CorrectSolver solver ∧ ∃ m, Countable rowOfEnds ∧ Ends rowOfEnds 0 2 1 2 ∧
    optimiseColours id solver rowOfEnds = .ok m := by
  obtain ⟨solver, hs⟩ := exists_solver
  have hr : ∀ c, UsesColour rowOfEnds c → 0 ≤ c ∧ c < numColours rowOfEnds := by
    intro c hc
    have := uses_list hc
    rw [show numColours rowOfEnds = 4 by decide]
    simp [rowOfEnds, insOf, outsOf] at this
    omega
  have hn : ∀ p ∈ innerPairs rowOfEnds, p.1 ≠ p.2 := by decide
  obtain ⟨f, hf, e, -⟩ := c107_cheapest_partial (ord := id) (fun l => List.Perm.refl l) hs hr hn (by decide)
  exact ⟨solver, hs, _, ⟨fun c hc => (hr c hc).1, hn⟩, (gio_iff _ _ _ _ _).1 (by decide), e⟩

/-- The hypotheses of `c115_program` are met by the case of C77. -/
example : ∃ node cs s' solver, exOne.Valid ∧ (∀ c ∈ netColours exOne, 0 ≤ c) ∧
    balancerMain naiveLib exOne 3 2 (some 4) {} = .ok (exShareGrid, node, cs, s') ∧ CorrectSolver solver ∧ CompleteSolver solver ∧
    Ends (elements exOne) 0 2 1 2 ∧ IsBalancer (elements exOne) 0 1 ∧ AllOutputsUsed (elements exOne) ∧ ∃ v, Sat v cs := by
  obtain ⟨_, _, _, h1, h2, _, _, _, h3, h4, h5, h6, h7⟩ := exShare_case
  obtain ⟨g, node, cs, s', h8, h9⟩ := balancerCnf_ok exShareMain_sat
  obtain ⟨P, hP⟩ := balancerMain_parts h8
  have := createBalancer_grid P.hbase (m := 1) (by decide)
  subst this
  obtain ⟨solver, k1, k2⟩ := exists_complete
  exact ⟨node, cs, s', solver, h1, h2, h8, k1, k2, h4, h5, by unfold AllOutputsUsed; decide, _, h9⟩

end FSat
