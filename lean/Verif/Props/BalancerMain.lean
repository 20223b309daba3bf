import Verif.Lemmas.BalancerMainParts
import Verif.Props.NetworkFlowCase
/-!
# The program `belt_balancer` (C79, C80)
-/

set_option linter.unusedVariables false

namespace FSat

section
variable {lib : CardLib} {net : PyDict Node Nat} {width height : Nat} {ugLen : Option Nat} {o : BalancerOptions} {g : Grid}
  {node : Nat × Nat → List Lit} {cs : Cnf} {s' : Nat}

/-- C79: whatever `belt_balancer` is asked for, every solution is a layout that obeys the rules of the game, implements the network, and
meets the options.  (Including `--break-symmetry`, for which see C11 and C76.) -/
theorem c79_sound (hl : lib.Correct) (hv : net.Valid) (hpos : ∀ c ∈ netColours net, 0 ≤ c) (hcnt : ∀ e ∈ net, 0 < e.2)
    (hw : 2 ≤ width) (hh : 2 ≤ height) (hc : balancerMain lib net width height ugLen o = .ok (g, node, cs, s')) (v : Asg) (hs : Sat v cs) :
    ∃ T, Decodes g v T ∧ BalancerLayout g.nb g.In g.cells (g.shut (.ofBool true)) width height ugLen (elements net) o T := by
  obtain ⟨P, hP⟩ := balancerMain_parts hc
  obtain ⟨T, lab, hT, _⟩ := c27_realises_partial hl hv hpos P.hbase v ((hP v).1 hs).1
  exact ⟨T, hT, balancerMain_sound hl hv hpos hcnt hw hh hc hs hT⟩

/-- C79: without `--break-symmetry` the layouts that `belt_balancer` can print are exactly those that obey the rules of the game, implement
the network, and meet the options. -/
theorem c79_exact (hl : lib.Correct) (hv : net.Valid) (hpos : ∀ c ∈ netColours net, 0 ≤ c) (hcnt : ∀ e ∈ net, 0 < e.2)
    (hw : 2 ≤ width) (hh : 2 ≤ height) (hc : balancerMain lib net width height ugLen o = .ok (g, node, cs, s'))
    (hsym : o.breakSymmetry = false) (T : Nat × Nat → Tile) :
    (∃ v, Sat v cs ∧ Decodes g v T) ↔
      BalancerLayout g.nb g.In g.cells (g.shut (.ofBool true)) width height ugLen (elements net) o T :=
  ⟨fun ⟨_, hs, hT⟩ => balancerMain_sound hl hv hpos hcnt hw hh hc hs hT, balancerMain_complete hl hv hpos hcnt hw hh hc hsym⟩

/-- C79: `belt_balancer` prints nothing exactly when there is no such layout. -/
theorem c79_unsat (hl : lib.Correct) (hv : net.Valid) (hpos : ∀ c ∈ netColours net, 0 ≤ c) (hcnt : ∀ e ∈ net, 0 < e.2)
    (hw : 2 ≤ width) (hh : 2 ≤ height) (hc : balancerMain lib net width height ugLen o = .ok (g, node, cs, s'))
    (hsym : o.breakSymmetry = false) :
    (¬ ∃ v, Sat v cs) ↔
      ¬ ∃ T, BalancerLayout g.nb g.In g.cells (g.shut (.ofBool true)) width height ugLen (elements net) o T := by
  refine not_congr ⟨?_, ?_⟩
  · rintro ⟨v, hs⟩
    obtain ⟨T, _, h⟩ := c79_sound hl hv hpos hcnt hw hh hc v hs
    exact ⟨T, h⟩
  · rintro ⟨T, h⟩
    obtain ⟨v, hs, _⟩ := (c79_exact hl hv hpos hcnt hw hh hc hsym T).2 h
    exact ⟨v, hs⟩

/-- Contradictory options are refused, and no others. -/
theorem c79_options (o : BalancerOptions) :
    (o.Contradictory → balancerMain lib net width height ugLen o = .error .runtimeError) ∧
    (¬ o.Contradictory → ∀ g node cs s cs' s', createBalancer lib net width height ugLen = .ok (g, node, cs, s) →
      balancerMainClauses lib g node net o s = .ok (cs', s') → balancerMain lib net width height ugLen o = .ok (g, node, cs ++ cs', s')) := by
  have hv : o.valid = true ↔ ¬ o.Contradictory := by
    have all : ∀ t9 t18 c es eb bs al : Bool,
        (!(es && eb) && !(decide ([al, t9, t18, c].count true ≥ 2)) && !(bs && t9)) = true ↔
          ¬ ((es ∧ eb) ∨ (al ∧ t9) ∨ (al ∧ t18) ∨ (al ∧ c) ∨ (t9 ∧ t18) ∨ (t9 ∧ c) ∨ (t18 ∧ c) ∨ (bs ∧ t9)) := by decide
    exact all ..
  constructor
  · intro h
    unfold balancerMain
    rw [if_neg (fun h' => hv.1 h' h)]
  · intro h g node cs s cs' s' h1 h2
    unfold balancerMain
    rw [if_pos (hv.2 h), h1]
    simp only [h2]

example : BalancerOptions.Contradictory { breakSymmetry := true, turn90 := true } ∧
    ¬ BalancerOptions.Contradictory { breakSymmetry := true, turn180 := true, edgeSplitters := true } := by
  simp [BalancerOptions.Contradictory]

/-- C80, what remains true: with `--edge-splitters` or `--fast`, and if nothing is fed back, the splitters both of whose inputs are
inputs of the balancer are in the second column, those both of whose outputs are its outputs in the last but one, and they face right.  Missing: that a balancer remains if there was one
(`c80_lost_refuted`). -/
theorem c80_edges_partial (hl : lib.Correct) (hv : net.Valid) (hpos : ∀ c ∈ netColours net, 0 ≤ c) (hcnt : ∀ e ∈ net, 0 < e.2)
    (hw : 2 ≤ width) (hh : 2 ≤ height) (hc : balancerMain lib net width height ugLen o = .ok (g, node, cs, s'))
    (hf : o.edgeSplitters = true ∨ o.fast = true) {a m b n : Int} (hE : Ends (elements net) a m b n) (v : Asg) (hs : Sat v cs) :
    ∃ T F lab, Decodes g v T ∧ Realises g.nb T F g.cells (elements net) lab ∧
      ((outsOf (elements net)).count (some a) = 0 → ∀ p ∈ g.cells, ∀ k, lab p = some k → k.1 = (some a, some a) →
        p.1 = 1 ∧ T p = .splitter .right true) ∧
      ((insOf (elements net)).count (some b) = 0 → ∀ p ∈ g.cells, ∀ k, lab p = some k → k.2 = (some b, some b) →
        p.1 = width - 2 ∧ T p = .splitter .right true) := by
  obtain ⟨T, hT, _, F, lab, hI, hM⟩ := c79_sound hl hv hpos hcnt hw hh hc v hs
  obtain ⟨h1, h2⟩ := hM.edgeSplitters hf a m b n hE
  refine ⟨T, F, lab, hT, hI.realises, fun h0 p hp k hk he => ?_, fun h0 p hp k hk he => ?_⟩
  · rw [AtEdge, if_pos h0] at h1
    exact h1 p hp k hk (by simpa using he)
  · rw [AtEdge, if_pos h0] at h2
    exact h2 p hp k hk (by simpa using he)

/-- C80: a splitter that joins the inputs of a network directly to its outputs has to be in the second column and in the last but one,
so with `--edge-splitters` or `--fast` there are no balancers at all for such a network, unless they are three columns wide. -/
theorem c80_three_columns (hl : lib.Correct) (hv : net.Valid) (hpos : ∀ c ∈ netColours net, 0 ≤ c) (hcnt : ∀ e ∈ net, 0 < e.2)
    (hw : 2 ≤ width) (hh : 2 ≤ height) (hc : balancerMain lib net width height ugLen o = .ok (g, node, cs, s'))
    (hf : o.edgeSplitters = true ∨ o.fast = true) {a m b n : Int} (hE : Ends (elements net) a m b n)
    (ha : (outsOf (elements net)).count (some a) = 0) (hb : (insOf (elements net)).count (some b) = 0)
    (hk : ((some a, some a), (some b, some b)) ∈ elements net) (h3 : width ≠ 3) : ¬ ∃ v, Sat v cs := by
  rintro ⟨v, hs⟩
  obtain ⟨T, F, lab, _, hR, h1, h2⟩ := c80_edges_partial hl hv hpos hcnt hw hh hc hf hE v hs
  have hpos' : 0 < (elements net).count ((some a, some a), (some b, some b)) := List.count_pos_iff.2 hk
  rw [← hR.used] at hpos'
  obtain ⟨p, hp, hlab⟩ := List.countP_pos_iff.1 hpos'
  have hlab : lab p = some ((some a, some a), (some b, some b)) := by simpa using hlab
  have e1 := (h1 ha p hp _ hlab rfl).1
  have e2 := (h2 hb p hp _ hlab rfl).1
  omega

end

/-! ### Examples -/

/-- The example of `Props/Balancer.lean`, with the options. -/
def exMain (o : BalancerOptions) : Except PyErr (Grid × (Nat × Nat → List Lit) × Cnf × Nat) := balancerMain naiveLib exNet 4 2 (some 4) o

/-- With `--fast` and `--aligned` the layout of the example is a solution. -/
theorem exMain_sat : okSat exBalancer (balancerCnf (exMain { fast := true, aligned := true })) = true := by decide +kernel

theorem balancerCnf_ok {v : Asg} {e : Except PyErr (Grid × (Nat × Nat → List Lit) × Cnf × Nat)} (h : okSat v (balancerCnf e) = true) :
    ∃ g node cs s', e = .ok (g, node, cs, s') ∧ Sat v cs := by
  obtain ⟨cs, h1, h2⟩ := okSat_iff.1 h
  unfold balancerCnf at h1
  split at h1
  · cases h1
  · rename_i g node cs' s'
    cases h1
    exact ⟨g, node, _, s', rfl, h2⟩

/-- The hypotheses of C79 are met, and so is its right hand side. -/
example : exNet.Valid ∧ (∀ c ∈ netColours exNet, 0 ≤ c) ∧ (∀ e ∈ exNet, 0 < e.2) ∧ ∃ g node cs s',
    balancerMain naiveLib exNet 4 2 (some 4) { fast := true, aligned := true } = .ok (g, node, cs, s') ∧ (∃ v, Sat v cs) ∧
    ∃ T, BalancerLayout g.nb g.In g.cells (g.shut (.ofBool true)) 4 2 (some 4) (elements exNet) { fast := true, aligned := true } T := by
  have hv : exNet.Valid := by unfold PyDict.Valid; decide
  obtain ⟨g, node, cs, s', h1, h2⟩ := balancerCnf_ok exMain_sat
  refine ⟨hv, by decide, by decide, g, node, cs, s', h1, ⟨_, h2⟩, ?_⟩
  obtain ⟨T, _, hT⟩ := c79_sound naiveLib_correct hv (by decide) (by decide) (by decide) (by decide) h1 _ h2
  exact ⟨T, hT⟩

/-- One splitter between belts, on four columns. -/
def exWideAsg : Asg := cellsAsg 24 [
  exOneCell 0 false true false true false false, exOneCell 2 false false false true false false, exOneCell 0 false false false true true false,
  exOneCell 0 false false true true true false,
  exOneCell 0 false true false true false false, exOneCell 2 true false false true false true, exOneCell 0 false false false true true false,
  exOneCell 0 false false true true true false]

theorem exWide_sat : okSat exWideAsg (balancerCnf (balancerMain naiveLib exOne 4 2 (some 4) {})) = true := by decide +kernel

theorem exWide_fast : (balancerMain naiveLib exOne 4 2 (some 4) { fast := true }).toOption.isSome = true := by decide +kernel

/-- C80 is false: for the network of one splitter, on four columns and two rows, `belt_balancer` finds a balancer, but none with
`--fast`. -/
theorem c80_lost_refuted : ∃ (lib : CardLib) (net : PyDict Node Nat) (width height : Nat) (ugLen : Option Nat) (g g' : Grid)
    (node node' : Nat × Nat → List Lit) (cs cs' : Cnf) (s s' : Nat), lib.Correct ∧
    balancerMain lib net width height ugLen {} = .ok (g, node, cs, s) ∧
    balancerMain lib net width height ugLen { fast := true } = .ok (g', node', cs', s') ∧ (∃ v, Sat v cs) ∧ ¬ ∃ v, Sat v cs' := by
  obtain ⟨g, node, cs, s, h1, h2⟩ := balancerCnf_ok exWide_sat
  obtain ⟨g', node', cs', s', h3⟩ : ∃ g' node' cs' s', balancerMain naiveLib exOne 4 2 (some 4) { fast := true } = .ok (g', node', cs', s') := by
    have := exWide_fast
    cases h : balancerMain naiveLib exOne 4 2 (some 4) { fast := true } with
    | error e => rw [h] at this; cases this
    | ok r => exact ⟨r.1, r.2.1, r.2.2.1, r.2.2.2, rfl⟩
  refine ⟨naiveLib, exOne, 4, 2, some 4, g, g', node, node', cs, cs', s, s', naiveLib_correct, h1, h3, ⟨_, h2⟩, ?_⟩
  exact c80_three_columns naiveLib_correct (by unfold PyDict.Valid; decide) (by decide) (by decide) (by decide) (by decide) h3 (.inr rfl)
    ((gio_iff (elements exOne) 0 2 1 2).1 (by decide)) (by decide) (by decide) (by decide) (by decide)

end FSat
