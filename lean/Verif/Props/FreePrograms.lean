import Verif.Lemmas.Enumerate
import Verif.Props.NetFreeMixExact
import Verif.Props.PowerExact
import Verif.Props.BalancerMain
/-!
# C92: what the programs for balancers without a network print
-/

namespace FSat

theorem nToN_first {width height size : Nat} {ugLen : Option Nat} (hw : 0 < width) (hh : 0 < height) (hn : 0 < size) {aligned : Bool}
    {g : Grid} {cs : Cnf} {s : Nat} (h : freeBalancer width height ugLen size size aligned = .ok (g, cs, s)) : g.WF ∧ InitFirst g cs := by
  obtain ⟨cs0, e0, e1⟩ := createNToN_eq (ugLen := ugLen) hw hh hn
  have hwf := mkGrid_wf hw hh ⟨false, false⟩ none ugLen (by intro n h; cases h) (nToNFields (size - 1) (size * nToNDenominator size).size) 0
  unfold freeBalancer at h
  rw [e0] at h
  simp only at h
  split at h
  · cases h
  · simp only [Except.ok.injEq, Prod.mk.injEq] at h
    obtain ⟨rfl, rfl, _⟩ := h
    unfold nToNClauses at e1
    obtain ⟨ci, extra, h1, h2⟩ := joinE_cons_ok e1
    exact ⟨hwf, InitFirst.append ⟨ci, extra, h1, h2⟩ _⟩

theorem nToM_first {width height m n : Nat} {ugLen : Option Nat} (hw : 0 < width) (hh : 0 < height) (hm : 0 < m) (hn : 0 < n) (hne : m ≠ n)
    {aligned : Bool} {g : Grid} {cs : Cnf} {s : Nat} (h : freeBalancer width height ugLen m n aligned = .ok (g, cs, s)) :
    g.WF ∧ InitFirst g cs := by
  obtain ⟨cs0, e0, e1⟩ := createNToM_eq (ugLen := ugLen) hw hh hm hn hne
  have hwf := mkGrid_wf hw hh ⟨false, false⟩ none ugLen (by intro n h; cases h) (nToMFields m n (maxBeltFlow m n).size) 0
  unfold freeBalancer at h
  rw [e0] at h
  simp only at h
  split at h
  · cases h
  · simp only [Except.ok.injEq, Prod.mk.injEq] at h
    obtain ⟨rfl, rfl, _⟩ := h
    unfold nToMClauses at e1
    obtain ⟨ci, extra, h1, h2⟩ := joinE_cons_ok e1
    exact ⟨hwf, InitFirst.append ⟨ci, extra, h1, h2⟩ _⟩

theorem power_first {lib : CardLib} {width height : Nat} {ugLen : Option Nat} {g : Grid} {cs : Cnf} {s : Nat}
    (h : powerBalancer lib width height ugLen = .ok (g, cs, s)) : InitFirst g cs := by
  unfold powerBalancer at h
  split at h
  · cases h
  · rename_i g' cs0 s0 e0
    split at h
    · cases h
    · simp only [Except.ok.injEq, Prod.mk.injEq] at h
      obtain ⟨rfl, rfl, _⟩ := h
      refine InitFirst.append ?_ _
      unfold createPower at e0
      split at e0
      · simp only at e0
        split at e0
        · cases e0
        · rename_i cs1 s1 e1
          simp only [Except.ok.injEq, Prod.mk.injEq] at e0
          obtain ⟨rfl, rfl, _⟩ := e0
          unfold powerClauses at e1
          obtain ⟨c, s2, c', h1, _, h3⟩ := Gen.all_cons e1
          cases e2 : powerPlain (mkGrid width height ⟨false, false⟩ (some (2 ^ (height / 2))) ugLen (levelFields (powerLevels height)) 0)
              (levelLits width (2 ^ (height / 2)) (powerLevels height)) with
          | error e => rw [e2] at h1; cases h1
          | ok c2 =>
            rw [e2] at h1
            obtain ⟨rfl, _⟩ := Prod.mk.injEq .. ▸ Except.ok.inj h1
            unfold powerPlain at e2
            obtain ⟨ci, extra, k1, k2⟩ := joinE_cons_ok e2
            simp only at h3
            subst h3
            exact InitFirst.append ⟨ci, extra, k1, k2⟩ _
      · cases e0

theorem mainClauses_parts {width height : Nat} {ugLen : Option Nat} {m n : Nat} {aligned : Bool} {g : Grid} {cs : Cnf} {s : Nat}
    (h : freeBalancerMain width height ugLen m n aligned = .ok (g, cs, s)) :
    ∃ cs0 cs1, freeBalancer width height ugLen m n aligned = .ok (g, cs0, s) ∧ cs = cs0 ++ cs1 := by
  unfold freeBalancerMain at h
  split at h
  · cases h
  · rename_i g' cs0 s0 e0
    split at h
    · cases h
    · simp only [Except.ok.injEq, Prod.mk.injEq] at h
      obtain ⟨rfl, rfl, rfl⟩ := h
      exact ⟨_, _, e0, rfl⟩

/-- With `--partial` the layouts found are those that were found before and have the tiles that were asked for. -/
theorem partial_exact {layout : Option (List (List Tile))} {r : Except PyErr (Grid × Cnf × Nat)} {g : Grid} {cs : Cnf} {s : Nat}
    (h : withPartial layout r = .ok (g, cs, s)) {P : (Nat × Nat → Tile) → Prop}
    (hr : ∀ cs0, r = .ok (g, cs0, s) → g.WF ∧ InitFirst g cs0 ∧ ∀ T, (∃ v, Sat v cs0 ∧ Decodes g v T) ↔ P T) :
    g.WF ∧ InitFirst g cs ∧ ∀ T, (∃ v, Sat v cs ∧ Decodes g v T) ↔ P T ∧ ∀ rows, layout = some rows → Contains T rows := by
  obtain ⟨cs0, cs1, h0, rfl, h1⟩ := withPartial_exact h
  obtain ⟨hg, hi, hex⟩ := hr cs0 h0
  refine ⟨hg, hi.append _, fun T => ⟨?_, ?_⟩⟩
  · rintro ⟨v, hv, hT⟩
    rw [Sat_append] at hv
    exact ⟨(hex T).1 ⟨v, hv.1, hT⟩, (h1 hg hi v T hv.1 hT).1 hv.2⟩
  · rintro ⟨hP, hc⟩
    obtain ⟨v, hv, hT⟩ := (hex T).2 hP
    exact ⟨v, (Sat_append _ _ _).2 ⟨hv, (h1 hg hi v T hv hT).2 hc⟩, hT⟩

section
variable {width height : Nat} {ugLen : Option Nat} {aligned : Bool} {layout : Option (List (List Tile))} {g : Grid} {cs : Cnf} {s : Nat}
  {solver : Oracle}

/-- C92: with equally many inputs and outputs, `belt_balancer_net_free --all` with a correct solver ends, and prints every balancer of C84
that has the tiles of the partial layout, once, and nothing else. -/
theorem c92_free {size : Nat} (hw : 2 ≤ width) (hh : 0 < height) (hn : 0 < size) (hL : ∀ l, ugLen = some l → 1 ≤ l)
    (h : freeProgram width height ugLen size size aligned layout = .ok (g, cs, s)) (hs : CorrectSolver solver) :
    let run := fun fuel => itersolve solver ((importantLits g true).map Lit.var) fuel cs
    let Wanted := fun T => (ShareBalancer g T size (Nat.lcm (2 ^ Nat.clog 2 size) size) aligned ∧
      TidyFree g.In g.nb width height ugLen T (fun p d => (T p).Takes d) (fun p d => (T p).Emits d)) ∧
      ∀ rows, layout = some rows → Contains T rows
    g.width = width ∧ g.height = height ∧ g.edge = ⟨false, false⟩ ∧ (∃ fuel, (run fuel).2 = true) ∧ ∀ fuel, (run fuel).2 = true →
      (∀ m ∈ (run fuel).1, ∃ T, Decodes g (asgOf m) T ∧ Wanted T) ∧ (∀ T, Wanted T → ∃ m ∈ (run fuel).1, Decodes g (asgOf m) T) ∧
      (run fuel).1.Pairwise fun m m' => ¬ ∃ T, Decodes g (asgOf m) T ∧ Decodes g (asgOf m') T := by
  intro run Wanted
  obtain ⟨g', csm, sm, hm, hgw, hgh, _, hge, hex⟩ := c84_main (ugLen := ugLen) hw hh hn hL aligned
  obtain ⟨cs0, cs1, h0, hcs, _⟩ := withPartial_exact h
  have hgg : g' = g := by rw [h0] at hm; simp only [Except.ok.injEq, Prod.mk.injEq] at hm; exact hm.1.symm
  subst hgg
  obtain ⟨hg, hi, hall⟩ := partial_exact h (P := fun T => ShareBalancer g' T size (Nat.lcm (2 ^ Nat.clog 2 size) size) aligned ∧
      TidyFree g'.In g'.nb width height ugLen T (fun p d => (T p).Takes d) (fun p d => (T p).Emits d)) fun cs0 e0 => by
    obtain ⟨cb, _, eb, rfl⟩ := mainClauses_parts e0
    obtain ⟨hg, hi⟩ := nToN_first (by omega) hh hn eb
    refine ⟨hg, hi.append _, ?_⟩
    rw [hm] at e0
    simp only [Except.ok.injEq, Prod.mk.injEq, true_and] at e0
    rw [← e0.1]
    exact hex
  have hnw : g'.NoWrap := by rw [Grid.NoWrap, hge]; exact ⟨rfl, rfl⟩
  obtain ⟨k1, k2⟩ := run_all hg hnw hi hall hs
  refine ⟨hgw, hgh, hge, k1, fun fuel hd => ⟨(k2 fuel hd).1, (k2 fuel hd).2, run_once hg hi (fun v T hv hT p d hp => ?_) hs fuel⟩⟩
  obtain ⟨cb, cb', eb, rfl⟩ := mainClauses_parts h0
  rw [hcs, Sat_append, Sat_append] at hv
  obtain ⟨_, _, _, _, _, _, hsem, _⟩ := nToN_all hL eb hv.1.1
  have hl := lays_of_decodes hsem.init hT
  refine ⟨⟨fun h => ?_, fun h => (hl p hp).inp_takes h⟩, ⟨fun h => ?_, fun h => (hl p hp).out_emits h⟩⟩
  · by_cases hsp : (T p).IsSplitter
    · obtain ⟨e, b, ht⟩ := hsp
      have : e = d := by rw [ht] at h; exact h
      subst this
      exact (hsem.full hl hp ht).1
    · exact ((hl p hp).takes_iff ((hl p hp).isSplitter_false hsp) d).2 h
  · by_cases hsp : (T p).IsSplitter
    · obtain ⟨e, b, ht⟩ := hsp
      have : e = d := by rw [ht] at h; exact h
      subst this
      exact (hsem.full hl hp ht).2
    · exact ((hl p hp).emits_iff ((hl p hp).isSplitter_false hsp) d).2 h

/-- C92: the same for different numbers of inputs and outputs and the balancers of C91, each of which is printed at least once. -/
theorem c92_mix {m n : Nat} (hw : 2 ≤ width) (hh : 0 < height) (hm : 0 < m) (hn : 0 < n) (hne : m ≠ n) (hL : ∀ l, ugLen = some l → 1 ≤ l)
    (h : freeProgram width height ugLen m n aligned layout = .ok (g, cs, s)) (hs : CorrectSolver solver) :
    let run := fun fuel => itersolve solver ((importantLits g true).map Lit.var) fuel cs
    let Wanted := fun T => (∃ conn, MixBalancer g T conn m n (mixUnit m n) aligned ∧
      TidyFree g.In g.nb width height ugLen T (EntryUsed g.nb T conn) (ExitUsed g.nb T conn)) ∧
      ∀ rows, layout = some rows → Contains T rows
    g.width = width ∧ g.height = height ∧ g.edge = ⟨false, false⟩ ∧ (∃ fuel, (run fuel).2 = true) ∧ ∀ fuel, (run fuel).2 = true →
      (∀ m ∈ (run fuel).1, ∃ T, Decodes g (asgOf m) T ∧ Wanted T) ∧ ∀ T, Wanted T → ∃ m ∈ (run fuel).1, Decodes g (asgOf m) T := by
  intro run Wanted
  obtain ⟨g', csm, sm, hmm, hgw, hgh, _, hge, hex⟩ := c91_main (ugLen := ugLen) hw hh hm hn hne hL aligned
  obtain ⟨cs0, cs1, h0, hcs, _⟩ := withPartial_exact h
  have hgg : g' = g := by rw [h0] at hmm; simp only [Except.ok.injEq, Prod.mk.injEq] at hmm; exact hmm.1.symm
  subst hgg
  obtain ⟨hg, hi, hall⟩ := partial_exact h (P := fun T => ∃ conn, MixBalancer g' T conn m n (mixUnit m n) aligned ∧
      TidyFree g'.In g'.nb width height ugLen T (EntryUsed g'.nb T conn) (ExitUsed g'.nb T conn)) fun cs0 e0 => by
    obtain ⟨cb, _, eb, rfl⟩ := mainClauses_parts e0
    obtain ⟨hg, hi⟩ := nToM_first (by omega) hh hm hn hne eb
    refine ⟨hg, hi.append _, ?_⟩
    rw [hmm] at e0
    simp only [Except.ok.injEq, Prod.mk.injEq, true_and] at e0
    rw [← e0.1]
    exact hex
  have hnw : g'.NoWrap := by rw [Grid.NoWrap, hge]; exact ⟨rfl, rfl⟩
  obtain ⟨k1, k2⟩ := run_all hg hnw hi hall hs
  exact ⟨hgw, hgh, hge, k1, k2⟩

/-- C92: `belt_balancer_net_free_power_of_2 --all` with a correct solver ends, and prints every balancer of C90 that has the tiles of the
partial layout, once, and nothing else. -/
theorem c92_power {lib : CardLib} (hl : lib.Correct) (hw : 2 ≤ width) (hL : ∀ l, ugLen = some l → 1 ≤ l)
    (h : powerProgram lib width height ugLen layout = .ok (g, cs, s)) (hs : CorrectSolver solver) :
    let run := fun fuel => itersolve solver ((importantLits g true).map Lit.var) fuel cs
    let Wanted := fun T => (PowerBalancer g T width height ugLen ∧
      TidyPower g.In g.nb width height ugLen T (fun p d => (T p).Takes d) (fun p d => (T p).Emits d)) ∧
      ∀ rows, layout = some rows → Contains T rows
    g.width = width ∧ g.height = height ∧ g.edge = ⟨false, false⟩ ∧ (∃ fuel, (run fuel).2 = true) ∧ ∀ fuel, (run fuel).2 = true →
      (∀ m ∈ (run fuel).1, ∃ T, Decodes g (asgOf m) T ∧ Wanted T) ∧ (∀ T, Wanted T → ∃ m ∈ (run fuel).1, Decodes g (asgOf m) T) ∧
      (run fuel).1.Pairwise fun m m' => ¬ ∃ T, Decodes g (asgOf m) T ∧ Decodes g (asgOf m') T := by
  intro run Wanted
  obtain ⟨cs0, cs1, h0, hcs, _⟩ := withPartial_exact h
  have hmain : ∀ {cs0}, powerBalancerMain lib width height ugLen = .ok (g, cs0, s) →
      ∃ cb cb', powerBalancer lib width height ugLen = .ok (g, cb, s) ∧ cs0 = cb ++ cb' := by
    intro cs0 e0
    unfold powerBalancerMain at e0
    split at e0
    · cases e0
    · rename_i g' c s1 e1
      split at e0
      · cases e0
      · simp only [Except.ok.injEq, Prod.mk.injEq] at e0
        obtain ⟨rfl, rfl, rfl⟩ := e0
        exact ⟨_, _, e1, rfl⟩
  obtain ⟨cb, cb', eb, hcs0⟩ := hmain h0
  obtain ⟨e, _, _, hg, hge, hgw, hgh, _, _, hsol⟩ := power_all hl hL eb
  obtain ⟨_, hi, hall⟩ := partial_exact h (P := fun T => PowerBalancer g T width height ugLen ∧
      TidyPower g.In g.nb width height ugLen T (fun p d => (T p).Takes d) (fun p d => (T p).Emits d)) fun cs0 e0 => by
    obtain ⟨cb, _, eb, rfl⟩ := hmain e0
    exact ⟨hg, (power_first eb).append _, c90_main hl hw hL e0⟩
  have hnw : g.NoWrap := by rw [Grid.NoWrap, hge]; exact ⟨rfl, rfl⟩
  obtain ⟨k1, k2⟩ := run_all hg hnw hi hall hs
  refine ⟨hgw, hgh, hge, k1, fun fuel hd => ⟨(k2 fuel hd).1, (k2 fuel hd).2, run_once hg hi (fun v T hv hT p d hp => ?_) hs fuel⟩⟩
  rw [hcs, hcs0, Sat_append, Sat_append] at hv
  obtain ⟨lv, pr, sol⟩ := hsol v hv.1.1
  have hsem := sol.sem
  have hlay := lays_of_decodes hsem.init hT
  refine ⟨⟨fun h => ?_, fun h => (hlay p hp).inp_takes h⟩, ⟨fun h => ?_, fun h => (hlay p hp).out_emits h⟩⟩
  · by_cases hsp : (T p).IsSplitter
    · obtain ⟨e, b, ht⟩ := hsp
      have : e = d := by rw [ht] at h; exact h
      subst this
      exact (hsem.full hlay hp ht).1
    · exact ((hlay p hp).takes_iff ((hlay p hp).isSplitter_false hsp) d).2 h
  · by_cases hsp : (T p).IsSplitter
    · obtain ⟨e, b, ht⟩ := hsp
      have : e = d := by rw [ht] at h; exact h
      subst this
      exact (hsem.full hlay hp ht).2
    · exact ((hlay p hp).emits_iff ((hlay p hp).isSplitter_false hsp) d).2 h

end

theorem balancerMain_first {lib : CardLib} {net : PyDict Node Nat} {width height : Nat} {ugLen : Option Nat} {o : BalancerOptions} {g : Grid}
    {node : Nat × Nat → List Lit} {cs : Cnf} {s : Nat} (h : balancerMain lib net width height ugLen o = .ok (g, node, cs, s)) :
    InitFirst g cs := by
  unfold balancerMain at h
  split at h
  · split at h
    · cases h
    · rename_i g' node' cs0 s0 e0
      split at h
      · cases h
      · simp only [Except.ok.injEq, Prod.mk.injEq] at h
        obtain ⟨rfl, _, rfl, _⟩ := h
        refine InitFirst.append ?_ _
        unfold createBalancer at e0
        split at e0
        · split at e0
          · cases e0
          · rename_i k _
            split at e0
            · cases e0
            · simp only at e0
              split at e0
              · cases e0
              · rename_i cs1 s1 e1
                simp only [Except.ok.injEq, Prod.mk.injEq] at e0
                obtain ⟨rfl, _, rfl, _⟩ := e0
                obtain ⟨c, s2, c', h1, _, h3⟩ := Gen.all_cons e1
                cases e2 : initClauses (mkGrid width height ⟨false, false⟩ (some (k + 1).toNat) ugLen (nodeFields net.length) 0) with
                | error e => rw [e2] at h1; cases h1
                | ok c2 =>
                  rw [e2] at h1
                  obtain ⟨rfl, _⟩ := Prod.mk.injEq .. ▸ Except.ok.inj h1
                  exact ⟨_, _, e2, h3⟩
        · cases e0
  · cases h

/-- C92: `belt_balancer --all` with a correct solver ends, and without `--break-symmetry` it prints the layouts of C79 and nothing else. -/
theorem c92_balancer {lib : CardLib} (hl : lib.Correct) {net : PyDict Node Nat} (hv : net.Valid) (hpos : ∀ c ∈ netColours net, 0 ≤ c)
    (hcnt : ∀ e ∈ net, 0 < e.2) {width height : Nat} (hw : 2 ≤ width) (hh : 2 ≤ height) {ugLen : Option Nat} {o : BalancerOptions} {g : Grid}
    {node : Nat × Nat → List Lit} {cs : Cnf} {s : Nat} (hc : balancerMain lib net width height ugLen o = .ok (g, node, cs, s))
    (hsym : o.breakSymmetry = false) {solver : Oracle} (hs : CorrectSolver solver) :
    let run := fun fuel => itersolve solver ((importantLits g true).map Lit.var) fuel cs
    let Wanted := BalancerLayout g.nb g.In g.cells (g.shut (.ofBool true)) width height ugLen (elements net) o
    g.width = width ∧ g.height = height ∧ g.edge = ⟨false, false⟩ ∧ (∃ fuel, (run fuel).2 = true) ∧ ∀ fuel, (run fuel).2 = true →
      (∀ m ∈ (run fuel).1, ∃ T, Decodes g (asgOf m) T ∧ Wanted T) ∧ ∀ T, Wanted T → ∃ m ∈ (run fuel).1, Decodes g (asgOf m) T := by
  intro run Wanted
  obtain ⟨P, _⟩ := balancerMain_parts hc
  obtain ⟨k, _, _, _, _, hk, rfl, _⟩ := createBalancer_enc hl hpos P.hbase
  have hg := mkGrid_wf (width := width) (height := height) (by omega) (by omega) ⟨false, false⟩ (some k) ugLen (by rintro n ⟨⟩; exact hk)
    (nodeFields net.length) 0
  obtain ⟨k1, k2⟩ := run_all hg ⟨rfl, rfl⟩ (balancerMain_first hc) (c79_exact hl hv hpos hcnt hw hh hc hsym) hs
  exact ⟨rfl, rfl, rfl, k1, k2⟩

/-- A partial layout: the right half of the splitter in the middle. -/
def pairRows : List (List Tile) := [[.empty, .empty, .empty], [.empty, .splitter .right true, .empty]]

theorem pairRows_sat : okSat pairAsg (freeCnf (freeProgram 3 2 (some 4) 2 2 true (some pairRows))) = true := by decide +kernel

theorem forkRows_sat : okSat forkAsg (freeCnf (freeProgram 3 2 (some 4) 1 2 true (some pairRows))) = true := by decide +kernel

theorem program_found {v : Asg} {r : Except PyErr (Grid × Cnf × Nat)} (h : okSat v (freeCnf r) = true) :
    ∃ g cs s, r = .ok (g, cs, s) ∧ Sat v cs := by
  obtain ⟨cs, h1, h2⟩ := okSat_iff.1 h
  unfold freeCnf at h1
  split at h1
  · cases h1
  · cases h1; exact ⟨_, _, _, rfl, h2⟩

/-- The program for two belts, asked for a splitter in the middle, ends with every correct solver and prints something. -/
example : ∃ g cs s, ∃ solver : Oracle, ∃ fuel, freeProgram 3 2 (some 4) 2 2 true (some pairRows) = .ok (g, cs, s) ∧ CorrectSolver solver ∧
    (itersolve solver ((importantLits g true).map Lit.var) fuel cs).2 = true ∧
    (itersolve solver ((importantLits g true).map Lit.var) fuel cs).1 ≠ [] := by
  obtain ⟨g, cs, s, h, hv⟩ := program_found pairRows_sat
  obtain ⟨solver, hs⟩ := exists_solver
  obtain ⟨_, _, hge, ⟨fuel, hf⟩, _⟩ := c92_free (by decide) (by decide) (by decide) (by intro l h; cases h; decide) h hs
  refine ⟨g, cs, s, solver, fuel, h, hs, hf, fun he => ?_⟩
  obtain ⟨cs0, cs1, h0, rfl, _⟩ := withPartial_exact h
  obtain ⟨cb, cb', eb, rfl⟩ := mainClauses_parts h0
  obtain ⟨hg, hi⟩ := nToN_first (by decide) (by decide) (by decide) eb
  have hi := (hi.append cb').append cs1
  obtain ⟨ci, extra, hc, he'⟩ := id hi
  obtain ⟨T, hT⟩ := c15_layout hg hc pairAsg (by rw [he'] at hv; exact ((Sat_append _ _ _).1 hv).1)
  obtain ⟨m, hm, _⟩ := ((run_all hg (by rw [Grid.NoWrap, hge]; exact ⟨rfl, rfl⟩) hi (fun _ => Iff.rfl) hs).2 fuel hf).2 T ⟨pairAsg, hv, hT⟩
  rw [he] at hm
  cases hm

end FSat
