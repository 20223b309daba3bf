import Verif.Lemmas.PowerMix
import Verif.Props.NetFree
import Mathlib.Data.Set.Card
/-!
# C31: balancers for powers of two
-/

set_option linter.unusedSimpArgs false

namespace FSat

open Finset

theorem size_pow_sub_one (k : Nat) : (2 ^ k - 1).size = k := by
  have hp := Nat.two_pow_pos k
  refine Nat.le_antisymm (Nat.size_le.2 (by omega)) ?_
  cases k with
  | zero => simp
  | succ k =>
    refine Nat.lt_size.2 ?_
    have := Nat.two_pow_pos k
    rw [Nat.pow_succ] at *
    omega

theorem power_of_and {h : Nat} (hh : 0 < h) (ha : h &&& (h - 1) = 0) : ∃ e, h = 2 ^ e :=
  (Nat.and_sub_one_eq_zero_iff_isPowerOfTwo (by omega)).1 ha

theorem powerLevels_pow (e : Nat) : powerLevels (2 ^ e) = e - 2 := by rw [powerLevels, Nat.log2_two_pow]

theorem levelLits_length (width colours n : Nat) (p : Nat × Nat) :
    (levelLits width colours n p).level.length = n ∧ (levelLits width colours n p).primary.length = n := by
  simp only [levelLits, toExtras, cellInstance, gridFields, levelFields, TFields.instantiate, Tmpl.instantiate, nextMany_eq]
  simp

theorem levelLits_bound {width height colours n : Nat} (ugLen : Option Nat) {p : Nat × Nat}
    (hp : (mkGrid width height ⟨false, false⟩ (some colours) ugLen (levelFields n) 0).In p) :
    LBound (height * width * (gridFields (some colours) (levelFields n)).variableCount) (levelLits width colours n p).level ∧
    LBound (height * width * (gridFields (some colours) (levelFields n)).variableCount) (levelLits width colours n p).primary := by
  have := (mkGrid_lits width height ⟨false, false⟩ (some colours) ugLen (levelFields n) 0).2 p hp
  rw [Nat.zero_add] at this
  have e : (levelFields n).flatten (toExtras (some colours) (levelFields n) (cellInstance width (some colours) (levelFields n) 0 p.1 p.2)) =
      (levelLits width colours n p).level ++ ((levelLits width colours n p).primary ++ []) := rfl
  rw [e, List.append_nil] at this
  exact ⟨fun l hl => this l (List.mem_append.2 (.inl hl)), fun l hl => this l (List.mem_append.2 (.inr hl))⟩

/-- Everything known of a satisfying assignment. -/
structure PowerSolution (g : Grid) (e : Nat) (lv pr : Nat × Nat → List Bool) (v : Asg) : Prop where
  sem : PowerSem g (g.vals v) lv pr
  len : ∀ p, (lv p).length = e - 2
  size : ∀ p, g.In p → ∀ i < e - 2, (lv p).getD i false = true → (g.vals v p).colour.count true = 2 ^ i
  count : ∀ i < e - 2, (checkerboard g).countP (fun p => (pr p).getD i false) = g.height / 2
  surface : BlockBeltSem g (.ofPair false true) (g.vals v)
  inter : IntersectionSem g (g.vals v)
  under : ∀ l, g.ugLen = some l → LengthSem g (g.vals v) l

theorem power_parts {lib : CardLib} {width height : Nat} {ugLen : Option Nat} {g : Grid} {cs : Cnf} {s : Nat}
    (h : powerBalancer lib width height ugLen = .ok (g, cs, s)) :
    ∃ e cs0 cs1, 0 < width ∧ height = 2 ^ (e + 1) ∧
      g = mkGrid width height ⟨false, false⟩ (some (2 ^ (height / 2))) ugLen (levelFields (powerLevels height)) 0 ∧
      powerClauses lib g (levelLits width (2 ^ (height / 2)) (powerLevels height))
        (height * width * (gridFields (some (2 ^ (height / 2))) (levelFields (powerLevels height))).variableCount) = .ok (cs0, s) ∧
      joinE [.ok (blockBelts g (.ofPair false true)), .ok (preventIntersection g), enforceMaximumUndergroundLength g] = .ok cs1 ∧
      cs = cs0 ++ cs1 := by
  unfold powerBalancer at h
  cases e1 : createPower lib width height ugLen with
  | error e' => rw [e1] at h; cases h
  | ok r =>
    obtain ⟨g', cs0, s0⟩ := r
    rw [e1] at h
    simp only at h
    cases e2 : joinE [.ok (blockBelts g' (.ofPair false true)), .ok (preventIntersection g'), enforceMaximumUndergroundLength g'] with
    | error e' => rw [e2] at h; cases h
    | ok cs1 =>
      rw [e2] at h
      simp only [Except.ok.injEq, Prod.mk.injEq] at h
      obtain ⟨rfl, rfl, rfl⟩ := h
      unfold createPower at e1
      split at e1
      · rename_i hc
        obtain ⟨hw, hh, ha⟩ := hc
        obtain ⟨e, he⟩ := power_of_and hh ha
        simp only at e1
        split at e1
        · cases e1
        · rename_i cs2 s2 e3
          simp only [Except.ok.injEq, Prod.mk.injEq] at e1
          obtain ⟨rfl, rfl, rfl⟩ := e1
          have hne : height ≠ 1 := by
            rintro rfl
            obtain ⟨c, t, c', f1, _⟩ := Gen.all_cons e3
            have f2 : ∃ c, powerPlain (mkGrid width 1 ⟨false, false⟩ (some (2 ^ (1 / 2))) ugLen (levelFields (powerLevels 1)) 0)
                (levelLits width (2 ^ (1 / 2)) (powerLevels 1)) = .ok c := by
              unfold Gen.pure at f1
              split at f1
              · cases f1
              · exact ⟨_, ‹_›⟩
            obtain ⟨c, f2⟩ := f2
            unfold powerPlain at f2
            obtain ⟨c2, f3⟩ := concatE_ok f2 (concatE (powerFirst (mkGrid width 1 ⟨false, false⟩ (some (2 ^ (1 / 2))) ugLen
              (levelFields (powerLevels 1)) 0)) (List.range 1)) (by simp [mkGrid])
            obtain ⟨c3, f4⟩ := concatE_ok f3 0 (by simp)
            obtain ⟨c4, f5⟩ := concatE_ok f4 (setColour (mkGrid width 1 ⟨false, false⟩ (some (2 ^ (1 / 2))) ugLen
              (levelFields (powerLevels 1)) 0) 0 0 ((2 ^ (0 / 2) : Nat) : Int)) (by simp)
            simp [setColour, mkGrid] at f5
          cases e with
          | zero => exact absurd he hne
          | succ e => exact ⟨e, _, cs1, hw, he, rfl, e3, e2, rfl⟩
      · cases e1

theorem power_all {lib : CardLib} (hl : lib.Correct) {width height : Nat} {ugLen : Option Nat} {g : Grid} {cs : Cnf} {s : Nat}
    (hL : ∀ l, ugLen = some l → 1 ≤ l) (h : powerBalancer lib width height ugLen = .ok (g, cs, s)) :
    ∃ e, height = 2 ^ e ∧ 1 ≤ e ∧ g.WF ∧ g.edge = ⟨false, false⟩ ∧ g.width = width ∧ g.height = height ∧ g.ugLen = ugLen ∧
      g.bits = height / 2 ∧ (∀ v, Sat v cs → ∃ lv pr, PowerSolution g e lv pr v) := by
  obtain ⟨e, cs0, cs1, hw, he, hgr, h0, h1, rfl⟩ := power_parts h
  have hh : 0 < height := by rw [he]; positivity
  have hg : g.WF := hgr ▸ mkGrid_wf hw hh ⟨false, false⟩ (some (2 ^ (height / 2))) ugLen
    (by intro n h; cases h; exact Nat.one_le_two_pow) (levelFields (powerLevels height)) 0
  have hlits : g.LitsLe (height * width * (gridFields (some (2 ^ (height / 2))) (levelFields (powerLevels height))).variableCount) := by
    rw [hgr]
    simpa using (mkGrid_lits width height ⟨false, false⟩ (some (2 ^ (height / 2))) ugLen (levelFields (powerLevels height)) 0).1
  have gh : g.height = height := by rw [hgr]; rfl
  have gw : g.width = width := by rw [hgr]; rfl
  have gu : g.ugLen = ugLen := by rw [hgr]; rfl
  have gc : g.colours = some (2 ^ (g.height / 2)) := by rw [gh, hgr]; rfl
  have hev : g.height % 2 = 0 := by rw [gh, he, Nat.pow_succ]; omega
  have hbits : g.bits = height / 2 := by
    unfold Grid.bits
    rw [gc, gh]
    simp only [Option.getD_some]
    exact size_pow_sub_one _
  have hlev : powerLevels height = e + 1 - 2 := by rw [he, powerLevels_pow]
  refine ⟨e + 1, he, by omega, hg, by rw [hgr]; rfl, gw, gh, gu, hbits, fun v hv => ?_⟩
  rw [Sat_append] at hv
  have enc := (powerClauses_enc hl hg hlits (L := levelLits width (2 ^ (height / 2)) (powerLevels height)) (by rw [gh])
    (fun p => (levelLits_length _ _ _ p).1) (fun p => (levelLits_length _ _ _ p).2)
    (fun p hp => (levelLits_bound ugLen (by rw [← hgr]; exact hp)).1) (fun p hp => (levelLits_bound ugLen (by rw [← hgr]; exact hp)).2)
    gc hev).enc _ (Nat.le_refl _) _ _ h0
  obtain ⟨k1, k2, k3⟩ := enc.sound v hv.1
  have H := joinE_sat h1 hv.2
  simp only [List.mem_cons, List.not_mem_nil, or_false, forall_eq_or_imp, forall_eq] at H
  obtain ⟨⟨c1, e1, s1⟩, ⟨c2, e2, s2⟩, ⟨c3, e3, s3⟩⟩ := H
  cases e1; cases e2
  refine ⟨_, _, ⟨k1, fun p => ?_, fun p hp i hi => k2 p hp i (by rw [hlev]; exact hi), fun i hi => k3 i (by rw [hlev]; exact hi), (Sat_blockBelt hg _ v).1 s1, (Sat_intersection g v).1 s2, fun l hul => ?_⟩⟩
  · rw [List.length_map, (levelLits_length _ _ _ p).1, hlev]
  · obtain ⟨cl, q1, q2⟩ := length_iff hg l hul (hL l (gu ▸ hul))
    rw [q1] at e3; cases e3
    exact (q2 v).1 s3

section
variable {g : Grid} {e : Nat} {lv pr : Nat × Nat → List Bool} {v : Asg} {T : Nat × Nat → Tile}

theorem PowerSolution.layout (hg : g.WF) (h : PowerSolution g e lv pr v) (hT : Decodes g v T) : FreeLayout g T g.height g.height 0 0 := by
  have hl := lays_of_decodes h.sem.init hT
  have hw := hg.w
  have belt : ∀ p, g.In p → (g.vals v p).isBelt = true → (g.vals v p).inp .right = true → (g.vals v p).out .right = true →
      T p = .belt .right .right := by
    intro p hp h1 h2 h3
    obtain ⟨i, o, ht⟩ := (hl p hp).isBelt_iff.1 h1
    have ha : Agrees (g.vals v p) (.belt i o) := ht ▸ hl p hp
    rw [ht, ← (ha.2.2.1 _).1 h2, ← (ha.2.2.2.1 _).1 h3]
  refine ⟨layout_of_sem hg hl h.sem.init h.inter h.sem.under h.surface h.sem.shut h.under (fun d _ => by cases d <;> rfl),
    ⟨by omega, fun y hy => ?_⟩, ⟨by omega, fun y hy => ?_⟩⟩
  · rw [if_pos (by omega)]
    obtain ⟨h1, h2, h3⟩ := (h.sem.first y hy).1
    exact belt _ ⟨hw, hy⟩ h1 h2 h3
  · rw [if_pos (by omega)]
    obtain ⟨h1, h2, h3⟩ := h.sem.last y hy
    exact belt _ ⟨by simp only; omega, hy⟩ h1 h2 h3

theorem vals_colour (hg : g.WF) (v : Asg) (p : Nat × Nat) : (g.vals v p).colour.length = g.bits := by
  show ((g.at' p).colour.map (ev v)).length = g.bits
  rw [List.length_map, hg.c]

theorem vals_colourU (hg : g.WF) (v : Asg) (p : Nat × Nat) (d : Dir) : ((g.vals v p).colourU d).length = g.bits := by
  unfold CellVal.colourU
  split
  · show ((g.at' p).colourUx.map (ev v)).length = g.bits
    rw [List.length_map, hg.cx]
  · show ((g.at' p).colourUy.map (ev v)).length = g.bits
    rw [List.length_map, hg.cy]

theorem PowerSolution.mixing (hg : g.WF) (h : PowerSolution g e lv pr v) (hT : Decodes g v T) :
    EvenMixing g.In g.nb T (e - 2) (fun p => bitSet g.bits (g.vals v p).colour) (fun p => (lv p).idxOf true) :=
  h.sem.mixing hg h.inter (lays_of_decodes h.sem.init hT) h.len (vals_colour hg v) (vals_colourU hg v) h.size

end

/-- C31: every layout found obeys the basic rules, its first and its last column are belts to the right, both halves of every splitter
are connected on both sides, and there are sets `S p`, of numbers below `height / 2`, that are mixed evenly: the rows `2k` and
`2k + 1` of the first column carry `k` alone, the rows `2k` and `2k + 1` of the last column share all numbers between them, and each of
the `log2 height - 2` levels has exactly `height / 2` splitters. -/
theorem c31_mixes {lib : CardLib} (hl : lib.Correct) {width height : Nat} {ugLen : Option Nat} {g : Grid} {cs : Cnf} {s : Nat}
    (hL : ∀ l, ugLen = some l → 1 ≤ l) (h : powerBalancer lib width height ugLen = .ok (g, cs, s)) {v : Asg} (hv : Sat v cs)
    {T : Nat × Nat → Tile} (hT : Decodes g v T) :
    BasicRules g.In g.nb T (g.shut (.ofPair false true)) (g.shut (.ofBool true)) ugLen ∧
    (∀ y < height, T (0, y) = .belt .right .right ∧ T (width - 1, y) = .belt .right .right) ∧
    FullSplitters g.In T (Connected g.nb T) ∧
    ∃ (S : Nat × Nat → Finset Nat) (level : Nat × Nat → Nat),
      EvenMixing g.In g.nb T (Nat.log2 height - 2) S level ∧
      (∀ p, S p ⊆ range (height / 2)) ∧
      (∀ y < height, S (0, y) = {y / 2}) ∧
      (∀ k, 2 * k < height → Disjoint (S (width - 1, 2 * k)) (S (width - 1, 2 * k + 1)) ∧
        S (width - 1, 2 * k) ∪ S (width - 1, 2 * k + 1) = range (height / 2)) ∧
      ∀ i < Nat.log2 height - 2, {p | g.In p ∧ (∃ d, T p = .splitter d true) ∧ level p = i}.ncard = height / 2 := by
  obtain ⟨e, he, he1, hg, hedge, hw, hh, hu, hb, hall⟩ := power_all hl hL h
  obtain ⟨lv, pr, sol⟩ := hall v hv
  have lay := sol.layout hg hT
  have hla := lays_of_decodes sol.sem.init hT
  have mix := sol.mixing hg hT
  have hlog : Nat.log2 height - 2 = e - 2 := by rw [he, Nat.log2_two_pow]
  have hev : height % 2 = 0 := by
    cases e with
    | zero => omega
    | succ e => rw [he, Nat.pow_succ]; omega
  refine ⟨hu ▸ lay.rules, ?_, sol.sem.fullSplitters hg sol.inter hla (lay.inner hg hedge), _, _, hlog ▸ mix, fun p => ?_, ?_, ?_, ?_⟩
  · intro y hy
    have h1 := lay.inputs.2 y (hh ▸ hy)
    have h2 := lay.outputs.2 y (hh ▸ hy)
    rw [if_pos (by omega)] at h1 h2
    exact ⟨h1, hw ▸ h2⟩
  · rw [← hb]; exact filter_subset _ _
  · intro y hy
    exact bitSet_pow (vals_colour hg v _) (sol.sem.first y (hh ▸ hy)).2
  · intro k hk
    have hp := sol.sem.pairs k (by omega)
    rw [hw] at hp
    constructor
    · rw [disjoint_left]
      intro b h1 h2
      rw [mem_bitSet (vals_colour hg v _)] at h2
      have hb' : b < g.bits := by simp only [bitSet, mem_filter, mem_range] at h1; exact h1.1
      rw [mem_bitSet (vals_colour hg v _)] at h1
      exact (hp b hb').1 h1 h2
    · ext b
      simp only [mem_union, mem_range, bitSet, mem_filter, ← hb]
      constructor
      · rintro (h | h) <;> exact h.1
      · intro hb'
        by_cases h1 : (g.vals v (width - 1, 2 * k)).colour.getD b false = true
        · exact .inl ⟨hb', h1⟩
        · refine .inr ⟨hb', ?_⟩
          by_contra h2
          exact h1 ((hp b hb').2 h2)
  · intro i hi
    have hc := sol.count i (hlog ▸ hi)
    rw [sol.sem.count hg hedge hla lay.rules.splitters (fun p q d hp h => (mix.stage p q d hp h).2) i, hh] at hc
    rw [← hc, List.countP_eq_length_filter, ← List.toFinset_card_of_nodup (g.cells_nodup.filter _), ← Set.ncard_coe_finset]
    congr 1
    ext p
    simp only [Set.mem_ofPred_eq, List.coe_toFinset, List.mem_filter, Grid.mem_cells, Bool.and_eq_true, decide_eq_true_eq]
    refine and_congr_right fun hp => and_congr_left fun _ => ?_
    exact (hla p hp).isHead_iff.symm

theorem two_pow_add {n i j : Nat} (hi : i ≤ n) (hj : j ≤ n) (h : 2 ^ i + 2 ^ j = 2 ^ (n + 1)) : i = n ∧ j = n := by
  have h1 := Nat.pow_le_pow_right (n := 2) (by omega) hi
  have h2 := Nat.pow_le_pow_right (n := 2) (by omega) hj
  rw [Nat.pow_succ] at h
  exact ⟨Nat.pow_right_injective (Nat.le_refl 2) (by simp only; omega), Nat.pow_right_injective (Nat.le_refl 2) (by simp only; omega)⟩

/-- The sets on the last column have the same size. -/
theorem power_halves {g : Grid} {e : Nat} {lv pr : Nat × Nat → List Bool} {v : Asg} {T : Nat × Nat → Tile} (hg : g.WF)
    (hedge : g.edge = ⟨false, false⟩) (sol : PowerSolution g e lv pr v) (hT : Decodes g v T) (he1 : 1 ≤ e) (he : g.height = 2 ^ e)
    (hb : g.bits = g.height / 2) {k : Nat} (hk : 2 * k < g.height) :
    2 ≤ e ∧ (bitSet g.bits (g.vals v (g.width - 1, 2 * k)).colour).card = 2 ^ (e - 2) ∧
    (bitSet g.bits (g.vals v (g.width - 1, 2 * k + 1)).colour).card = 2 ^ (e - 2) ∧
    Disjoint (bitSet g.bits (g.vals v (g.width - 1, 2 * k)).colour) (bitSet g.bits (g.vals v (g.width - 1, 2 * k + 1)).colour) ∧
    bitSet g.bits (g.vals v (g.width - 1, 2 * k)).colour ∪ bitSet g.bits (g.vals v (g.width - 1, 2 * k + 1)).colour = range (g.height / 2) := by
  have lay := sol.layout hg hT
  have hla := lays_of_decodes sol.sem.init hT
  have mix := sol.mixing hg hT
  have hev : g.height % 2 = 0 := by
    cases e with
    | zero => omega
    | succ e => rw [he, Nat.pow_succ]; omega
  have hfull := sol.sem.fullSplitters hg sol.inter hla (lay.inner hg hedge)
  have hconv : ∀ {F : Nat × Nat → Rat}, Steady g.In g.nb T (Connected g.nb T) F → Steady g.In g.nb T (g.linked (g.vals v)) F :=
    fun hF => Steady.congr (fun p q d hp => (sol.sem.linked_iff hg sol.inter hla p q d hp).symm) hF
  have hp := sol.sem.pairs k (by omega)
  have hdis : Disjoint (bitSet g.bits (g.vals v (g.width - 1, 2 * k)).colour) (bitSet g.bits (g.vals v (g.width - 1, 2 * k + 1)).colour) := by
    rw [disjoint_left]
    intro b h1 h2
    rw [mem_bitSet (vals_colour hg v _)] at h2
    have hb' : b < g.bits := by simp only [bitSet, mem_filter, mem_range] at h1; exact h1.1
    rw [mem_bitSet (vals_colour hg v _)] at h1
    exact (hp b hb').1 h1 h2
  have huni : bitSet g.bits (g.vals v (g.width - 1, 2 * k)).colour ∪ bitSet g.bits (g.vals v (g.width - 1, 2 * k + 1)).colour =
      range (g.height / 2) := by
    ext b
    simp only [mem_union, mem_range, bitSet, mem_filter, ← hb]
    constructor
    · rintro (h | h) <;> exact h.1
    · intro hb'
      by_cases h1 : (g.vals v (g.width - 1, 2 * k)).colour.getD b false = true
      · exact .inl ⟨hb', h1⟩
      · refine .inr ⟨hb', ?_⟩
        by_contra h2
        exact h1 ((hp b hb').2 h2)
  have hstage : ∀ y < g.height, ∃ j ≤ e - 2, (bitSet g.bits (g.vals v (g.width - 1, y)).colour).card = 2 ^ j := by
    intro y hy
    have := lay.determined hg hedge hla sol.inter (hconv (mix.stageFlow hfull)) (hconv (Steady.const 1 hfull)) (by
      intro y _ hy
      have h1 : (bitSet g.bits (g.vals v (0, y)).colour).card = 2 ^ 0 := by
        rw [bitSet_pow (vals_colour hg v _) (sol.sem.first y (by omega)).2]
        simp
      exact if_pos ⟨0, Nat.zero_le _, h1⟩) (Nat.zero_le y) (by omega)
    unfold stageFlow at this
    by_contra hn
    rw [if_neg hn] at this
    norm_num at this
  obtain ⟨i, hi, ci⟩ := hstage (2 * k) hk
  obtain ⟨j, hj, cj⟩ := hstage (2 * k + 1) (by omega)
  have hcard := congrArg Finset.card huni
  rw [card_union_of_disjoint hdis, ci, cj, card_range] at hcard
  have hhalf : g.height / 2 = 2 ^ (e - 1) := by
    obtain ⟨f, rfl⟩ : ∃ f, e = f + 1 := ⟨e - 1, by omega⟩
    rw [he, Nat.pow_succ, Nat.mul_div_cancel _ (by omega), Nat.add_sub_cancel]
  rw [hhalf] at hcard
  by_cases h2 : 2 ≤ e
  · obtain ⟨f, rfl⟩ : ∃ f, e = f + 2 := ⟨e - 2, by omega⟩
    obtain ⟨rfl, rfl⟩ := two_pow_add hi hj hcard
    exact ⟨h2, ci, cj, hdis, huni⟩
  · obtain rfl : e = 1 := by omega
    obtain rfl : i = 0 := by omega
    obtain rfl : j = 0 := by omega
    simp at hcard

/-- C31, the flow: with a splitter in front of each pair of rows of the first column and one behind each pair of rows of the last column
(these rows of splitters are not part of the layout) every output gets the same share of the inputs `a`, in every steady flow; and there
is such a flow for all inputs. -/
theorem c31_balances {lib : CardLib} (hl : lib.Correct) {width height : Nat} {ugLen : Option Nat} {g : Grid} {cs : Cnf} {s : Nat}
    (hL : ∀ l, ugLen = some l → 1 ≤ l) (h : powerBalancer lib width height ugLen = .ok (g, cs, s)) {v : Asg} (hv : Sat v cs)
    {T : Nat × Nat → Tile} (hT : Decodes g v T) (a : Nat → Rat) :
    (∀ F, Steady g.In g.nb T (Connected g.nb T) F → (∀ k < height / 2, ∀ y, y = 2 * k ∨ y = 2 * k + 1 →
        F (0, y) = (a (2 * k) + a (2 * k + 1)) / 2) →
      ∀ k < height / 2, (F (width - 1, 2 * k) + F (width - 1, 2 * k + 1)) / 2 = (∑ y ∈ range height, a y) / height) ∧
    ∃ F, Steady g.In g.nb T (Connected g.nb T) F ∧ ∀ k < height / 2, ∀ y, y = 2 * k ∨ y = 2 * k + 1 →
        F (0, y) = (a (2 * k) + a (2 * k + 1)) / 2 := by
  obtain ⟨e, he, he1, hg, hedge, hw, hh, hu, hb, hall⟩ := power_all hl hL h
  obtain ⟨lv, pr, sol⟩ := hall v hv
  have lay := sol.layout hg hT
  have hla := lays_of_decodes sol.sem.init hT
  have mix := sol.mixing hg hT
  have hfull := sol.sem.fullSplitters hg sol.inter hla (lay.inner hg hedge)
  have hconv : ∀ {F : Nat × Nat → Rat}, Steady g.In g.nb T (Connected g.nb T) F → Steady g.In g.nb T (g.linked (g.vals v)) F :=
    fun hF => Steady.congr (fun p q d hp => (sol.sem.linked_iff hg sol.inter hla p q d hp).symm) hF
  let x : Nat → Rat := fun k => (a (2 * k) + a (2 * k + 1)) / 2
  have hst := mix.steady hfull x
  have hfirst : ∀ y < g.height, average (fun p => bitSet g.bits (g.vals v p).colour) x (0, y) = x (y / 2) := by
    intro y hy
    unfold average
    simp only [bitSet_pow (vals_colour hg v _) (sol.sem.first y hy).2]
    simp
  refine ⟨fun F hF h0 k hk => ?_, _, hst, fun k hk y hy => ?_⟩
  · have hk' : 2 * k + 1 < g.height := by omega
    have hsame : ∀ y < g.height, F (g.width - 1, y) = average (fun p => bitSet g.bits (g.vals v p).colour) x (g.width - 1, y) := by
      intro y hy
      refine lay.determined hg hedge hla sol.inter (hconv hF) (hconv hst) (fun y _ hy => ?_) (Nat.zero_le y) (by omega)
      rw [hfirst y (by omega)]
      have hy2 : y < height := by omega
      have hev : height % 2 = 0 := by
        cases e with
        | zero => omega
        | succ e => rw [he, Nat.pow_succ]; omega
      exact h0 (y / 2) (by omega) y (by omega)
    obtain ⟨h2, c1, c2, hd, hu⟩ := power_halves hg hedge sol hT he1 (hh.trans he) (hb.trans (by rw [hh])) (k := k) (by omega)
    rw [← hw, hsame _ (by omega), hsame _ hk']
    unfold average
    rw [c1, c2, ← add_div, ← sum_union hd, hu]
    obtain ⟨f, rfl⟩ : ∃ f, e = f + 2 := ⟨e - 2, by omega⟩
    have hhf : height = 2 * (2 * 2 ^ f) := by rw [he]; ring
    have hsum : ∀ n, ∑ y ∈ range (2 * n), a y = 2 * ∑ k ∈ range n, x k := by
      intro n
      induction n with
      | zero => simp
      | succ n ih =>
        rw [show 2 * (n + 1) = 2 * n + 1 + 1 by ring, sum_range_succ, sum_range_succ, ih, sum_range_succ]
        simp only [x]
        ring
    have h3 : g.height / 2 = 2 * 2 ^ f := by rw [hh]; omega
    rw [h3, hhf, hsum]
    simp only [Nat.add_sub_cancel]
    push_cast
    have : (2 ^ f : Rat) ≠ 0 := by positivity
    field_simp
  · have : y < g.height := by omega
    rw [hfirst y this]
    have : y / 2 = k := by omega
    rw [this]

/-- C31: a height of one is rejected, and there is no layout for two. -/
theorem c31_small (lib : CardLib) (hl : lib.Correct) (width : Nat) (ugLen : Option Nat) (hL : ∀ l, ugLen = some l → 1 ≤ l) :
    (∀ r, powerBalancer lib width 1 ugLen ≠ .ok r) ∧
    ∀ g cs s, powerBalancer lib width 2 ugLen = .ok (g, cs, s) → ¬ ∃ v, Sat v cs := by
  refine ⟨fun r h => ?_, fun g cs s h ⟨v, hv⟩ => ?_⟩
  · obtain ⟨g, cs, s⟩ := r
    obtain ⟨e, he, he1, _⟩ := power_all hl hL h
    have := Nat.pow_le_pow_right (n := 2) (by omega) he1
    omega
  · obtain ⟨e, he, he1, hg, hedge, hw, hh, hu, hb, hall⟩ := power_all hl hL h
    obtain ⟨lv, pr, sol⟩ := hall v hv
    obtain ⟨ci, hci, hci2⟩ := init_iff hg
    obtain ⟨T, hT⟩ := c15_layout hg hci v ((hci2 v).2 sol.sem.init)
    have h2 := (power_halves hg hedge sol hT he1 (hh.trans he) (hb.trans (by rw [hh])) (k := 0) (by omega)).1
    have := Nat.pow_le_pow_right (n := 2) (by omega) h2
    omega

theorem Gen.all_total {fs : List Gen} (h : ∀ f ∈ fs, ∀ s, ∃ r, f s = .ok r) (s : Nat) : ∃ r, Gen.all fs s = .ok r := by
  induction fs generalizing s with
  | nil => exact ⟨([], s), rfl⟩
  | cons f fs ih =>
    obtain ⟨⟨c, s1⟩, h1⟩ := h f (by simp) s
    obtain ⟨⟨c', s2⟩, h2⟩ := ih (fun f hf => h f (by simp [hf])) s1
    exact ⟨(c ++ c', s2), by simp only [Gen.all, h1, h2]⟩

theorem checkerboard_length {g : Grid} (hw : 0 < g.width) : g.height / 2 ≤ (checkerboard g).length := by
  have hn : ((List.range (g.height / 2)).map fun k => (0, 2 * k + 1)).Nodup :=
    List.nodup_range.map fun a b h => by have := (Prod.mk.inj h).2; omega
  have hs : ((List.range (g.height / 2)).map fun k => (0, 2 * k + 1)) ⊆ checkerboard g := by
    intro p hp
    simp only [List.mem_map, List.mem_range] at hp
    obtain ⟨k, hk, rfl⟩ := hp
    simp only [checkerboard, List.mem_flatMap, List.mem_map, List.mem_filter, List.mem_range, decide_eq_true_eq]
    exact ⟨2 * k + 1, by omega, 0, ⟨hw, by omega⟩, rfl⟩
  simpa using (List.subperm_of_subset hn hs).length_le

/-- C31: the generator does not fail for any power of two but one, if the library accepts the sums it is asked for. -/
theorem c31_builds {lib : CardLib} (htot : ∀ ls n s, 0 < n → n ≤ (ls.length : Int) → ∃ r, libraryEquals lib ls n s = .ok r)
    {width e : Nat} {ugLen : Option Nat} (hw : 0 < width) (he : 1 ≤ e) (hL : ∀ l, ugLen = some l → 1 ≤ l) :
    ∃ g cs s, powerBalancer lib width (2 ^ e) ugLen = .ok (g, cs, s) ∧ g.WF ∧ g.width = width := by
  obtain ⟨f, rfl⟩ : ∃ f, e = f + 1 := ⟨e - 1, by omega⟩
  have hh : 0 < 2 ^ (f + 1) := by positivity
  have hhalf : 2 ^ (f + 1) / 2 = 2 ^ f := by rw [Nat.pow_succ, Nat.mul_div_cancel _ (by omega)]
  have hg := mkGrid_wf hw hh ⟨false, false⟩ (some (2 ^ (2 ^ (f + 1) / 2))) ugLen
    (by intro n h; cases h; exact Nat.one_le_two_pow) (levelFields (powerLevels (2 ^ (f + 1)))) 0
  have hcond : width > 0 ∧ 2 ^ (f + 1) > 0 ∧ 2 ^ (f + 1) &&& (2 ^ (f + 1) - 1) = 0 :=
    ⟨hw, hh, (Nat.and_sub_one_eq_zero_iff_isPowerOfTwo (by omega)).2 ⟨f + 1, rfl⟩⟩
  obtain ⟨c0, e0, _⟩ := powerPlain_iff hg (L := levelLits width (2 ^ (2 ^ (f + 1) / 2)) (powerLevels (2 ^ (f + 1))))
    (fun p => (levelLits_length _ _ _ p).1) (fun p => (levelLits_length _ _ _ p).2) rfl
    (by show 2 ^ (f + 1) % 2 = 0; rw [Nat.pow_succ]; omega)
  have hbits : (mkGrid width (2 ^ (f + 1)) ⟨false, false⟩ (some (2 ^ (2 ^ (f + 1) / 2))) ugLen
      (levelFields (powerLevels (2 ^ (f + 1)))) 0).bits = 2 ^ f := by
    show ((2 ^ (2 ^ (f + 1) / 2)) - 1).size = 2 ^ f
    rw [size_pow_sub_one, hhalf]
  obtain ⟨⟨cs0, s0⟩, h0⟩ := Gen.all_total (fs := [Gen.pure (powerPlain (mkGrid width (2 ^ (f + 1)) ⟨false, false⟩
      (some (2 ^ (2 ^ (f + 1) / 2))) ugLen (levelFields (powerLevels (2 ^ (f + 1)))) 0) (levelLits width (2 ^ (2 ^ (f + 1) / 2)) (powerLevels (2 ^ (f + 1)))))] ++
      (mkGrid width (2 ^ (f + 1)) ⟨false, false⟩ (some (2 ^ (2 ^ (f + 1) / 2))) ugLen (levelFields (powerLevels (2 ^ (f + 1)))) 0).cells.map
        (powerSizes lib (mkGrid width (2 ^ (f + 1)) ⟨false, false⟩ (some (2 ^ (2 ^ (f + 1) / 2))) ugLen (levelFields (powerLevels (2 ^ (f + 1)))) 0)
          (levelLits width (2 ^ (2 ^ (f + 1) / 2)) (powerLevels (2 ^ (f + 1))))) ++
      (List.range (powerLevels (2 ^ (f + 1)))).map fun i =>
        libraryEquals lib ((checkerboard (mkGrid width (2 ^ (f + 1)) ⟨false, false⟩ (some (2 ^ (2 ^ (f + 1) / 2))) ugLen
          (levelFields (powerLevels (2 ^ (f + 1)))) 0)).map fun p =>
            (levelLits width (2 ^ (2 ^ (f + 1) / 2)) (powerLevels (2 ^ (f + 1))) p).primary.getD i default) ((2 ^ (f + 1) / 2 : Nat) : Int))
    (by
      intro fn hfn s
      simp only [List.mem_append, List.mem_singleton, List.mem_map, List.mem_range] at hfn
      rcases hfn with (rfl | ⟨p, _, rfl⟩) | ⟨i, hi, rfl⟩
      · exact ⟨(c0, s), by simp only [Gen.pure, e0]⟩
      · unfold powerSizes
        refine Gen.all_total (fun fn hfn s => ?_) s
        obtain ⟨e, he', rfl⟩ := List.mem_map.1 hfn
        have hlt := (zipIdx_getD he').1
        rw [(levelLits_length _ _ _ p).1, powerLevels_pow] at hlt
        obtain ⟨r, hr⟩ := htot ((mkGrid width (2 ^ (f + 1)) ⟨false, false⟩ (some (2 ^ (2 ^ (f + 1) / 2))) ugLen
          (levelFields (powerLevels (2 ^ (f + 1)))) 0).at' p).colour ((2 ^ e.2 : Nat) : Int) s (by positivity) (by
            rw [hg.c p, hbits]
            exact_mod_cast Nat.pow_le_pow_right (by omega) (by omega))
        exact ⟨(FSat.implies [e.1] r.1, r.2), by simp only [Gen.implies, hr]⟩
      · refine htot _ _ _ (by rw [hhalf]; positivity) ?_
        rw [List.length_map]
        exact_mod_cast checkerboard_length (g := mkGrid width (2 ^ (f + 1)) ⟨false, false⟩ (some (2 ^ (2 ^ (f + 1) / 2))) ugLen
          (levelFields (powerLevels (2 ^ (f + 1)))) 0) hw)
    (2 ^ (f + 1) * width * (gridFields (some (2 ^ (2 ^ (f + 1) / 2))) (levelFields (powerLevels (2 ^ (f + 1))))).variableCount)
  have h1 : createPower lib width (2 ^ (f + 1)) ugLen = .ok (mkGrid width (2 ^ (f + 1)) ⟨false, false⟩
      (some (2 ^ (2 ^ (f + 1) / 2))) ugLen (levelFields (powerLevels (2 ^ (f + 1)))) 0, cs0, s0) := by
    unfold createPower
    rw [if_pos hcond]
    have h2 : powerClauses lib (mkGrid width (2 ^ (f + 1)) ⟨false, false⟩
      (some (2 ^ (2 ^ (f + 1) / 2))) ugLen (levelFields (powerLevels (2 ^ (f + 1)))) 0) (levelLits width (2 ^ (2 ^ (f + 1) / 2)) (powerLevels (2 ^ (f + 1))))
      (2 ^ (f + 1) * width * (gridFields (some (2 ^ (2 ^ (f + 1) / 2))) (levelFields (powerLevels (2 ^ (f + 1))))).variableCount) = .ok (cs0, s0) := h0
    simp only [h2]
  have hlen : ∃ cl, enforceMaximumUndergroundLength (mkGrid width (2 ^ (f + 1)) ⟨false, false⟩
      (some (2 ^ (2 ^ (f + 1) / 2))) ugLen (levelFields (powerLevels (2 ^ (f + 1)))) 0) = .ok cl := by
    cases hul : ugLen with
    | none => exact ⟨[], (c21_no_limit _).1 rfl⟩
    | some l =>
      subst hul
      obtain ⟨cl, h1, _⟩ := length_iff hg l rfl (hL l rfl)
      exact ⟨cl, h1⟩
  obtain ⟨cl, hcl⟩ := hlen
  obtain ⟨c, hc⟩ := joinE_total (l := [.ok (blockBelts (mkGrid width (2 ^ (f + 1)) ⟨false, false⟩
      (some (2 ^ (2 ^ (f + 1) / 2))) ugLen (levelFields (powerLevels (2 ^ (f + 1)))) 0) (.ofPair false true)), .ok (preventIntersection (mkGrid width (2 ^ (f + 1)) ⟨false, false⟩
      (some (2 ^ (2 ^ (f + 1) / 2))) ugLen (levelFields (powerLevels (2 ^ (f + 1)))) 0)), enforceMaximumUndergroundLength (mkGrid width (2 ^ (f + 1)) ⟨false, false⟩
      (some (2 ^ (2 ^ (f + 1) / 2))) ugLen (levelFields (powerLevels (2 ^ (f + 1)))) 0)]) (by
      intro e he
      simp only [List.mem_cons, List.not_mem_nil, or_false] at he
      rcases he with rfl | rfl | rfl
      exacts [⟨_, rfl⟩, ⟨_, rfl⟩, ⟨_, hcl⟩])
  refine ⟨_, cs0 ++ c, s0, ?_, hg, rfl⟩
  unfold powerBalancer
  simp only [h1, hc]

/-- C31: the whole program only adds clauses to those of `c31_mixes` and `c31_balances`, so these theorems hold of its solutions. -/
theorem c31_main {lib : CardLib} {width height : Nat} {ugLen : Option Nat} {g : Grid} {cs : Cnf} {s : Nat}
    (h : powerBalancerMain lib width height ugLen = .ok (g, cs, s)) :
    ∃ cs0, powerBalancer lib width height ugLen = .ok (g, cs0, s) ∧ ∀ v, Sat v cs → Sat v cs0 := by
  unfold powerBalancerMain at h
  split at h
  · cases h
  · rename_i g0 cs0 s0 h0
    split at h
    · cases h
    · simp only [Except.ok.injEq, Prod.mk.injEq] at h
      obtain ⟨rfl, rfl, rfl⟩ := h
      exact ⟨cs0, h0, fun v hv => ((Sat_append v _ _).1 hv).1⟩

end FSat
