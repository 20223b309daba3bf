import Verif.Lemmas.NetFreeExact
import Verif.Lemmas.NetFreeTidy
import Verif.Lemmas.IdleSplitters
/-!
# C84: which balancers the net-free programs find
-/

set_option linter.unusedSimpArgs false

namespace FSat

/-- The unit in which the program counts: the least common multiple of the number of inputs and the next power of two. -/
theorem nToN_unit (n : Nat) (hn : 0 < n) : n * nToNDenominator n = Nat.lcm (2 ^ Nat.clog 2 n) n := by
  have hp : nextPowerOfTwo n = 2 ^ Nat.clog 2 n := by
    unfold nextPowerOfTwo
    rw [Nat.one_shiftLeft]
    congr 1
    rcases Nat.lt_or_ge 1 n with h | h
    · refine le_antisymm ?_ ?_
      · rw [Nat.size_le]
        have := Nat.le_pow_clog (by decide : 1 < 2) n
        omega
      · refine Nat.clog_le_of_le_pow ?_
        have := Nat.lt_size_self (n - 1)
        omega
    · obtain rfl : n = 1 := by omega
      rfl
  unfold nToNDenominator
  rw [hp, Nat.lcm, Nat.gcd_comm, ← Nat.mul_div_assoc _ (Nat.gcd_dvd_right n _), Nat.mul_comm n]

theorem flatten_ne {v : Asg} {n bits : Nat} {a b : List (List Lit)} (ha : Arrayed n bits a) (hb : Arrayed n bits b)
    (h : a.flatten.map (ev v) ≠ b.flatten.map (ev v)) : ∃ k < n, value v (comp a k) ≠ value v (comp b k) := by
  by_contra hc
  push Not at hc
  apply h
  rw [List.map_flatten, List.map_flatten]
  congr 1
  apply List.ext_getElem (by simp [ha.1, hb.1])
  intro k h1 h2
  simp only [List.length_map, ha.1] at h1
  simp only [List.getElem_map]
  have := hc k h1
  have e1 : a[k]'(by rw [ha.1]; exact h1) = comp a k := by
    rw [comp, List.getD_eq_getElem?_getD, List.getElem?_eq_getElem (by rw [ha.1]; exact h1)]; rfl
  have e2 : b[k]'(by rw [hb.1]; exact h1) = comp b k := by
    rw [comp, List.getD_eq_getElem?_getD, List.getElem?_eq_getElem (by rw [hb.1]; exact h1)]; rfl
  rw [e1, e2]
  exact binVal_inj (by simp [ha.comp_length h1, hb.comp_length h1]) this

/-- A layout with `n` inputs and `n` outputs, all of whose splitters are used, in whole units of which `full` come in per input. -/
def ShareBalancer (g : Grid) (T : Nat × Nat → Tile) (n full : Nat) (aligned : Bool) : Prop :=
  BasicRules g.In g.nb T (g.shut (.ofPair false true)) (g.shut (.ofBool true)) g.ugLen ∧
  FullSplitters g.In T (Connected g.nb T) ∧
  ∃ i j, BlockAt g.height i n (fun y => T (0, y) = .belt .right .right) (fun y => T (0, y) = .empty) ∧
    BlockAt g.height j n (fun y => T (g.width - 1, y) = .belt .right .right) (fun y => T (g.width - 1, y) = .empty) ∧
    (aligned = true → i = j) ∧ ∃ φ, InputShares g.In g.nb T g.width n i j full φ ∧ NoIdleSplitter g.In g.nb T n φ

/-- C84: for every grid, number of belts and underground length, the program for as many outputs as inputs finds exactly the layouts that
obey the basic rules, hold the inputs and outputs as blocks of straight belts, connect all four ends of every splitter, have no idle
splitter, and share every input evenly when counted in units of one `lcm`-th. -/
theorem c84_exact {width height size : Nat} {ugLen : Option Nat} (hw : 0 < width) (hh : 0 < height) (hn : 0 < size)
    (hL : ∀ l, ugLen = some l → 1 ≤ l) (aligned : Bool) :
    ∃ g cs s, freeBalancer width height ugLen size size aligned = .ok (g, cs, s) ∧ g.width = width ∧ g.height = height ∧
      g.ugLen = ugLen ∧ g.edge = ⟨false, false⟩ ∧
      ∀ T, (∃ v, Sat v cs ∧ Decodes g v T) ↔ ShareBalancer g T size (Nat.lcm (2 ^ Nat.clog 2 size) size) aligned := by
  obtain ⟨cs0, e0, e1⟩ := createNToN_eq (ugLen := ugLen) hw hh hn
  obtain ⟨cs, s, h⟩ := freeBalancer_total hL aligned e0 (mkGrid_wf hw hh _ none _ (by intro n h; cases h) _ _)
    (by simpa using (mkGrid_lits width height ⟨false, false⟩ none ugLen (nToNFields (size - 1) (size * nToNDenominator size).size) 0).1) rfl
  refine ⟨_, cs, s, h, rfl, rfl, rfl, rfl, fun T => ?_⟩
  rw [← nToN_unit size hn]
  generalize hgd : mkGrid width height ⟨false, false⟩ none ugLen (nToNFields (size - 1) (size * nToNDenominator size).size) 0 = g at *
  have hgw : g.width = width := by rw [← hgd]; rfl
  have hgh : g.height = height := by rw [← hgd]; rfl
  have hge : g.edge = ⟨false, false⟩ := by rw [← hgd]; rfl
  have hgu : g.ugLen = ugLen := by rw [← hgd]; rfl
  have hg : g.WF := by rw [← hgd]; exact mkGrid_wf hw hh _ none _ (by intro n h; cases h) _ _
  have hli : g.LitsLe (height * width * (gridFields none (nToNFields (size - 1) (size * nToNDenominator size).size)).variableCount) := by
    rw [← hgd]
    simpa using (mkGrid_lits width height ⟨false, false⟩ none ugLen (nToNFields (size - 1) (size * nToNDenominator size).size) 0).1
  constructor
  · rintro ⟨v, hv, hT⟩
    obtain ⟨_, _, _, _, _, _, hs, hf⟩ := nToN_all hL h hv
    obtain ⟨i, j, hlay, hal⟩ := free_layout hg hs.init hs.shut hs.under (fun y hy => (hs.first y hy).1) (fun y hy => (hs.last y hy).1) hf hT
    have hl := lays_of_decodes hs.init hT
    have hc := hs.linked_iff hg hf.inter hl
    have hin := hlay.inner hg hge
    have hfs : FullSplitters g.In T (Connected g.nb T) := by
      intro p d b hp ht
      obtain ⟨⟨q, h1⟩, r, hr, h2⟩ := hs.fullSplitters hg hf.inter hl hin p d b hp ht
      exact ⟨⟨q, (hc p q d hp).1 h1⟩, r, hr, (hc r p d hr).1 h2⟩
    refine ⟨hlay.rules, hfs, i, j, hlay.inputs, hlay.outputs, fun ha => ?_, fun k p => value v
      (comp (nToNLits width (size - 1) (size * nToNDenominator size).size p).flow k), ⟨fun k hk => ?_, fun k hk p hp => ?_,
        fun k hk y h1 h2 => ?_, fun k hk y h1 h2 => ?_⟩, fun p q d hp hpair => ?_⟩
    · have := hal ha
      unfold RowsNested at this
      rw [if_pos (Nat.le_refl _)] at this
      omega
    · exact (hs.steady hg (fun p => nToNLits_shape _ _ _ p) hf.inter hl hin hk).congr hc
    · exact hs.le p hp k hk
    · have := hlay.inputs.1
      exact (hs.first y (by omega)).2 k hk
    · have := hlay.outputs.1
      rw [(hs.last y (by omega)).2 k hk, Nat.mul_comm]
    · have hq := Grid.nb_in hg hpair.2.1
      obtain ⟨f, hf1⟩ := Option.ne_none_iff_exists'.1 (hin p d true hp hpair.1).1
      obtain ⟨f', hf2⟩ := Option.ne_none_iff_exists'.1 (hin q d false hq hpair.2.2).1
      have hne := (hs.halve p d f q f' hp hf1 hpair.2.1 hf2 ((hpair.1 ▸ hl p hp : Agrees _ (.splitter d true)).splitter_flags).2.1
        (hs.full hl hp hpair.1).1).2
      exact flatten_ne (nToNLits_shape _ _ _ p).flow (nToNLits_shape _ _ _ q).flow hne
  · rintro ⟨hr, hfs, i, j, hin, hout, hal, φ, hφ, hd⟩
    have hlay : FreeLayout g T size size i j := ⟨hr, hin, hout⟩
    rw [hgw] at hφ
    obtain ⟨v0, hv0⟩ := nToN_complete hw hh hn rfl rfl hgd.symm e1 hlay hfs hφ hd
    have hl := realise_lays (col := fun _ => 0) hg hr.basic hr.joined hr.ends
    obtain ⟨_, v, _, h1, h2⟩ := free_fill hL e0 h hg hli hgu hlay (fun ha => by
        have := hal ha
        unfold RowsNested
        rw [if_pos (Nat.le_refl _)]
        omega) (v0 := v0) fun v hv => by
      obtain ⟨k1, k2⟩ := hv0 v hv
      refine ⟨k1, (realise_init hg hl hr.splitters (by rw [← hgd]; intro p _; simp [mkGrid])).congr hg k2, fun p hp => by rw [k2 p hp]; exact hl p hp,
        (realise_intersection hg hr.basic hr.joined hr.ends).congr hg k2, fun l hl => ?_⟩
      exact (realise_length hg ((hgu.trans hl) ▸ hr.undergrounds)).congr hg k2
    exact ⟨v, h1, h2⟩

/-- C84: a layout with idle splitters is as good as one without: with a belt in place of each of their halves it still obeys the rules,
has the same inputs and outputs, connects every splitter fully and shares every input in the same way. -/
theorem c84_idle {g : Grid} (hg : g.WF) {T : Nat × Nat → Tile} {size full i j : Nat}
    {shutB shutU : Nat × Nat → Dir → Prop} {φ : Nat → Nat × Nat → Nat}
    (hr : BasicRules g.In g.nb T shutB shutU g.ugLen) (hf : FullSplitters g.In T (Connected g.nb T))
    (hi : BlockAt g.height i size (fun y => T (0, y) = .belt .right .right) (fun y => T (0, y) = .empty))
    (hj : BlockAt g.height j size (fun y => T (g.width - 1, y) = .belt .right .right) (fun y => T (g.width - 1, y) = .empty))
    (hφ : InputShares g.In g.nb T g.width size i j full φ) :
    ∃ T', (∀ p, T' p = T p ∨ ∃ d b, T p = .splitter d b ∧ T' p = .belt d d) ∧ BasicRules g.In g.nb T' shutB shutU g.ugLen ∧
      FullSplitters g.In T' (Connected g.nb T') ∧
      BlockAt g.height i size (fun y => T' (0, y) = .belt .right .right) (fun y => T' (0, y) = .empty) ∧
      BlockAt g.height j size (fun y => T' (g.width - 1, y) = .belt .right .right) (fun y => T' (g.width - 1, y) = .empty) ∧
      InputShares g.In g.nb T' g.width size i j full φ ∧ NoIdleSplitter g.In g.nb T' size φ := by
  have hkeep : ∀ p, (∀ d b, T p ≠ .splitter d b) → unsplit g.In g.nb T size φ p = T p := by
    intro p hp
    rcases unsplit_cases (In := g.In) (nb := g.nb) (T := T) (n := size) (φ := φ) p with h | ⟨_, d, b, h, _⟩
    · exact h
    · exact absurd h (hp d b)
  have hblock : ∀ x i, BlockAt g.height i size (fun y => T (x, y) = .belt .right .right) (fun y => T (x, y) = .empty) →
      BlockAt g.height i size (fun y => unsplit g.In g.nb T size φ (x, y) = .belt .right .right)
        (fun y => unsplit g.In g.nb T size φ (x, y) = .empty) := by
    intro x i hb
    refine ⟨hb.1, fun y hy => ?_⟩
    have := hb.2 y hy
    split
    · rename_i hc
      rw [if_pos hc] at this
      exact (hkeep _ fun d b h => by rw [this] at h; cases h).trans this
    · rename_i hc
      rw [if_neg hc] at this
      exact (hkeep _ fun d b h => by rw [this] at h; cases h).trans this
  refine ⟨unsplit g.In g.nb T size φ, fun p => ?_, unsplit_rules (fun p q r d hp hq h1 h2 => Grid.nb_inj hg hp hq h1 h2)
    (fun p q d hp h => ⟨Grid.nb_in hg h, Grid.nb_opp hg hp h⟩) hr hf, unsplit_full hf, hblock _ _ hi, hblock _ _ hj,
    ⟨fun k hk => unsplit_steady hf hφ.steady hk, hφ.le, hφ.inputs, hφ.outputs⟩, unsplit_noIdle fun p q d _ h => Grid.nb_in hg h⟩
  rcases unsplit_cases (In := g.In) (nb := g.nb) (T := T) (n := size) (φ := φ) p with h | ⟨_, d, b, h, h'⟩
  · exact .inl h
  · exact .inr ⟨d, b, h, h'⟩

/-- C84: if the program finds nothing, then there is no layout at all, with idle splitters or without, that shares the inputs evenly in
units of one `lcm`-th. -/
theorem c84_unsat {width height size : Nat} {ugLen : Option Nat} (hw : 0 < width) (hh : 0 < height) (hn : 0 < size)
    (hL : ∀ l, ugLen = some l → 1 ≤ l) (aligned : Bool) {g : Grid} {cs : Cnf} {s : Nat}
    (h : freeBalancer width height ugLen size size aligned = .ok (g, cs, s)) (hun : ¬ ∃ v, Sat v cs) (T : Nat × Nat → Tile) (i j : Nat)
    (hr : BasicRules g.In g.nb T (g.shut (.ofPair false true)) (g.shut (.ofBool true)) ugLen)
    (hf : FullSplitters g.In T (Connected g.nb T))
    (hi : BlockAt height i size (fun y => T (0, y) = .belt .right .right) (fun y => T (0, y) = .empty))
    (hj : BlockAt height j size (fun y => T (width - 1, y) = .belt .right .right) (fun y => T (width - 1, y) = .empty))
    (hal : aligned = true → i = j) (φ : Nat → Nat × Nat → Nat) :
    ¬ InputShares g.In g.nb T width size i j (Nat.lcm (2 ^ Nat.clog 2 size) size) φ := by
  intro hφ
  obtain ⟨g', cs', s', h', hgw, hgh, hgu, _, hex⟩ := c84_exact hw hh hn hL aligned
  rw [h] at h'
  simp only [Except.ok.injEq, Prod.mk.injEq] at h'
  obtain ⟨rfl, rfl, rfl⟩ := h'
  have hg : g.WF := by
    obtain ⟨cs0, e0, _⟩ := createNToN_eq (ugLen := ugLen) hw hh hn
    obtain ⟨_, _, e⟩ := freeBalancer_grid h
    rw [e0] at e
    simp only [Except.ok.injEq, Prod.mk.injEq] at e
    rw [← e.1]
    exact mkGrid_wf hw hh _ none _ (by intro n h; cases h) _ _
  subst hgw hgh hgu
  obtain ⟨T', _, r1, r2, r3, r4, r5, r6⟩ := c84_idle hg hr hf hi hj hφ
  obtain ⟨v, hv, _⟩ := (hex T').2 ⟨r1, r2, i, j, r3, r4, hal, φ, r5, r6⟩
  exact hun ⟨v, hv⟩

/-- C84: the whole program finds exactly those of these layouts in which nothing simpler would do. -/
theorem c84_main {width height size : Nat} {ugLen : Option Nat} (hw : 2 ≤ width) (hh : 0 < height) (hn : 0 < size)
    (hL : ∀ l, ugLen = some l → 1 ≤ l) (aligned : Bool) :
    ∃ g cs s, freeBalancerMain width height ugLen size size aligned = .ok (g, cs, s) ∧ g.width = width ∧ g.height = height ∧
      g.ugLen = ugLen ∧ g.edge = ⟨false, false⟩ ∧
      ∀ T, (∃ v, Sat v cs ∧ Decodes g v T) ↔ ShareBalancer g T size (Nat.lcm (2 ^ Nat.clog 2 size) size) aligned ∧
        TidyFree g.In g.nb width height ugLen T (fun p d => (T p).Takes d) (fun p d => (T p).Emits d) := by
  obtain ⟨g, cs, s, h, hgw, hgh, hgu, hge, hex⟩ := c84_exact (ugLen := ugLen) (by omega : 0 < width) hh hn hL aligned
  have hg : g.WF := by
    obtain ⟨cs0, e0, _⟩ := createNToN_eq (ugLen := ugLen) (by omega : 0 < width) hh hn
    obtain ⟨_, _, e⟩ := freeBalancer_grid h
    rw [e0] at e
    simp only [Except.ok.injEq, Prod.mk.injEq] at e
    rw [← e.1]
    exact mkGrid_wf (by omega) hh _ none _ (by intro n h; cases h) _ _
  obtain ⟨cs', h', ht⟩ := freeMain_tidy hg (by omega) hge
  have hmain : freeBalancerMain width height ugLen size size aligned = .ok (g, cs ++ cs', s) := by
    unfold freeBalancerMain
    rw [h]
    simp only [h']
  subst hgw hgh hgu
  refine ⟨g, cs ++ cs', s, hmain, rfl, rfl, rfl, hge, fun T => ?_⟩
  have key : ∀ v, Sat v cs → Decodes g v T → (Sat v cs' ↔
      TidyFree g.In g.nb g.width g.height g.ugLen T (fun p d => (T p).Takes d) (fun p d => (T p).Emits d)) := by
    intro v hv hT
    obtain ⟨_, _, _, _, _, _, hs, hf⟩ := nToN_all hL h hv
    have hl := lays_of_decodes hs.init hT
    obtain ⟨ci, hi1, hi2⟩ := init_iff hg
    have hS : Solved g v T := ⟨hg, ⟨ci, hi1, (hi2 v).2 hs.init⟩, (Sat_intersection g v).2 hf.inter, (Sat_underground g v).2 hs.under, hT⟩
    have hpu := ((hex T).1 ⟨v, hv, hT⟩).1.undergrounds
    rw [ht v T hS hpu]
    have hin : ∀ p d, g.In p → ((T p).Takes d ↔ (g.vals v p).inp d = true) := by
      intro p d hp
      refine ⟨fun h => ?_, fun h => (hl p hp).inp_takes h⟩
      by_cases hsp : (T p).IsSplitter
      · obtain ⟨e, b, ht⟩ := hsp
        have : e = d := by rw [ht] at h; exact h
        subst this
        exact (hs.full hl hp ht).1
      · exact ((hl p hp).takes_iff ((hl p hp).isSplitter_false hsp) d).2 h
    have hout : ∀ p d, g.In p → ((T p).Emits d ↔ (g.vals v p).out d = true) := by
      intro p d hp
      refine ⟨fun h => ?_, fun h => (hl p hp).out_emits h⟩
      by_cases hsp : (T p).IsSplitter
      · obtain ⟨e, b, ht⟩ := hsp
        have : e = d := by rw [ht] at h; exact h
        subst this
        exact (hs.full hl hp ht).2
      · exact ((hl p hp).emits_iff ((hl p hp).isSplitter_false hsp) d).2 h
    exact ⟨TidyFree.congr (fun p q d h => Grid.nb_in hg h) hin hout,
      TidyFree.congr (fun p q d h => Grid.nb_in hg h) (fun p d hp => (hin p d hp).symm) (fun p d hp => (hout p d hp).symm)⟩
  constructor
  · rintro ⟨v, hv, hT⟩
    rw [Sat_append] at hv
    exact ⟨(hex T).1 ⟨v, hv.1, hT⟩, (key v hv.1 hT).1 hv.2⟩
  · rintro ⟨hb, htidy⟩
    obtain ⟨v, hv, hT⟩ := (hex T).2 hb
    exact ⟨v, (Sat_append _ _ _).2 ⟨hv, (key v hv hT).2 htidy⟩, hT⟩

/-- The layout of the example is one. -/
theorem pair_balancer : ShareBalancer pairGrid pairLayout 2 2 true := by
  obtain ⟨cs, s, h1, h2⟩ := pair_ok
  obtain ⟨g, cs', s', h, _, _, _, _, hex⟩ := c84_exact (width := 3) (height := 2) (size := 2) (ugLen := some 4) (by decide) (by decide)
    (by decide) (by intro l h; cases h; decide) true
  rw [h1] at h
  simp only [Except.ok.injEq, Prod.mk.injEq] at h
  obtain ⟨rfl, rfl, rfl⟩ := h
  have hu : Nat.lcm (2 ^ Nat.clog 2 2) 2 = 2 := by
    have : Nat.clog 2 2 = 1 := by decide +kernel
    rw [this]; decide
  have := (hex pairLayout).1 ⟨pairAsg, h2, pair_decodes⟩
  rwa [hu] at this

example : (∃ g cs s, freeBalancer 3 2 (some 4) 2 2 true = .ok (g, cs, s) ∧ ∃ v, Sat v cs ∧ Decodes g v pairLayout) ∧
    ShareBalancer pairGrid pairLayout 2 2 true ∧ (∃ q, pairLayout (1, 1) = .splitter .right true ∧ SplitterPair pairGrid.nb pairLayout (1, 1) q .right) := by
  obtain ⟨cs, s, h1, h2⟩ := pair_ok
  exact ⟨⟨_, cs, s, h1, pairAsg, h2, pair_decodes⟩, pair_balancer, (1, 0), rfl, rfl, by decide, rfl⟩

end FSat
