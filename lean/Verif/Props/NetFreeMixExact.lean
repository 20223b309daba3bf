import Verif.Lemmas.NetFreeMixComplete
import Verif.Props.NetFreeExact
/-!
# C91: which balancers with different numbers of inputs and outputs the net-free program finds
-/

set_option linter.unusedSimpArgs false

namespace FSat

theorem nextPowerOfTwo_clog {n : Nat} (hn : 0 < n) : nextPowerOfTwo n = 2 ^ Nat.clog 2 n := by
  unfold nextPowerOfTwo
  rw [Nat.one_shiftLeft]
  congr 1
  rcases Nat.lt_or_ge 1 n with h | h
  · refine le_antisymm ?_ ?_
    · rw [Nat.size_le]
      have := Nat.le_pow_clog (by decide : 1 < 2) n
      omega
    · refine Nat.clog_le_of_le_pow ?_
      have := Nat.lt_size_self (n - 1)
      omega
  · obtain rfl : n = 1 := by omega
    rfl

/-- The units a full belt carries: the least common multiple of two, of both numbers of belts and of the power of two next to the smaller
one. -/
def mixUnit (m n : Nat) : Nat := Nat.lcm (2 ^ Nat.clog 2 (min m n)) (Nat.lcm 2 (Nat.lcm m n))

theorem maxBeltFlow_unit {m n : Nat} (hm : 0 < m) (hn : 0 < n) : maxBeltFlow m n = mixUnit m n := by
  unfold maxBeltFlow mixUnit
  rw [nextPowerOfTwo_clog (by omega)]
  rfl

/-- A layout with `m` inputs and `n` outputs whose splitters use the connections `conn`, at most one end of each unconnected. -/
def MixBalancer (g : Grid) (T : Nat × Nat → Tile) (conn : Nat × Nat → Nat × Nat → Dir → Prop) (m n full : Nat) (aligned : Bool) : Prop :=
  BasicRules g.In g.nb T (g.shut (.ofPair false true)) (g.shut (.ofBool true)) g.ugLen ∧
  SplitterChoice g.In g.nb T conn ∧ AlmostFull g.In g.nb T conn ∧
  ∃ i j, BlockAt g.height i m (fun y => T (0, y) = .belt .right .right) (fun y => T (0, y) = .empty) ∧
    BlockAt g.height j n (fun y => T (g.width - 1, y) = .belt .right .right) (fun y => T (g.width - 1, y) = .empty) ∧
    (aligned = true → RowsNested i m j n) ∧
    ∃ φ β, MixShares g.In g.nb T conn g.width m n i j full φ β ∧ NoIdleFull g.In g.nb T conn m φ

/-- The connections of a satisfying assignment, and the assignment of given connections. -/
theorem nToM_both {width height m n : Nat} {ugLen : Option Nat} (hw : 0 < width) (hh : 0 < height) (hm : 0 < m) (hn : 0 < n) (hne : m ≠ n)
    (hL : ∀ l, ugLen = some l → 1 ≤ l) (aligned : Bool) :
    ∃ g cs s, freeBalancer width height ugLen m n aligned = .ok (g, cs, s) ∧ g.WF ∧ g.width = width ∧ g.height = height ∧
      g.ugLen = ugLen ∧ g.edge = ⟨false, false⟩ ∧ ∀ T,
      (∀ v, Sat v cs → Decodes g v T → MixBalancer g T (g.linked (g.vals v)) m n (mixUnit m n) aligned ∧
        ∀ p d, g.In p → (EntryUsed g.nb T (g.linked (g.vals v)) p d ↔ (g.vals v p).inp d = true) ∧
          (ExitUsed g.nb T (g.linked (g.vals v)) p d ↔ (g.vals v p).out d = true)) ∧
      ∀ conn, MixBalancer g T conn m n (mixUnit m n) aligned → ∃ v, Sat v cs ∧ Decodes g v T ∧
        ∀ p d, g.In p → (EntryUsed g.nb T conn p d ↔ (g.vals v p).inp d = true) ∧ (ExitUsed g.nb T conn p d ↔ (g.vals v p).out d = true) := by
  obtain ⟨cs0, e0, e1⟩ := createNToM_eq (ugLen := ugLen) hw hh hm hn hne
  obtain ⟨cs, s, h⟩ := freeBalancer_total hL aligned e0 (mkGrid_wf hw hh _ none _ (by intro n h; cases h) _ _)
    (by simpa using (mkGrid_lits width height ⟨false, false⟩ none ugLen (nToMFields m n (maxBeltFlow m n).size) 0).1) rfl
  refine ⟨_, cs, s, h, mkGrid_wf hw hh _ none _ (by intro n h; cases h) _ _, rfl, rfl, rfl, rfl, fun T => ?_⟩
  rw [← maxBeltFlow_unit hm hn]
  have hfp : 0 < maxBeltFlow m n := maxBeltFlow_pos hm hn
  have hlog := size_log hfp
  generalize hgd : mkGrid width height ⟨false, false⟩ none ugLen (nToMFields m n (maxBeltFlow m n).size) 0 = g at *
  have hgw : g.width = width := by rw [← hgd]; rfl
  have hgh : g.height = height := by rw [← hgd]; rfl
  have hge : g.edge = ⟨false, false⟩ := by rw [← hgd]; rfl
  have hgu : g.ugLen = ugLen := by rw [← hgd]; rfl
  have hg : g.WF := by rw [← hgd]; exact mkGrid_wf hw hh _ none _ (by intro n h; cases h) _ _
  have hli : g.LitsLe (height * width * (gridFields none (nToMFields m n (maxBeltFlow m n).size)).variableCount) := by
    rw [← hgd]
    simpa using (mkGrid_lits width height ⟨false, false⟩ none ugLen (nToMFields m n (maxBeltFlow m n).size) 0).1
  have hF : ∀ p, (nToMLits width m n (maxBeltFlow m n).size p).1.Shape m (maxBeltFlow m n).size (maxBeltFlow m n).size := fun p =>
    (nToMLits_shape _ _ _ _ p).1
  have hB : ∀ p, (nToMLits width m n (maxBeltFlow m n).size p).2.Shape n (maxBeltFlow m n).size (maxBeltFlow m n).size := fun p =>
    (nToMLits_shape _ _ _ _ p).2
  refine ⟨fun v hv hT => ?_, ?_⟩
  · obtain ⟨_, _, _, _, _, _, _, hs, hf⟩ := nToM_all hne hL h hv
    have hmore : NToMMore g (fun p => (nToMLits width m n (maxBeltFlow m n).size p).1) (fun p => (nToMLits width m n (maxBeltFlow m n).size p).2)
        m n (maxBeltFlow m n).size v := by
      obtain ⟨cs1, s1, e, h2⟩ := free_sem hL h
      rw [e0] at e
      simp only [Except.ok.injEq, Prod.mk.injEq] at e
      obtain ⟨_, rfl, rfl⟩ := e
      exact nToM_more hg hF hB e1 (h2 v hg hli hgu hv).1
    obtain ⟨i, j, hlay, hal⟩ := free_layout hg hs.init hs.shut hs.under (fun y hy => (hs.first y hy).1) (fun y hy => (hs.last y hy).1) hf hT
    have hl := lays_of_decodes hs.init hT
    have hin := hlay.inner hg hge
    obtain ⟨hc1, hc2⟩ := hs.choice hg hf.inter hl hin
    obtain ⟨q1, q2, q3, q4, q5, q6, _, _, q7, q8, q9, q10⟩ := c30_constants hm hn
    refine ⟨⟨hlay.rules, hc1, hc2, i, j, hlay.inputs, hlay.outputs, hal,
      fun k p => value v (comp (nToMLits width m n (maxBeltFlow m n).size p).1.flow k),
      fun k p => value v (comp (nToMLits width m n (maxBeltFlow m n).size p).2.flow k),
      ⟨fun k hk => hs.steady hg hF hf.inter hl hin hk, fun k hk => hs.drawn hg hB hf.inter hl hin hk,
        fun p hp => ⟨fun k hk => hs.leF p hp k hk, fun k hk => hs.leB p hp k hk⟩, fun p hp => ?_, fun y h1 h2 => ?_, fun y h1 h2 => ?_⟩,
      fun p q d hp hpair ⟨r, hr, hrc⟩ ⟨r', hr', hrc'⟩ ⟨f, hfc⟩ ⟨f', hfc'⟩ => ?_⟩, fun p d hp => ⟨?_, ?_⟩⟩
    · rw [← hlog]
      exact ⟨hmore.topF p hp, hmore.topB p hp⟩
    · have hy : y < g.height := by have := hlay.inputs.1; omega
      obtain ⟨_, a1, a2⟩ := hs.first y hy
      refine ⟨fun k hk => ?_, fun k hk => ?_⟩
      · rw [a1 k hk, ← q3]
        split
        · exact Nat.mul_comm _ _
        · simp
      · rw [a2 k hk, ← q4, ← q6]
        ring
    · have hy : y < g.height := by have := hlay.outputs.1; omega
      obtain ⟨_, a1, a2⟩ := hs.last y hy
      refine ⟨fun k hk => ?_, fun k hk => ?_⟩
      · rw [a1 k hk, ← q3, ← q5]
        ring
      · rw [a2 k hk, ← q4]
        split
        · exact Nat.mul_comm _ _
        · simp
    · have hq := Grid.nb_in hg hpair.2.1
      have i1 : (g.vals v p).inp d = true := (hf.inter d r p hr hrc.1).1 ▸ hrc.2
      have i2 : (g.vals v q).inp d = true := (hf.inter d r' q hr' hrc'.1).1 ▸ hrc'.2
      have hhd := ((hpair.1 ▸ hl p hp : Agrees _ (.splitter d true)).splitter_flags).2.1
      have hne' := hmore.diff p d f q f' hp hfc.1 hpair.2.1 hfc'.1 hhd i1 i2 hfc.2 hfc'.2
      obtain ⟨hfull1, hfull2⟩ := (hs.ends p d f q f' hp hfc.1 hpair.2.1 hfc'.1 hhd).full i1 i2 hfc.2 hfc'.2
      have hb : (nToMLits width m n (maxBeltFlow m n).size p).2.flow.flatten.map (ev v) =
          (nToMLits width m n (maxBeltFlow m n).size q).2.flow.flatten.map (ev v) := by
        by_contra hcon
        obtain ⟨k, hk, hkn⟩ := flatten_ne (hB p).flow (hB q).flow hcon
        obtain ⟨b1, b2⟩ := hfull2 k hk
        exact hkn (by omega)
      refine flatten_ne (hF p).flow (hF q).flow fun hcon => hne' ?_
      rw [List.map_append, List.map_append, hb, hcon]
    · constructor
      · rintro ⟨ht, hall⟩
        cases hr : g.nb p d.opp with
        | some r =>
          have hrp := Grid.nb_opp hg hp hr
          rw [Dir.opp_opp] at hrp
          exact (hf.inter d r p (Grid.nb_in hg hr) hrp).1 ▸ (hall r hr).2
        | none =>
          refine ((hl p hp).takes_iff ((hl p hp).isSplitter_false fun ⟨e, b, he⟩ => ?_) d).2 ht
          rw [he] at ht
          have : e = d := ht
          subst this
          exact (hin p e b hp he).2 hr
      · intro hi
        refine ⟨(hl p hp).inp_takes hi, fun r hr => ?_⟩
        have hrp := Grid.nb_opp hg hp hr
        rw [Dir.opp_opp] at hrp
        exact ⟨hrp, (hf.inter d r p (Grid.nb_in hg hr) hrp).1.symm ▸ hi⟩
    · constructor
      · rintro ⟨ht, hall⟩
        cases hr : g.nb p d with
        | some r => exact (hall r hr).2
        | none =>
          refine ((hl p hp).emits_iff ((hl p hp).isSplitter_false fun ⟨e, b, he⟩ => ?_) d).2 ht
          rw [he] at ht
          have : e = d := ht
          subst this
          exact (hin p e b hp he).1 hr
      · intro hi
        exact ⟨(hl p hp).out_emits hi, fun r hr => ⟨hr, hi⟩⟩
  · rintro conn ⟨hr, hc, ha, i, j, hi, hj, hal, φ, β, hφ, hd⟩
    have hlay : FreeLayout g T m n i j := ⟨hr, hi, hj⟩
    rw [hgw] at hφ
    obtain ⟨v0, hv0⟩ := nToM_complete hw hh hm hn hne rfl hgd.symm e1 hlay hc ha hφ hd
    have hin := hlay.inner hg hge
    have hfits := connFlow_fits hg hc ha hr.joined hr.splitters hin
    have hl := draw_lays (col := fun _ => 0) hr.basic hfits
    obtain ⟨_, v, hag, h1, h2⟩ := free_fill hL e0 h hg hli hgu hlay hal (v0 := v0) fun v hv => by
      obtain ⟨k1, k2⟩ := hv0 v hv
      refine ⟨k1, (draw_init hg hl hr.splitters (by rw [← hgd]; intro p _; simp [mkGrid])).congr hg k2, fun p hp => by rw [k2 p hp]; exact hl p hp,
        (draw_intersection hg hl hfits hr.ends).congr hg k2, fun l hl => ?_⟩
      exact (draw_length hg ((hgu.trans hl) ▸ hr.undergrounds)).congr hg k2
    refine ⟨v, h1, h2, fun p d hp => ?_⟩
    rw [(hv0 v hag).2 p hp]
    exact ⟨connFlow_inp.symm, connFlow_out.symm⟩

/-- C91: for every grid, all different numbers of inputs and outputs and every underground length, the program finds exactly the layouts
that obey the basic rules, hold the inputs and outputs as blocks of straight belts and share every input and every output evenly over
connections that leave at most one end of each splitter unconnected, with no idle splitter. -/
theorem c91_exact {width height m n : Nat} {ugLen : Option Nat} (hw : 0 < width) (hh : 0 < height) (hm : 0 < m) (hn : 0 < n) (hne : m ≠ n)
    (hL : ∀ l, ugLen = some l → 1 ≤ l) (aligned : Bool) :
    ∃ g cs s, freeBalancer width height ugLen m n aligned = .ok (g, cs, s) ∧ g.width = width ∧ g.height = height ∧
      g.ugLen = ugLen ∧ g.edge = ⟨false, false⟩ ∧
      ∀ T, (∃ v, Sat v cs ∧ Decodes g v T) ↔ ∃ conn, MixBalancer g T conn m n (mixUnit m n) aligned := by
  obtain ⟨g, cs, s, h, _, h1, h2, h3, h4, h5⟩ := nToM_both (ugLen := ugLen) hw hh hm hn hne hL aligned
  refine ⟨g, cs, s, h, h1, h2, h3, h4, fun T => ⟨?_, ?_⟩⟩
  · rintro ⟨v, hv, hT⟩
    exact ⟨_, ((h5 T).1 v hv hT).1⟩
  · rintro ⟨conn, hb⟩
    obtain ⟨v, hv, hT, _⟩ := (h5 T).2 conn hb
    exact ⟨v, hv, hT⟩

/-- C91: the whole program finds exactly those of these layouts in which nothing simpler would do; whether an end of a splitter counts as
used is up to the same connections. -/
theorem c91_main {width height m n : Nat} {ugLen : Option Nat} (hw : 2 ≤ width) (hh : 0 < height) (hm : 0 < m) (hn : 0 < n) (hne : m ≠ n)
    (hL : ∀ l, ugLen = some l → 1 ≤ l) (aligned : Bool) :
    ∃ g cs s, freeBalancerMain width height ugLen m n aligned = .ok (g, cs, s) ∧ g.width = width ∧ g.height = height ∧
      g.ugLen = ugLen ∧ g.edge = ⟨false, false⟩ ∧
      ∀ T, (∃ v, Sat v cs ∧ Decodes g v T) ↔ ∃ conn, MixBalancer g T conn m n (mixUnit m n) aligned ∧
        TidyFree g.In g.nb width height ugLen T (EntryUsed g.nb T conn) (ExitUsed g.nb T conn) := by
  obtain ⟨g, cs, s, h, hg, hgw, hgh, hgu, hge, hex⟩ := nToM_both (ugLen := ugLen) (by omega : 0 < width) hh hm hn hne hL aligned
  obtain ⟨cs', h', ht⟩ := freeMain_tidy hg (by omega) hge
  have hmain : freeBalancerMain width height ugLen m n aligned = .ok (g, cs ++ cs', s) := by
    unfold freeBalancerMain
    rw [h]
    simp only [h']
  subst hgw hgh hgu
  refine ⟨g, cs ++ cs', s, hmain, rfl, rfl, rfl, hge, fun T => ?_⟩
  have key : ∀ v conn, Sat v cs → Decodes g v T → MixBalancer g T conn m n (mixUnit m n) aligned →
      (∀ p d, g.In p → (EntryUsed g.nb T conn p d ↔ (g.vals v p).inp d = true) ∧ (ExitUsed g.nb T conn p d ↔ (g.vals v p).out d = true)) →
      (Sat v cs' ↔ TidyFree g.In g.nb g.width g.height g.ugLen T (EntryUsed g.nb T conn) (ExitUsed g.nb T conn)) := by
    intro v conn hv hT hb hfl
    obtain ⟨_, _, _, _, _, _, _, hs, hf⟩ := nToM_all hne hL h hv
    obtain ⟨ci, hi1, hi2⟩ := init_iff hg
    have hS : Solved g v T := ⟨hg, ⟨ci, hi1, (hi2 v).2 hs.init⟩, (Sat_intersection g v).2 hf.inter, (Sat_underground g v).2 hs.under, hT⟩
    rw [ht v T hS hb.1.undergrounds]
    exact ⟨TidyFree.congr (fun p q d h => Grid.nb_in hg h) (fun p d hp => (hfl p d hp).1) (fun p d hp => (hfl p d hp).2),
      TidyFree.congr (fun p q d h => Grid.nb_in hg h) (fun p d hp => (hfl p d hp).1.symm) (fun p d hp => (hfl p d hp).2.symm)⟩
  constructor
  · rintro ⟨v, hv, hT⟩
    rw [Sat_append] at hv
    obtain ⟨hb, hfl⟩ := (hex T).1 v hv.1 hT
    exact ⟨_, hb, (key v _ hv.1 hT hb hfl).1 hv.2⟩
  · rintro ⟨conn, hb, htidy⟩
    obtain ⟨v, hv, hT, hfl⟩ := (hex T).2 conn hb
    exact ⟨v, (Sat_append _ _ _).2 ⟨hv, (key v conn hv hT hb hfl).2 htidy⟩, hT⟩

/-- One unit is a half belt of a splitter with one input and two outputs. -/
theorem mixUnit_fork : mixUnit 1 2 = 2 := by
  rw [← maxBeltFlow_unit (by decide) (by decide)]
  decide +kernel

/-- The layout of the example is one. -/
theorem fork_balancer : ∃ conn, MixBalancer forkGrid forkLayout conn 1 2 2 true := by
  obtain ⟨cs, s, h1, h2⟩ := fork_ok
  obtain ⟨g, cs', s', h, _, _, _, _, hex⟩ := c91_exact (width := 3) (height := 2) (m := 1) (n := 2) (ugLen := some 4) (by decide) (by decide)
    (by decide) (by decide) (by decide) (by intro l h; cases h; decide) true
  rw [h1] at h
  simp only [Except.ok.injEq, Prod.mk.injEq] at h
  obtain ⟨rfl, rfl, rfl⟩ := h
  have := (hex forkLayout).1 ⟨forkAsg, h2, fork_decodes⟩
  rwa [mixUnit_fork] at this

example : (∃ g cs s, freeBalancer 3 2 (some 4) 1 2 true = .ok (g, cs, s) ∧ ∃ v, Sat v cs ∧ Decodes g v forkLayout) ∧
    (∃ conn, MixBalancer forkGrid forkLayout conn 1 2 (mixUnit 1 2) true) ∧ SplitterPair forkGrid.nb forkLayout (1, 1) (1, 0) .right := by
  obtain ⟨cs, s, h1, h2⟩ := fork_ok
  exact ⟨⟨_, cs, s, h1, forkAsg, h2, fork_decodes⟩, by rw [mixUnit_fork]; exact fork_balancer, rfl, by decide, rfl⟩

end FSat
