import Verif.Props.PowerOfTwo
import Verif.Props.NetFreeGame
import Verif.Props.NetFreeMain
/-!
# C31: a layout for eight belts
-/

set_option linter.unusedSimpArgs false

namespace FSat

/-- The example library accepts all sums the generator asks for. -/
theorem naiveLib_total (ls : List Lit) (n : Int) (s : Nat) (hn : 0 < n) : ∃ r, libraryEquals naiveLib ls n s = .ok r := by
  show ∃ r, nonEmptyClauses (.ok (naiveClauses ls fun k => decide ((k : Int) ≠ n), s)) = .ok r
  cases h : naiveClauses ls fun k => decide ((k : Int) ≠ n) with
  | cons c cs => exact ⟨_, rfl⟩
  | nil =>
    have hm : List.replicate ls.length false ∈ (boolLists ls.length).filter fun bs => decide ((trues bs : Int) ≠ n) := by
      rw [List.mem_filter, mem_boolLists]
      refine ⟨by simp, ?_⟩
      have : trues (List.replicate ls.length false) = 0 := by
        unfold trues
        rw [List.count_eq_zero]
        simp
      rw [this]
      simp only [decide_eq_true_eq]
      omega
    unfold naiveClauses at h
    rw [List.map_eq_nil_iff] at h
    rw [h] at hm
    cases hm

/-- `c31_builds` applies to the example library: the generator does not fail for 64 belts. -/
example : ∃ g cs s, powerBalancer naiveLib 20 (2 ^ 6) (some 8) = .ok (g, cs, s) ∧ g.WF ∧ g.width = 20 :=
  c31_builds (fun ls n s hn _ => naiveLib_total ls n s hn) (by decide) (by decide) (by intro l h; cases h; decide)

/-- C31: the whole program builds its clauses for every power of two but one. -/
theorem c31_main_builds {lib : CardLib} (htot : ∀ ls n s, 0 < n → n ≤ (ls.length : Int) → ∃ r, libraryEquals lib ls n s = .ok r)
    {width e : Nat} {ugLen : Option Nat} (hw : 0 < width) (he : 1 ≤ e) (hL : ∀ l, ugLen = some l → 1 ≤ l) :
    ∃ g cs s, powerBalancerMain lib width (2 ^ e) ugLen = .ok (g, cs, s) := by
  obtain ⟨g, cs, s, h, wf, rfl⟩ := c31_builds htot hw he hL
  have hin : Window.Inside { minX := 1, maxX := some ((g.width : Int) - 2) } g := by
    refine ⟨Int.zero_le_ofNat 1, Int.le_refl 0, ?_, ?_⟩ <;> simp only [Window.hiX, Window.hiY, Option.getD_some, Option.getD_none] <;> omega
  have h1 : ∃ c, expandUnderground g { minX := 1, maxX := some ((g.width : Int) - 2) } = .ok c := by
    cases hu : g.ugLen with
    | none => obtain ⟨c, hc, _⟩ := c59_expand_unlimited wf _ hin hu; exact ⟨c, hc⟩
    | some l => obtain ⟨c, hc, _⟩ := c59_expand wf _ hin l hu; exact ⟨c, hc⟩
  obtain ⟨c2, h2, _⟩ := c59_generic wf
  obtain ⟨c, hc⟩ := joinE_total (l := [expandUnderground g { minX := 1, maxX := some ((g.width : Int) - 2) },
    applyGenericOptimisations g]) (by
      intro e he
      simp only [List.mem_cons, List.not_mem_nil, or_false] at he
      rcases he with rfl | rfl
      exacts [h1, ⟨_, h2⟩])
  refine ⟨g, cs ++ c, s, ?_⟩
  unfold powerBalancerMain
  simp only [h, hc]

example : ∃ g cs s, powerBalancerMain naiveLib 12 (2 ^ 4) none = .ok (g, cs, s) :=
  c31_main_builds (fun ls n s hn _ => naiveLib_total ls n s hn) (by decide) (by decide) (by intro l h; cases h)

theorem joinE_of {l : List (Except PyErr Cnf)} {cs : Cnf} (h : joinE l = .ok cs) {v : Asg} (hv : ∀ e ∈ l, ∃ c, e = .ok c ∧ Sat v c) :
    Sat v cs := by
  obtain ⟨c, e, s⟩ := okB_iff.1 (okB_join fun e he => okB_iff.2 (hv e he))
  rw [h] at e
  cases e
  exact s

/-- The members of a tile with four bits of colour whose first variable is `b + 1`. -/
def mixTile (b : Nat) : TileInst :=
  let l := fun n => (⟨b + n, true⟩ : Lit)
  ⟨l 1, l 2, l 3, l 4, l 5, l 6, l 7, l 8, byDir [l 9, l 10, l 11, l 12], byDir [l 13, l 14, l 15, l 16],
    byDir [l 17, l 18, l 19, l 20], [l 21, l 22, l 23, l 24], [l 25, l 26, l 27, l 28], [l 29, l 30, l 31, l 32]⟩

def mixGrid : Grid := ⟨10, 8, ⟨false, false⟩, some 16, some 4, fun x y => mixTile ((y * 10 + x) * 34)⟩

theorem mixGrid_eq : mkGrid 10 8 ⟨false, false⟩ (some 16) (some 4) (levelFields 1) 0 = mixGrid := by
  have : ∀ x y, toTileInst (some 16) (levelFields 1) (cellInstance 10 (some 16) (levelFields 1) 0 x y) = mixTile ((y * 10 + x) * 34) := by
    intro x y
    unfold cellInstance
    rw [Nat.zero_add]
    rfl
  unfold mkGrid
  simp only [this]
  rfl

def mixLevel (p : Nat × Nat) : LevelLits :=
  ⟨[⟨(p.2 * 10 + p.1) * 34 + 33, true⟩], [⟨(p.2 * 10 + p.1) * 34 + 34, true⟩]⟩

theorem mixLevel_eq (p : Nat × Nat) : levelLits 10 16 1 p = mixLevel p := by
  unfold levelLits cellInstance
  rw [Nat.zero_add]
  rfl

/-- The assignment of the example: a variable is true if its bit is set. -/
def mixAsg : Asg := fun x => Nat.testBit 0x1808c080060220200180880810603002044010808110022020440080801102000400400084001002282006008c0801802202066008080786300200640910081982420206608c0080180021180400892001002282004808c08012022023a480880e711022480c4009009c98004101060408080180220380200882000802282003008c080cc020203b489080e6c3222080b08888098c26300214300084040c0220380200892000802282003008c080cc020203b489100864d002100b30080818c27020213088c00880c0021180100882000402282004808c08012022024ec809008386010100e1810809866420201188c40088060021180100892000402282001808c080060220201980808006630202019889009878240200188c40080060021180080882000202282006008c080180220201e0088080380220200e008808038024020008408080020220200080880800202282 x

theorem mix_init : okB mixAsg (initClauses mixGrid) = true := by decide +kernel
theorem mix_shut : satB mixAsg (blockUnderground mixGrid (.ofBool true)) = true := by decide +kernel
theorem mix_under : satB mixAsg (preventBadUndergrounding mixGrid) = true := by decide +kernel
theorem mix_colour : okB mixAsg (preventBadColouring mixGrid) = true := by decide +kernel
theorem mix_tiles : (mixGrid.cells.all fun p => okB mixAsg (powerTile (mixGrid.at' p) (mixLevel p))) = true := by decide +kernel
theorem mix_dirs : (mixGrid.cells.all fun p => Dir.all.all fun d => okB mixAsg (powerDir mixGrid mixLevel p d)) = true := by decide +kernel

theorem mix_plain : okB mixAsg (powerPlain mixGrid mixLevel) = true := by
  unfold powerPlain
  refine okB_join ?_
  simp only [List.mem_cons, List.not_mem_nil, or_false, forall_eq_or_imp, forall_eq]
  refine ⟨mix_init, mix_shut, mix_under, mix_colour, okB_concat mix_tiles, okB_concat ?_, by decide +kernel, by decide +kernel, by decide +kernel⟩
  rw [List.all_eq_true]
  exact fun p hp => okB_concat (List.all_eq_true.1 mix_dirs p hp)

theorem mix_rest : okB mixAsg (joinE [.ok (blockBelts mixGrid (.ofPair false true)), .ok (preventIntersection mixGrid),
    enforceMaximumUndergroundLength mixGrid]) = true := by
  refine okB_join ?_
  simp only [List.mem_cons, List.not_mem_nil, or_false, forall_eq_or_imp, forall_eq]
  exact ⟨by decide +kernel, by decide +kernel, by decide +kernel⟩

theorem mix_sizes : (mixGrid.cells.all fun p => !((mixLevel p).level.map (ev mixAsg)).getD 0 false ||
    ((mixGrid.vals mixAsg p).colour.count true == 1)) = true := by decide +kernel

theorem mix_count : (checkerboard mixGrid).countP (fun p => ((mixLevel p).primary.map (ev mixAsg)).getD 0 false) = 4 := by decide +kernel

/-- A solution for eight belts exists: the hypotheses of `c31_mixes` and `c31_balances` are met. -/
theorem mix_found : ∃ (g : Grid) (cs : Cnf) (s : Nat) (v : Asg) (T : Nat × Nat → Tile),
    powerBalancer naiveLib 10 8 (some 4) = .ok (g, cs, s) ∧ Sat v cs ∧ Decodes g v T := by
  obtain ⟨g, cs, s, hb, hg, _⟩ := c31_builds (lib := naiveLib) (fun ls n s hn _ => naiveLib_total ls n s hn) (width := 10) (e := 3)
    (ugLen := some 4) (by decide) (by decide) (by intro l h; cases h; decide)
  have hb : powerBalancer naiveLib 10 8 (some 4) = .ok (g, cs, s) := hb
  obtain ⟨e, cs0, cs1, _, _, hgr, h0, h1, hcs⟩ := power_parts hb
  have hgr : g = mixGrid := hgr.trans mixGrid_eq
  subst hgr
  have hL : levelLits 10 (2 ^ (8 / 2)) (powerLevels 8) = mixLevel := funext fun p => mixLevel_eq p
  rw [hL] at h0
  have hlits : mixGrid.LitsLe 2720 := by
    rw [← mixGrid_eq]
    exact (mkGrid_lits 10 8 ⟨false, false⟩ (some 16) (some 4) (levelFields 1) 0).1
  have enc := (powerClauses_enc naiveLib_correct hg hlits (L := mixLevel) (n := 1) (by decide) (fun p => rfl) (fun p => rfl)
    (fun p hp => by
      have := (levelLits_bound (some 4) (mixGrid_eq ▸ hp)).1
      rw [mixLevel_eq] at this
      exact this)
    (fun p hp => by
      have := (levelLits_bound (some 4) (mixGrid_eq ▸ hp)).2
      rw [mixLevel_eq] at this
      exact this) rfl rfl).enc _ (Nat.le_refl _) _ _ h0
  obtain ⟨c, e1, s1⟩ := okB_iff.1 mix_plain
  obtain ⟨c', e2, q⟩ := powerPlain_iff hg (L := mixLevel) (n := 1) (fun p => rfl) (fun p => rfl) rfl rfl
  rw [e1] at e2
  cases e2
  obtain ⟨w, ha, hw⟩ := enc.complete mixAsg ⟨(q _).1 s1, fun p hp i hi hlv => by
    obtain rfl : i = 0 := by omega
    have := List.all_eq_true.1 mix_sizes p ((mixGrid.mem_cells p).2 hp)
    rw [hlv] at this
    simpa using this, fun i hi => by
    obtain rfl : i = 0 := by omega
    exact mix_count⟩
  obtain ⟨c1, e3, s3⟩ := okB_iff.1 mix_rest
  rw [h1] at e3
  cases e3
  have hv : ∀ p, mixGrid.In p → mixGrid.vals w p = mixGrid.vals mixAsg p := fun p hp => mixGrid.vals_agree hlits ha hp
  have H := joinE_sat h1 s3
  simp only [List.mem_cons, List.not_mem_nil, or_false, forall_eq_or_imp, forall_eq] at H
  obtain ⟨⟨d1, f1, t1⟩, ⟨d2, f2, t2⟩, ⟨d3, f3, t3⟩⟩ := H
  cases f1; cases f2
  obtain ⟨cl, q1, q2⟩ := length_iff hg 4 rfl (by decide)
  have hrest : Sat w cs1 := by
    refine joinE_of h1 ?_
    simp only [List.mem_cons, List.not_mem_nil, or_false, forall_eq_or_imp, forall_eq]
    refine ⟨⟨_, rfl, (Sat_blockBelt hg _ w).2 (((Sat_blockBelt hg _ _).1 t1).congr hv)⟩,
      ⟨_, rfl, (Sat_intersection _ w).2 (((Sat_intersection _ _).1 t2).congr hg hv)⟩, cl, q1, (q2 w).2 ?_⟩
    rw [q1] at f3
    cases f3
    exact ((q2 _).1 t3).congr hg hv
  have hsat : Sat w cs := hcs ▸ (Sat_append _ _ _).2 ⟨hw, hrest⟩
  obtain ⟨e', _, _, _, _, _, _, _, _, hall⟩ := power_all naiveLib_correct (by intro l h; cases h; decide) hb
  obtain ⟨lv, pr, sol⟩ := hall w hsat
  obtain ⟨ci, hci, hci2⟩ := init_iff hg
  obtain ⟨T, hT⟩ := c15_layout hg hci w ((hci2 w).2 sol.sem.init)
  exact ⟨_, cs, s, w, T, hb, hsat, hT⟩

/-- `c31_mixes` and `c31_balances` apply to it. -/
example : ∃ (g : Grid) (T : Nat × Nat → Tile), (∃ p d, g.In p ∧ T p = .splitter d true) ∧
    ∀ F, Steady g.In g.nb T (Connected g.nb T) F → (∀ k < 4, ∀ y, y = 2 * k ∨ y = 2 * k + 1 → F (0, y) = ((2 * k : Nat) + (2 * k + 1 : Nat)) / 2) →
      ∀ k < 4, (F (9, 2 * k) + F (9, 2 * k + 1)) / 2 = 7 / 2 := by
  obtain ⟨g, cs, s, v, T, h1, h2, h3⟩ := mix_found
  refine ⟨g, T, ?_, fun F hF h0 k hk => ?_⟩
  · obtain ⟨_, _, _, S, level, _, _, _, _, hn⟩ := c31_mixes naiveLib_correct (by intro l h; cases h; decide) h1 h2 h3
    have h4 := hn 0 (by decide)
    have : ({p | g.In p ∧ (∃ d, T p = .splitter d true) ∧ level p = 0} : Set (Nat × Nat)).Nonempty := by
      by_contra hne
      rw [Set.not_nonempty_iff_eq_empty.1 hne] at h4
      simp at h4
    obtain ⟨p, hp, ⟨d, hd⟩, _⟩ := this
    exact ⟨p, d, hp, hd⟩
  · have := (c31_balances naiveLib_correct (by intro l h; cases h; decide) h1 h2 h3 (fun y => (y : Rat))).1 F hF h0 k hk
    rw [this]
    norm_num [Finset.sum_range_succ]

end FSat
