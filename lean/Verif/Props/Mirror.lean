import Verif.Lemmas.MirrorBreak
import Verif.Props.Ends
import Verif.Lemmas.CheckClauses
/-!
# C11, second half, and C76: breaking the mirror symmetry of layouts

`break_vertical_symmetry` compares the layout with its mirror image (`Spec/Mirror.lean`).
-/

set_option linter.unusedSimpArgs false

namespace FSat

/-- C11. `break_vertical_symmetry` accepts an assignment exactly when its upper rows are lexicographically at most those of the mirror
image; it adds no other condition. -/
theorem c11_vertical {g : Grid} (hh : 2 ≤ g.height) {s : Nat} (hb : g.LitsLe s) :
    ∃ cs s', breakVerticalSymmetry g s = .ok (cs, s') ∧
      ∀ v v', g.Mirrored v v' → (SatUpTo s v cs ↔ LexLe (g.upper v) (g.upper v')) := by
  obtain ⟨cs, s', h1, h2⟩ := breakVertical_rows hh hb
  refine ⟨cs, s', h1, fun v v' hm => ?_⟩
  rw [h2, upper_top g v, upper_bot hh hm]

/-- C11. Of an assignment and one that describes the mirror image at least one is accepted. -/
theorem c11_mirror_survives {g : Grid} (hh : 2 ≤ g.height) {s : Nat} (hb : g.LitsLe s) :
    ∃ cs s', breakVerticalSymmetry g s = .ok (cs, s') ∧
      ∀ v v', g.Mirrored v v' → g.Mirrored v' v → SatUpTo s v cs ∨ SatUpTo s v' cs := by
  obtain ⟨cs, s', h1, h2⟩ := c11_vertical hh hb
  refine ⟨cs, s', h1, fun v v' a b => ?_⟩
  rw [h2 v v' a, h2 v' v b]
  exact LexLe_total _ _

/-- C11. For a grid of one row the comparison fails: it always looks at two rows. -/
theorem c11_one_row {g : Grid} (hh : g.height = 1) (s : Nat) (hb : g.LitsLe s) :
    breakVerticalSymmetry g s = .error .assertion := by
  obtain ⟨h1, h2⟩ := rows_bound hb 0 1 (by omega)
  obtain ⟨cls, e, h3, _⟩ := breakSymmetry_pool (topRows g 0 1) (botRows g 0 1) s (rows_length g 0 1) h1 h2
  simp only [topRows, botRows, List.range'_one, List.flatMap_cons, List.flatMap_nil, List.append_nil] at e
  unfold breakVerticalSymmetry
  rw [show max 2 (g.height / 2) = 2 by omega]
  simp only [breakVerticalFrom, List.nil_append, e, hh, Nat.lt_irrefl, if_false, Nat.zero_lt_one, if_true, Nat.zero_add]

/-- C11. The mirror image of a solution of the basic clauses is a solution, so with `break_vertical_symmetry` the solution or its
mirror image remains: the layouts are the same up to mirror images.  `eB` and `eU` are the sides shut for belts and undergrounds,
the upper one if and only if the lower one. -/
theorem c11_basic {width height : Nat} (hw : 0 < width) (hh : 2 ≤ height) (edge : EdgeMode) (colours ugLen : Option Nat)
    (hn : ∀ n, colours = some n → 1 ≤ n) (hL : ∀ l, ugLen = some l → 1 ≤ l) (extras : TFields) (s : Nat) {eB eU : Edges}
    (hB : eB.minY = eB.maxY) (hU : eU.minY = eU.maxY) {g : Grid} (hgd : g = mkGrid width height edge colours ugLen extras s) {cs : Cnf}
    (hcs : basicClauses g eB eU = .ok cs) {s1 : Nat} (hs1 : g.LitsLe s1) :
    ∃ cb s', breakVerticalSymmetry g s1 = .ok (cb, s') ∧ ∀ v, Sat v cs → ∃ w, Sat w (cs ++ cb) ∧
        ((∀ p, g.In p → evalTile w (g.at' p) = evalTile v (g.at' p)) ∨ g.Mirrored v w) := by
  have hg : g.WF := hgd ▸ mkGrid_wf hw (by omega) edge colours ugLen hn extras s
  have hex : ∀ v, ∃ v', g.Mirrored v v' := fun v => hgd ▸ mirror_exists width height edge colours ugLen extras s hw (by omega) hn v
  have hug : g.ugLen = ugLen := by rw [hgd]; rfl
  have hgh : 2 ≤ g.height := by rw [hgd]; exact hh
  obtain ⟨ci, hi1, hi2⟩ := init_iff hg
  obtain ⟨cc, hc1, hc2⟩ := colouring_iff hg
  have hlen : ∃ cl, enforceMaximumUndergroundLength g = .ok cl ∧
      ∀ v, Sat v cl ↔ ∀ l, ugLen = some l → LengthSem g (g.vals v) l := by
    cases hul : ugLen with
    | none => exact ⟨[], by rw [(c21_no_limit g).1 (hug.trans hul)], fun v => by simp⟩
    | some l =>
      obtain ⟨cl, h1, h2⟩ := length_iff hg l (hug.trans hul) (hL l hul)
      exact ⟨cl, h1, fun v => by rw [h2]; simp⟩
  obtain ⟨cl, hl1, hl2⟩ := hlen
  rw [basicClauses, hi1, hl1, hc1] at hcs
  have hsat : ∀ v, Sat v cs ↔ InitSem g (g.vals v) ∧ IntersectionSem g (g.vals v) ∧ UndergroundSem g (g.vals v) ∧
        BlockBeltSem g eB (g.vals v) ∧ BlockUgSem g eU (g.vals v) ∧ (∀ l, ugLen = some l → LengthSem g (g.vals v) l) ∧
        ColourSem g (g.vals v) := by
    intro v
    rw [← Except.ok.inj hcs]
    simp only [Sat_append, hi2, hc2, hl2, Sat_intersection, Sat_underground, Sat_blockBelt hg, Sat_blockUg hg, and_assoc]
  have hcong : ∀ {C C' : Nat × Nat → CellVal}, (∀ p, g.In p → C' p = C p) →
      (InitSem g C ∧ IntersectionSem g C ∧ UndergroundSem g C ∧ BlockBeltSem g eB C ∧ BlockUgSem g eU C ∧
        (∀ l, ugLen = some l → LengthSem g C l) ∧ ColourSem g C) →
      (InitSem g C' ∧ IntersectionSem g C' ∧ UndergroundSem g C' ∧ BlockBeltSem g eB C' ∧ BlockUgSem g eU C' ∧
        (∀ l, ugLen = some l → LengthSem g C' l) ∧ ColourSem g C') := by
    rintro C C' h ⟨a, b, c, d, e, f, i⟩
    exact ⟨a.congr hg h, b.congr hg h, c.congr hg h, d.congr h, e.congr h, fun l hl => (f l hl).congr hg h, i.congr hg h⟩
  obtain ⟨cb, s', e, hsur⟩ := c11_mirror_survives hgh hs1
  refine ⟨cb, s', e, fun v hv => ?_⟩
  have hv' := (hsat v).1 hv
  obtain ⟨v1, hm⟩ := hex v
  have hm1 := (Grid.mirrored_iff v v1).1 hm
  have hsat1 : Sat v1 cs := (hsat v1).2 (hcong hm1 (by
    obtain ⟨a, b, c, d, e, f, i⟩ := hv'
    exact ⟨a.mirror hg hgh, b.mirror hg, c.mirror hg, d.mirror hB, e.mirror hU, fun l hl => (f l hl).mirror hg, i.mirror hg⟩))
  have hfin : ∀ u, Sat u cs → SatUpTo s1 u cb → ∃ w, Sat w (cs ++ cb) ∧ ∀ p, g.In p → g.vals w p = g.vals u p := by
    rintro u hu ⟨w, hw, hs⟩
    have hval := fun p hp => Grid.vals_agree hs1 hw (p := p) hp
    exact ⟨w, (Sat_append ..).2 ⟨(hsat w).2 (hcong hval ((hsat u).1 hu)), hs⟩, hval⟩
  rcases hsur v v1 hm (hm.symm hv'.1.cell) with h | h
  · obtain ⟨w, h1, h2⟩ := hfin v hv h
    exact ⟨w, h1, .inl h2⟩
  · obtain ⟨w, h1, h2⟩ := hfin v1 hsat1 h
    exact ⟨w, h1, .inr ((Grid.mirrored_iff v w).2 fun p hp => (h2 p hp).trans (hm1 p hp))⟩

section
variable {lib : CardLib} {net : PyDict Node Nat} {width height : Nat} {ugLen : Option Nat} {g : Grid} {node : Nat × Nat → List Lit}
  {cs : Cnf} {s' : Nat}

/-- C11, for balancers: with `break_vertical_symmetry` every solution of `create_balancer`, together with `prevent_intersection` and
the longest underground, remains or its mirror image does. -/
theorem c11_balancer (hl : lib.Correct) (hv : net.Valid) (hpos : ∀ c ∈ netColours net, 0 ≤ c)
    (hc : createBalancer lib net width height ugLen = .ok (g, node, cs, s')) (hh : 2 ≤ height) (hL : ∀ l, ugLen = some l → 1 ≤ l)
    {cl : Cnf} (hcl : enforceMaximumUndergroundLength g = .ok cl) :
    ∃ cb s2, breakVerticalSymmetry g s' = .ok (cb, s2) ∧ ∀ v, Sat v (cs ++ preventIntersection g ++ cl) →
      ∃ w, Sat w (cs ++ preventIntersection g ++ cl ++ cb) ∧
        ((∀ p, g.In p → evalTile w (g.at' p) = evalTile v (g.at' p)) ∨ g.Mirrored v w) := by
  obtain ⟨k, a, m, b, n, hk, hgd, hw', hh', hne, hnd, hE, hok, hcol, henc⟩ := createBalancer_enc hl hpos hc
  have hk1 : ∀ n, some k = some n → 1 ≤ n := by intro n h; cases h; exact hk
  have hg : g.WF := hgd ▸ mkGrid_wf hw' hh' _ _ _ hk1 _ _
  have hgh : 2 ≤ g.height := by rw [hgd]; exact hh
  have hug : g.ugLen = ugLen := by rw [hgd]; rfl
  have hlits : g.LitsLe s' := by
    intro p hp l hl
    refine le_trans ?_ henc.le
    subst hgd
    have := (mkGrid_lits width height ⟨false, false⟩ (some k) ugLen (nodeFields net.length) 0).1 p hp l hl
    simpa using this
  have hlen : ∀ v, Sat v cl ↔ ∀ l, ugLen = some l → LengthSem g (g.vals v) l := by
    cases hul : ugLen with
    | none =>
      rw [(c21_no_limit g).1 (hug.trans hul)] at hcl
      cases hcl
      intro v; simp
    | some l =>
      obtain ⟨cl', h1, h2⟩ := length_iff hg l (hug.trans hul) (hL l hul)
      rw [hcl] at h1; cases h1
      intro v; rw [h2]; simp
  obtain ⟨ci, hi1, hi2⟩ := init_iff hg
  obtain ⟨cc, hc1, hc2⟩ := colouring_iff hg
  obtain ⟨cb, s2, e, hsur⟩ := c11_mirror_survives hgh hlits
  refine ⟨cb, s2, e, fun v hsv => ?_⟩
  rw [Sat_append, Sat_append, Sat_intersection, hlen] at hsv
  obtain ⟨⟨hsv, hint⟩, hlv⟩ := hsv
  obtain ⟨hi, hnc, hbu, hus, hcs, hBal⟩ := henc.sound v hsv
  obtain ⟨T, lab, hT, hR⟩ := c27_realises_partial hl hv hpos hc v hsv
  obtain ⟨v1, hm⟩ : ∃ v1, g.Mirrored v v1 := by
    rw [hgd]
    exact mirror_exists width height _ _ _ _ _ hw' hh' hk1 v
  have hm1 := (Grid.mirrored_iff v v1).1 hm
  have hi1v : InitSem g (g.vals v1) := (hi.mirror hg hgh).congr hg hm1
  have hends := hBal.ends hne
  have hpairs : PairedSplitters g.In g.nb T := (splitterSem_iff hg (lays_of_decodes hi hT)).1 hi.splitter
  obtain ⟨v2, h2v, h2s⟩ := c27_complete hl hv hpos hc v1 hi1 ((hi2 v1).2 hi1v)
    ((Sat_blockUg hg _ _).2 ((hbu.mirror (show Edges.Even (.ofBool true) from rfl)).congr hm1)) ((Sat_underground ..).2 ((hus.mirror hg).congr hg hm1)) hc1
    ((hc2 v1).2 ((hcs.mirror hg).congr hg hm1)) (by
      intro c hck hcm cu hcu
      replace hck : c < k := by rw [hgd] at hck; exact hck
      obtain ⟨cu', e1, e2⟩ := preventColour_iff hg c (hcol c hck)
      rw [hcu] at e1; cases e1
      refine (e2 v1).2 fun p hp => ?_
      rw [hm1 p hp]
      exact (hnc c hck hcm).mirror p hp)
    _ (hm.decodes hi hT) _ (hR.mirror hg hpairs (F' := g.flow v1) (by
      intro p hp
      have := hm1 p hp
      refine ⟨fun d => ?_, fun d => ?_, ?_⟩
      · exact congrFun (congrArg CellVal.inp this) d
      · exact congrFun (congrArg CellVal.out this) d
      · exact congrArg (fun c => binVal c.colour) this))
    a m b n hE
    (by
      rw [← hends.ins, ← countP_mirror fun p => (g.vals v p).isInput]
      exact congrArg _ (List.countP_congr fun p hp => by
        have := congrArg CellVal.isInput (hm1 p ((g.mem_cells p).1 hp))
        exact Bool.eq_iff_iff.1 this))
    (by
      rw [← hends.outs, ← countP_mirror fun p => (g.vals v p).isOutput]
      exact congrArg _ (List.countP_congr fun p hp => by
        have := congrArg CellVal.isOutput (hm1 p ((g.mem_cells p).1 hp))
        exact Bool.eq_iff_iff.1 this))
    (by
      intro p hp h
      have h1 : (g.vals v1 p).isInput = true := h
      have h2 : (g.flow v1).col p = (g.flow v).col (g.mirrorPos p) := congrArg (fun c : CellVal => binVal c.colour) (hm1 p hp)
      rw [h2]
      rw [hm1 p hp] at h1
      exact hends.inCol _ (Grid.mirrorPos_in hp) h1)
    (by
      intro p hp h
      have h1 : (g.vals v1 p).isOutput = true := h
      have h2 : (g.flow v1).col p = (g.flow v).col (g.mirrorPos p) := congrArg (fun c : CellVal => binVal c.colour) (hm1 p hp)
      rw [h2]
      rw [hm1 p hp] at h1
      exact hends.outCol _ (Grid.mirrorPos_in hp) h1)
  have hm2 : ∀ p, g.In p → g.vals v2 p = g.mirrorVals (g.vals v) p := fun p hp => (h2v p hp).trans (hm1 p hp)
  have hmm := (Grid.mirrored_iff v v2).2 hm2
  have hfin : ∀ u, Sat u cs → IntersectionSem g (g.vals u) → (∀ l, ugLen = some l → LengthSem g (g.vals u) l) → SatUpTo s' u cb →
      ∃ w, Sat w (cs ++ preventIntersection g ++ cl ++ cb) ∧ ∀ p, g.In p → g.vals w p = g.vals u p := by
    rintro u hu hui hul ⟨w, hw, hs⟩
    have hval := fun p hp => Grid.vals_agree hlits hw (p := p) hp
    refine ⟨w, ?_, hval⟩
    rw [Sat_append, Sat_append, Sat_append, Sat_intersection, hlen]
    exact ⟨⟨⟨henc.stable u w hw hu, hui.congr hg hval⟩, fun l hl => (hul l hl).congr hg hval⟩, hs⟩
  rcases hsur v v2 hmm (hmm.symm hi.cell) with h | h
  · obtain ⟨w, h1, h2⟩ := hfin v hsv hint hlv h
    exact ⟨w, h1, .inl h2⟩
  · obtain ⟨w, h1, h2⟩ := hfin v2 h2s ((hint.mirror hg).congr hg hm2) (fun l hl => ((hlv l hl).mirror hg).congr hg hm2) h
    exact ⟨w, h1, .inr ((Grid.mirrored_iff v w).2 fun p hp => (h2 p hp).trans (hm2 p hp))⟩

end

/-- C76 is false: `setup_balancer_ends` never uses the last row (`c28_ends_partial`), and the comparison then forbids
the first row.  So whenever the grid has one row more than the balancer has inputs, `--break-symmetry` leaves no solution at all. -/
theorem c76_ends_refuted {g : Grid} (hg : g.WF) {net : PyDict Node Nat} {a b : Int} {m n : Nat} (hE : Ends (elements net) a m b n)
    (hm : 1 ≤ m) (hn : n ≤ g.height) (hh : g.height = m + 1) {ci : Cnf} (hci : initClauses g = .ok ci) {s s1 : Nat} (hb : g.LitsLe s)
    (hb1 : g.LitsLe s1) (aligned : Bool) :
    ∃ ce cb s2 s3, setupBalancerEnds g net aligned false s = .ok (ce, s2) ∧ breakVerticalSymmetry g s1 = .ok (cb, s3) ∧
      ¬ ∃ v, Sat v ci ∧ Sat v ce ∧ Sat v cb := by
  obtain ⟨ce, s2, h1, h2⟩ := c28_ends_partial hg hb hE (by omega) hn hci aligned false
  obtain ⟨cb, s3, h3, h4⟩ := breakVertical_rows (g := g) (by omega) hb1
  refine ⟨ce, cb, s2, s3, h1, h3, ?_⟩
  rintro ⟨v, hv1, hv2, hv3⟩
  have hi := sem_of_sat hg hci hv1
  obtain ⟨T, hT⟩ := c15_layout hg hci v hv1
  have hlay := lays_of_decodes hi hT
  obtain ⟨i, j, hin, _, _⟩ := (h2 v T hv1 hT).1 ⟨v, fun _ _ => rfl, hv2⟩
  unfold InBlock at hin
  rw [if_neg (by omega)] at hin
  obtain ⟨hi1, hi2, hi3⟩ := hin
  have hi0 : i = 0 := by omega
  subst hi0
  have t0 := hi3 0 (by omega)
  rw [if_pos (by omega)] at t0
  have tl := hi3 m (by omega)
  rw [if_neg (by omega)] at tl
  simp only [Bool.false_eq_true, if_false] at tl
  have c0 := ((hlay (0, 0) ⟨hg.w, by show 0 < g.height; omega⟩).beltIn .right).2 t0
  have cl := ((hlay (0, m) ⟨hg.w, by show m < g.height; omega⟩).noFlags).2 tl
  have hP := (h4 v).1 ⟨v, fun _ _ => rfl, hv3⟩
  obtain ⟨N, hN⟩ : ∃ N, max 2 (g.height / 2) = N + 1 := ⟨max 2 (g.height / 2) - 1, by omega⟩
  obtain ⟨W, hW⟩ : ∃ W, g.width = W + 1 := ⟨g.width - 1, by have := hg.w; omega⟩
  rw [hN, topRows_succ, botRows_succ, mirrorRow, hW, List.range_succ_eq_map, show g.height - 1 - 0 = m by omega] at hP
  simp only [List.flatMap_cons, mirrorLits, List.map_append, List.map_cons, List.cons_append, LexLe] at hP
  have k1 : ev v ((g.tile 0 0).inp .right) = true := c0.1
  have k2 : ev v ((g.tile 0 m).inp .right) = false := cl.1 .right
  rw [k1, k2] at hP
  rcases hP with h | h
  · exact absurd h.1 (by simp)
  · exact absurd h.1 (by simp)

/-- C76 for balancers with as many inputs and as many outputs as the grid has rows: with `--break-symmetry` every solution remains or
its mirror image does.  Missing: fewer inputs or outputs than rows, for which it is false (`c76_ends_refuted`). -/
theorem c76_full_height_partial {lib : CardLib} {net : PyDict Node Nat} {width height : Nat} {ugLen : Option Nat} {g : Grid}
    {node : Nat × Nat → List Lit} {cs : Cnf} {s' : Nat} (hl : lib.Correct) (hv : net.Valid) (hpos : ∀ c ∈ netColours net, 0 ≤ c)
    (hc : createBalancer lib net width height ugLen = .ok (g, node, cs, s')) (hh : 2 ≤ height) (hL : ∀ l, ugLen = some l → 1 ≤ l)
    {cl : Cnf} (hcl : enforceMaximumUndergroundLength g = .ok cl) {a b : Int} (hE : Ends (elements net) a height b height)
    (aligned useEnds : Bool) :
    ∃ cb s2 ce s3, breakVerticalSymmetry g s' = .ok (cb, s2) ∧ setupBalancerEnds g net aligned useEnds s2 = .ok (ce, s3) ∧
      ∀ v, Sat v (cs ++ preventIntersection g ++ cl ++ ce) → ∃ w, Sat w (cs ++ preventIntersection g ++ cl ++ cb ++ ce) ∧
        ((∀ p, g.In p → evalTile w (g.at' p) = evalTile v (g.at' p)) ∨ g.Mirrored v w) := by
  obtain ⟨cb, s2, h1, h2⟩ := c11_balancer hl hv hpos hc hh hL hcl
  obtain ⟨k, _, _, _, _, hk, hgd, hw', hh', hne, _⟩ := createBalancer_enc hl hpos hc
  have hgh : g.height = height := by rw [hgd]; rfl
  have hgw : 0 < g.width := by rw [hgd]; exact hw'
  have he : setupBalancerEnds g net aligned useEnds s2 = .ok ((g.column 0).flatMap (fun t => [[t.inp .right]]) ++
      (g.column (g.width - 1)).flatMap (outputInside .right) ++ [], s2) := by
    unfold setupBalancerEnds
    rw [(gio_iff _ _ _ _ _).2 hE]
    have hlen : ∀ x, (g.column x).length = height := fun x => by simp [Grid.column, hgh]
    simp only [Int.toNat_natCast, endsClauses, setupBalancerInput, setupBalancerOutput, hlen, le_refl, if_true, Nat.sub_self,
      allocVars, alignClauses]
    cases aligned <;> rfl
  refine ⟨cb, s2, _, s2, h1, he, fun v hsv => ?_⟩
  have hce : ∀ u, Sat u ((g.column 0).flatMap (fun t => [[t.inp .right]]) ++ (g.column (g.width - 1)).flatMap (outputInside .right) ++ []) ↔
      ∀ y < g.height, ((g.vals u (0, y)).inp .right = true) ∧
        (g.vals u (g.width - 1, y)).out .right = true ∧ (g.vals u (g.width - 1, y)).isBelt = true := by
    intro u
    simp only [List.append_nil, Sat_append, Sat_flatMap, Grid.column, List.mem_map, List.mem_range, forall_exists_index, and_imp,
      forall_apply_eq_imp_iff₂, outputInside, Sat_cons, SatC_cons, SatC_nil, or_false, Sat_nil, and_true]
    exact ⟨fun h y hy => ⟨h.1 y hy, h.2 y hy⟩, fun h => ⟨fun y hy => (h y hy).1, fun y hy => (h y hy).2⟩⟩
  rw [Sat_append, hce] at hsv
  obtain ⟨w, hw, hd⟩ := h2 v hsv.1
  refine ⟨w, ?_, hd⟩
  rw [Sat_append, hce]
  refine ⟨hw, fun y hy => ?_⟩
  rcases hd with hd | hd
  · have e1 : g.vals w (0, y) = g.vals v (0, y) := hd (0, y) ⟨hgw, hy⟩
    have e2 : g.vals w (g.width - 1, y) = g.vals v (g.width - 1, y) := hd (g.width - 1, y) ⟨by show g.width - 1 < g.width; omega, hy⟩
    rw [e1, e2]
    exact hsv.2 y hy
  · have hm := (Grid.mirrored_iff v w).1 hd
    rw [hm (0, y) ⟨hgw, hy⟩, hm (g.width - 1, y) ⟨by show g.width - 1 < g.width; omega, hy⟩]
    exact hsv.2 (g.height - 1 - y) (by omega)

/-! ### Examples -/

theorem exBalancerGrid_lits : exBalancerGrid.LitsLe 224 :=
  (mkGrid_lits 4 2 ⟨false, false⟩ (some 3) (some 4) (nodeFields 2) 0).1

/-- The example of C27 is not accepted, because the connection between the splitters is in the upper row.  Its mirror image is. -/
example : ∃ cs s', breakVerticalSymmetry exBalancerGrid 224 = .ok (cs, s') ∧ ¬ SatUpTo 224 exBalancer cs ∧
    ∃ v', exBalancerGrid.Mirrored exBalancer v' ∧ SatUpTo 224 v' cs := by
  obtain ⟨cs, s', h1, h2⟩ := c11_vertical (g := exBalancerGrid) (by decide) exBalancerGrid_lits
  obtain ⟨cs', s'', h1', h3⟩ := c11_mirror_survives (g := exBalancerGrid) (by decide) exBalancerGrid_lits
  rw [h1] at h1'; cases h1'
  obtain ⟨v', hm⟩ := mirror_exists 4 2 ⟨false, false⟩ (some 3) (some 4) (nodeFields 2) 0 (by decide) (by decide)
    (by intro n h; cases h; decide) exBalancer
  have hg : exBalancerGrid.WF := mkGrid_wf (by decide) (by decide) _ _ _ (by intro n h; cases h; decide) _ _
  obtain ⟨ci, e1, e2⟩ := init_iff hg
  have hnot : ¬ SatUpTo 224 exBalancer cs := by
    rw [h2 _ _ hm, ← upper_bot (g := exBalancerGrid) (by decide) hm]
    have hf : ∀ (a b : List Bool), (∃ k, a.take k = b.take k ∧ a[k]? = some true ∧ b[k]? = some false) → ¬ LexLe a b := by
      intro a
      induction a with
      | nil => rintro b ⟨k, _, h, _⟩; simp at h
      | cons x a ih =>
        rintro b ⟨k, h1, h2, h3⟩
        cases b with
        | nil => simp at h3
        | cons y b =>
          cases k with
          | zero =>
            simp only [List.getElem?_cons_zero, Option.some.injEq] at h2 h3
            subst h2 h3
            simp [LexLe]
          | succ k =>
            simp only [List.take_succ_cons, List.cons.injEq, List.getElem?_cons_succ] at h1 h2 h3
            rintro (⟨rfl, rfl⟩ | ⟨_, h⟩)
            · cases h1.1
            · exact ih b ⟨k, h1.2, h2, h3⟩ h
    exact hf _ _ ⟨15, by decide +kernel, by decide +kernel, by decide +kernel⟩
  have hcell : ∀ p, exBalancerGrid.In p → ∃ t, Agrees (exBalancerGrid.vals exBalancer p) t := by
    obtain ⟨node, cs, s', h1, h2⟩ := exBalancer_ok
    obtain ⟨k, a, m, b, n, hk, hgd, hw, hh, hne, hnd, hE, hok, hcol, henc⟩ := createBalancer_enc naiveLib_correct (by decide) h1
    exact (henc.sound _ h2).1.cell
  exact ⟨cs, s', h1, hnot, v', hm, (h3 _ _ hm (hm.symm hcell)).resolve_left hnot⟩

/-- The hypotheses of `c11_balancer` are met, by a balancer that has solutions. -/
example : ∃ node cs s' cl, createBalancer naiveLib exNet 4 2 (some 4) = .ok (exBalancerGrid, node, cs, s') ∧
    enforceMaximumUndergroundLength exBalancerGrid = .ok cl ∧ Sat exBalancer (cs ++ preventIntersection exBalancerGrid ++ cl) := by
  obtain ⟨node, cs, s', h1, h2⟩ := exBalancer_ok
  have hcl : okSat exBalancer (enforceMaximumUndergroundLength exBalancerGrid) = true := by decide +kernel
  obtain ⟨cl, h3, h4⟩ := okSat_iff.1 hcl
  have hi : Sat exBalancer (preventIntersection exBalancerGrid) := by
    have : okSat exBalancer (.ok (preventIntersection exBalancerGrid)) = true := by decide +kernel
    obtain ⟨c, e, h⟩ := okSat_iff.1 this
    cases e; exact h
  exact ⟨node, cs, s', cl, h1, h3, by rw [Sat_append, Sat_append]; exact ⟨⟨h2, hi⟩, h4⟩⟩

/-- Those of `c76_full_height_partial` as well. -/
example : Ends (elements exNet) 0 (2 : Nat) 2 (2 : Nat) := (gio_iff _ _ _ _ _).1 (by decide)

/-- One splitter. -/
def exOne : PyDict Node Nat := [(((some 0, some 0), (some 1, some 1)), 1)]

/-- A cell of the example: kind, head, input, output, the flags for moving right in and out, colour, node. -/
def exOneCell (kind : Nat) (head isIn isOut moves : Bool) (colour node : Bool) : List Bool :=
  (List.range 5).map (· == kind) ++ [head, isIn, isOut] ++ [moves, false, false, false] ++ [moves, false, false, false] ++
    [false, false, false, false] ++ [colour] ++ [false] ++ [false] ++ [node]

/-- A splitter between two rows of belts, and below them an empty row. -/
def exOneAsg : Asg := fun x => if x ≤ 216 then cellsAsg 24 [
  exOneCell 0 false true false true false false, exOneCell 2 false false false true false false, exOneCell 0 false false true true true false,
  exOneCell 0 false true false true false false, exOneCell 2 true false false true false true, exOneCell 0 false false true true true false,
  exOneCell 1 false false false false true false, exOneCell 1 false false false false true false, exOneCell 1 false false false false true false] x
  else x == 217 || x == 218

/-- Its clauses, with aligned ends. -/
def exOneCnf : Except PyErr Cnf :=
  match createBalancer naiveLib exOne 3 3 (some 4) with
  | .error e => .error e
  | .ok (g, _, cs, s) =>
    match setupBalancerEnds g exOne true false s, enforceMaximumUndergroundLength g with
    | .ok (ce, _), .ok cl => .ok (cs ++ preventIntersection g ++ cl ++ ce)
    | _, _ => .error .assertion

/-- Without `--break-symmetry` there is a solution. -/
theorem exOne_sat : okB exOneAsg exOneCnf = true := by decide +kernel

/-- With it there is none. -/
example : ∃ ci ce cb s2 s3, initClauses (mkGrid 3 3 ⟨false, false⟩ (some 2) (some 4) (nodeFields 1) 0) = .ok ci ∧
    setupBalancerEnds (mkGrid 3 3 ⟨false, false⟩ (some 2) (some 4) (nodeFields 1) 0) exOne true false 216 = .ok (ce, s2) ∧
    breakVerticalSymmetry (mkGrid 3 3 ⟨false, false⟩ (some 2) (some 4) (nodeFields 1) 0) 216 = .ok (cb, s3) ∧
    ¬ ∃ v, Sat v ci ∧ Sat v ce ∧ Sat v cb := by
  have hg : (mkGrid 3 3 ⟨false, false⟩ (some 2) (some 4) (nodeFields 1) 0).WF :=
    mkGrid_wf (by decide) (by decide) _ _ _ (by intro n h; cases h; decide) _ _
  have hb : (mkGrid 3 3 ⟨false, false⟩ (some 2) (some 4) (nodeFields 1) 0).LitsLe 216 := (mkGrid_lits 3 3 ⟨false, false⟩ (some 2) (some 4) (nodeFields 1) 0).1
  obtain ⟨ci, h1, _⟩ := init_iff hg
  have hE : Ends (elements exOne) 0 (2 : Nat) 1 (2 : Nat) := (gio_iff _ _ _ _ _).1 (by decide)
  obtain ⟨ce, cb, s2, s3, a, b, c⟩ := c76_ends_refuted hg hE (by decide) (by decide) rfl h1 hb hb true
  exact ⟨ci, ce, cb, s2, s3, h1, a, b, c⟩

end FSat
