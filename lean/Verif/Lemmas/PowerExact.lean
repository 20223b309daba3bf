import Verif.Props.PowerOfTwo
import Verif.Props.Optimisations
import Verif.Lemmas.NetFreeExact
import Verif.Spec.Power
/-!
Every layout that mixes its inputs evenly satisfies the clauses of the balancers for powers of two.
-/

set_option linter.unusedSimpArgs false

namespace FSat

open Finset

theorem levelLits_flat (width colours n : Nat) (p : Nat × Nat) :
    (levelFields n).flatten (toExtras (some colours) (levelFields n) (cellInstance width (some colours) (levelFields n) 0 p.1 p.2)) =
      (levelLits width colours n p).level ++ (levelLits width colours n p).primary := by
  exact congrArg ((levelLits width colours n p).level ++ ·) (List.append_nil _)

/-- Every choice of truth values is realised by an assignment. -/
theorem level_assign (width height colours n : Nat) (ugLen : Option Nat) (C : Nat × Nat → CellVal)
    (hc : ∀ p, (C p).colour.length = (colours - 1).size ∧ (C p).colourUx.length = (colours - 1).size ∧ (C p).colourUy.length = (colours - 1).size)
    {lv pr : Nat × Nat → List Bool} (h1 : ∀ p, (lv p).length = n) (h2 : ∀ p, (pr p).length = n) :
    ∃ v, ∀ p, (mkGrid width height ⟨false, false⟩ (some colours) ugLen (levelFields n) 0).In p →
      (mkGrid width height ⟨false, false⟩ (some colours) ugLen (levelFields n) 0).vals v p = C p ∧
      (levelLits width colours n p).level.map (ev v) = lv p ∧ (levelLits width colours n p).primary.map (ev v) = pr p := by
  obtain ⟨v, hv⟩ := mkGrid_assign width height ⟨false, false⟩ (some colours) ugLen (levelFields n) C (fun p => lv p ++ pr p)
    (fun p => (hc p).1) (fun p => (hc p).2.1) (fun p => (hc p).2.2)
    (fun p => by simp [h1, h2, levelFields, TFields.variableCount, Tmpl.variableCount])
  refine ⟨v, fun p hp => ⟨(hv v (Agree.refl _ _) p hp).1, ?_⟩⟩
  have := (hv v (Agree.refl _ _) p hp).2
  rw [levelLits_flat, List.map_append] at this
  exact List.append_inj this (by rw [List.length_map, (levelLits_length _ _ _ p).1, h1])

/-- The number whose bits are a set. -/
def numberOfSet (bits : Nat) (S : Finset Nat) : Nat := binVal ((List.range bits).map fun k => decide (k ∈ S))

theorem numberOfSet_bits (bits : Nat) (S : Finset Nat) : getBits (numberOfSet bits S) bits = (List.range bits).map fun k => decide (k ∈ S) := by
  have := getBits_binVal ((List.range bits).map fun k => decide (k ∈ S))
  rw [List.length_map, List.length_range] at this
  exact this

theorem numberOfSet_getD {bits : Nat} {S : Finset Nat} (h : S ⊆ range bits) (k : Nat) :
    (getBits (numberOfSet bits S) bits).getD k false = true ↔ k ∈ S := by
  rw [numberOfSet_bits, List.getD_eq_getElem?_getD, List.getElem?_map]
  by_cases hk : k < bits
  · rw [List.getElem?_range hk]; simp
  · rw [List.getElem?_eq_none (by simpa using hk)]
    simp only [Option.map_none, Option.getD_none, Bool.false_eq_true, false_iff]
    exact fun hm => hk (mem_range.1 (h hm))

theorem numberOfSet_set {bits : Nat} {S : Finset Nat} (h : S ⊆ range bits) : bitSet bits (getBits (numberOfSet bits S) bits) = S := by
  ext k
  rw [mem_bitSet (by simp), numberOfSet_getD h]

theorem numberOfSet_count {bits : Nat} {S : Finset Nat} (h : S ⊆ range bits) : (getBits (numberOfSet bits S) bits).count true = S.card := by
  rw [← card_bitSet, getBits_length, numberOfSet_set h]

theorem numberOfSet_single {bits k : Nat} (h : k < bits) : numberOfSet bits {k} = 2 ^ k := by
  apply Nat.eq_of_testBit_eq
  intro j
  rw [numberOfSet, ← binVal_getD, Nat.testBit_two_pow, List.getD_eq_getElem?_getD, List.getElem?_map]
  by_cases hj : j < bits
  · rw [List.getElem?_range hj]; simp [eq_comm]
  · rw [List.getElem?_eq_none (by simpa using hj)]
    simp; omega

/-- The level of a cell as the literals give it. -/
def levelBits (n : Nat) (T : Nat × Nat → Tile) (level : Nat × Nat → Nat) (p : Nat × Nat) : List Bool :=
  (List.range n).map fun i => match T p with | .splitter _ _ => decide (level p = i) | _ => false

theorem levelBits_splitter {n : Nat} {T : Nat × Nat → Tile} {level : Nat × Nat → Nat} {p : Nat × Nat} {d : Dir} {b : Bool}
    (h : T p = .splitter d b) : levelBits n T level p = (List.range n).map fun i => decide (level p = i) := by
  unfold levelBits
  rw [h]

theorem levelBits_other {n : Nat} {T : Nat × Nat → Tile} {level : Nat × Nat → Nat} {p : Nat × Nat} (h : ¬ (T p).IsSplitter) :
    ∀ b ∈ levelBits n T level p, b = false := by
  intro b hb
  unfold levelBits at hb
  obtain ⟨i, _, rfl⟩ := List.mem_map.1 hb
  split
  · rename_i d b' ht; exact absurd ⟨d, b', ht⟩ h
  · rfl

theorem levelBits_count {n i : Nat} (h : i < n) : ((List.range n).map fun k => decide (i = k)).count true = 1 := by
  rw [range_one]
  exact ⟨i, h, by simp, fun j _ hj => by simpa [eq_comm] using hj⟩

open Classical in
/-- A layout that mixes its inputs evenly satisfies all clauses. -/
theorem power_complete {lib : CardLib} (hl : lib.Correct) {width height : Nat} {ugLen : Option Nat} {g : Grid} {cs : Cnf} {s : Nat}
    (hL : ∀ l, ugLen = some l → 1 ≤ l) (h : powerBalancer lib width height ugLen = .ok (g, cs, s)) {T : Nat × Nat → Tile}
    (hb : PowerBalancer g T width height ugLen) : ∃ v, Sat v cs ∧ Decodes g v T := by
  obtain ⟨e, cs0, cs1, hw, he, hgr, h0, h1, rfl⟩ := power_parts h
  have hh : 0 < height := by rw [he]; positivity
  have hg : g.WF := hgr ▸ mkGrid_wf hw hh ⟨false, false⟩ (some (2 ^ (height / 2))) ugLen
    (by intro n h; cases h; exact Nat.one_le_two_pow) (levelFields (powerLevels height)) 0
  have hlits : g.LitsLe (height * width * (gridFields (some (2 ^ (height / 2))) (levelFields (powerLevels height))).variableCount) := by
    rw [hgr]
    simpa using (mkGrid_lits width height ⟨false, false⟩ (some (2 ^ (height / 2))) ugLen (levelFields (powerLevels height)) 0).1
  have gh : g.height = height := by rw [hgr]; rfl
  have gw : g.width = width := by rw [hgr]; rfl
  have gu : g.ugLen = ugLen := by rw [hgr]; rfl
  have ge : g.edge = ⟨false, false⟩ := by rw [hgr]; rfl
  have gc : g.colours = some (2 ^ (g.height / 2)) := by rw [gh, hgr]; rfl
  have hev : g.height % 2 = 0 := by rw [gh, he, Nat.pow_succ]; omega
  have hbits : g.bits = height / 2 := by
    unfold Grid.bits
    rw [gc, gh]
    simp only [Option.getD_some]
    exact size_pow_sub_one _
  obtain ⟨hr, hcol, hfull, S, level, hS⟩ := hb
  obtain ⟨hmix, hsub, hinp, hout, hst⟩ := hS
  have hsub' : ∀ p, g.In p → S p ⊆ range g.bits := fun p hp => hbits ▸ hsub p hp
  let col : Nat × Nat → Nat := fun p => numberOfSet g.bits (S p)
  have hl' := realise_lays (col := col) hg hr.basic hr.joined hr.ends
  let lv := levelBits (powerLevels height) T level
  obtain ⟨v, hv⟩ := level_assign width height (2 ^ (height / 2)) (powerLevels height) ugLen (realise g T col)
    (fun p => by
      have : (2 ^ (height / 2) - 1).size = g.bits := by rw [hbits, size_pow_sub_one]
      rw [this]
      simp [realise, drawCell]) (lv := lv) (pr := lv) (fun p => by simp [lv, levelBits]) (fun p => by simp [lv, levelBits])
  rw [← hgr] at hv
  have hlt : ∀ p, col p < g.colours.getD 1 := by
    intro p
    rw [gc, gh]
    have := binVal_lt ((List.range g.bits).map fun k => decide (k ∈ S p))
    rw [List.length_map, List.length_range, hbits] at this
    show numberOfSet _ _ < _
    unfold numberOfSet
    rw [hbits]
    exact this
  have hmate : ∀ p d b, g.In p → T p = .splitter d b → ∃ q r, g.In q ∧ g.In r ∧ SplitterPair g.nb T q r d ∧ (p = q ∨ p = r) := by
    intro p d b hp ht
    cases b with
    | true =>
      obtain ⟨r, h1, h2⟩ := hr.splitters.head p d hp ht
      exact ⟨p, r, hp, h1, h2, .inl rfl⟩
    | false =>
      obtain ⟨q, h1, h2⟩ := hr.splitters.tail p d hp ht
      exact ⟨q, p, h1, hp, h2, .inr rfl⟩
  have hlevel : ∀ p, g.In p → ∀ d b, T p = .splitter d b → level p < powerLevels height ∧ (S p).card = 2 ^ level p := by
    intro p hp d b ht
    obtain ⟨q, r, hq, _, hpair, hpq⟩ := hmate p d b hp ht
    obtain ⟨a1, a2⟩ := hmix.stage q r d hq hpair
    obtain ⟨b1, b2⟩ := hmix.size q r d hq hpair
    rcases hpq with rfl | rfl
    · exact ⟨a1, b1⟩
    · rw [a2]; exact ⟨a1, b2⟩
  have hcr : ColourRules g.In g.nb T (g.colours.getD 1) col := by
    refine ⟨fun p _ => hlt p, fun p q d hp hq h1 h2 => ?_, fun p q d k hp hu => ?_⟩
    · show numberOfSet _ _ = numberOfSet _ _
      rw [hmix.surface p q d hp ⟨hq, h1, hr.joined.out p q d hp hq h1 h2⟩ h2]
    · show numberOfSet _ _ = numberOfSet _ _
      rw [hmix.under p q d k hp hu]
  have hcolour : ∀ p, (realise g T col p).colour = getBits (numberOfSet g.bits (S p)) g.bits := fun p => rfl
  have hbelt : ∀ p, g.In p → T p = .belt .right .right → (realise g T col p).isBelt = true ∧ (realise g T col p).inp .right = true ∧
      (realise g T col p).out .right = true := by
    intro p hp ht
    have hns : ¬ (T p).IsSplitter := by rw [ht]; rintro ⟨d, b, h⟩; cases h
    exact ⟨decide_eq_true ⟨_, _, ht⟩, decide_eq_true ((inpFlag_iff hg hr.joined hp hns _).2 (by rw [ht]; rfl)),
      decide_eq_true ((outFlag_iff hr.joined hp hns _).2 (by rw [ht]; rfl))⟩
  have hin0 : ∀ y < g.height, g.In (0, y) := fun y hy => ⟨hg.w, hy⟩
  have hinw : ∀ y < g.height, g.In (g.width - 1, y) := fun y hy => ⟨Nat.sub_lt hg.w Nat.one_pos, hy⟩
  have hsem : PowerSem g (realise g T col) lv lv := by
    refine ⟨realise_init hg hl' hr.splitters fun p _ => hlt p, realise_blockUg hg hl' hr.under, realise_underground hg hl' hr.undergrounds,
      realise_colour hg hl' hr.undergrounds hcr, fun p hp => ?_, fun p hp d hhd hi => ?_, fun y hy => ?_, fun y hy => ?_, fun k hk b hb => ?_⟩
    · have key : (T p).IsSplitter → (lv p).count true = 1 := by
        rintro ⟨d, b, ht⟩
        show (levelBits _ _ _ _).count true = 1
        rw [levelBits_splitter ht, levelBits_count (hlevel p hp d b ht).1]
      refine ⟨fun hs => ?_, fun hs => ?_, fun hs => ?_, fun _ => rfl, fun hs => ?_⟩
      · obtain ⟨d, b, ht⟩ := (hl' p hp).isSplitter_iff.1 hs
        exact ⟨⟨d, decide_eq_true (realise_inp hg hfull hr.joined hp (by rw [ht]; rfl))⟩,
          d, decide_eq_true (realise_out hfull hr.joined hp (by rw [ht]; rfl))⟩
      · rcases hs with hs | hs
        · obtain ⟨d, ht⟩ := (hl' p hp).isHead_iff.1 hs
          exact key ⟨d, true, ht⟩
        · exact key ((hl' p hp).isSplitter_iff.1 hs)
      · exact levelBits_other fun hsp => by rw [(hl' p hp).isSplitter_iff.2 hsp] at hs; cases hs
      · exact levelBits_other fun hsp => by rw [(hl' p hp).isSplitter_iff.2 hsp] at hs; cases hs
    · obtain ⟨e', he'⟩ := (hl' p hp).isHead_iff.1 hhd
      have ht := (hl' p hp).inp_takes hi
      rw [he'] at ht
      have : e' = d := ht
      subst this
      obtain ⟨q, hq, hpair⟩ := hr.splitters.head p e' hp he'
      obtain ⟨p', c1⟩ := (hfull p e' true hp hpair.1).1
      obtain ⟨q', c2⟩ := (hfull q e' false hq hpair.2.2).1
      refine ⟨p', q, q', c1.1, hpair.2.1, c2.1, fun k => ?_, ?_⟩
      · rw [hcolour, hcolour, hcolour, hcolour]
        simp only [numberOfSet_getD (hsub' p hp), numberOfSet_getD (hsub' q hq), numberOfSet_getD (hsub' p' (Grid.nb_in hg c1.1)),
          numberOfSet_getD (hsub' q' (Grid.nb_in hg c2.1))]
        rw [hmix.union p q e' hp hpair p' (.inl c1), hmix.union p q e' hp hpair q' (.inr c2), mem_union]
        exact ⟨fun hk => disjoint_left.1 (hmix.disjoint p q e' hp hpair) hk.1 hk.2, Iff.rfl, Iff.rfl⟩
      · show levelBits _ _ _ _ = levelBits _ _ _ _
        rw [levelBits_splitter hpair.1, levelBits_splitter hpair.2.2, (hmix.stage p q e' hp hpair).2]
    · refine ⟨hbelt _ (hin0 y hy) (hcol y (gh ▸ hy)).1, ?_⟩
      rw [hcolour, binVal_getBits_of_range _ _ (bits_lt hg (hlt _)), show col (0, y) = numberOfSet g.bits (S (0, y)) from rfl, hinp y (gh ▸ hy), numberOfSet_single (by rw [hbits]; omega)]
    · exact hbelt _ (hinw y hy) (gw ▸ (hcol y (gh ▸ hy)).2)
    · obtain ⟨d1, d2⟩ := hout k (by omega)
      rw [hcolour, hcolour, numberOfSet_getD (hsub' _ (hinw _ (by omega))), numberOfSet_getD (hsub' _ (hinw _ hk)), gw]
      constructor
      · exact fun k1 k2 => disjoint_left.1 d1 k1 k2
      · intro k1
        have : b ∈ S (width - 1, 2 * k) ∪ S (width - 1, 2 * k + 1) := by rw [d2, mem_range, ← hbits]; exact hb
        exact (mem_union.1 this).resolve_right k1
  have hvals : ∀ p, g.In p → g.vals v p = realise g T col p := fun p hp => (hv p hp).1
  have hidx : ∀ p, g.In p → ∀ d b, T p = .splitter d b → (lv p).idxOf true = level p := by
    intro p hp d b ht
    have := (one_idxOf (l := lv p) (by
      show (levelBits _ _ _ _).count true = 1
      rw [levelBits_splitter ht, levelBits_count (hlevel p hp d b ht).1])).2 (level p)
    rw [← this]
    show (levelBits _ _ _ _).getD _ _ = _
    rw [levelBits_splitter ht, List.getD_eq_getElem?_getD, List.getElem?_map, List.getElem?_range (hlevel p hp d b ht).1]
    simp
  have hcount : ∀ i < powerLevels height, (checkerboard g).countP (fun p => (lv p).getD i false) = g.height / 2 := by
    intro i hi
    rw [hsem.count hg ge hl' hr.splitters (fun p q d hp hpair => by
      rw [hidx p hp d true hpair.1, hidx q (Grid.nb_in hg hpair.2.1) d false hpair.2.2, (hmix.stage p q d hp hpair).2]) i, gh, ← hst i hi,
      List.countP_eq_length_filter, ← List.toFinset_card_of_nodup (g.cells_nodup.filter _), ← Set.ncard_coe_finset]
    congr 1
    ext p
    simp only [Set.mem_ofPred_eq, List.coe_toFinset, List.mem_filter, Grid.mem_cells, Bool.and_eq_true, decide_eq_true_eq]
    refine and_congr_right fun hp => ?_
    rw [(hl' p hp).isHead_iff]
    refine and_congr_right ?_
    rintro ⟨d, ht⟩
    rw [hidx p hp d true ht]
  have enc := (powerClauses_enc hl hg hlits (L := levelLits width (2 ^ (height / 2)) (powerLevels height)) (by rw [gh])
    (fun p => (levelLits_length _ _ _ p).1) (fun p => (levelLits_length _ _ _ p).2)
    (fun p hp => (levelLits_bound ugLen (by rw [← hgr]; exact hp)).1) (fun p hp => (levelLits_bound ugLen (by rw [← hgr]; exact hp)).2)
    gc hev).enc _ (Nat.le_refl _) _ _ h0
  obtain ⟨w, hag, hws⟩ := enc.complete v ⟨hsem.congr hg hvals (fun p hp => (hv p hp).2.1) fun p hp => (hv p hp).2.2, fun p hp i hi hb => by
      rw [(hv p hp).2.1] at hb
      rw [hvals p hp, hcolour, numberOfSet_count (hsub' p hp)]
      by_cases hsp : (T p).IsSplitter
      · obtain ⟨d, b, ht⟩ := hsp
        have := ((one_idxOf (l := lv p) (by
          show (levelBits _ _ _ _).count true = 1
          rw [levelBits_splitter ht, levelBits_count (hlevel p hp d b ht).1])).2 i).1 hb
        rw [hidx p hp d b ht] at this
        rw [← this]
        exact (hlevel p hp d b ht).2
      · exfalso
        have hm : true ∈ lv p := by
          rw [List.getD_eq_getElem?_getD] at hb
          cases hx : (lv p)[i]? with
          | none => rw [hx] at hb; cases hb
          | some x => rw [hx] at hb; have : x = true := hb; subst this; exact List.mem_of_getElem? hx
        exact Bool.noConfusion (levelBits_other hsp _ hm), fun i hi => by
      rw [← hcount i hi]
      refine List.countP_congr fun p hp => ?_
      have hp' : g.In p := by
        have := (checkerboard_perm g).mem_iff.1 hp
        exact (g.mem_cells p).1 (List.mem_filter.1 this).1
      rw [(hv p hp').2.2]⟩
  have hwv : ∀ p, g.In p → g.vals w p = realise g T col p := fun p hp => (Grid.vals_agree hlits hag hp).trans (hvals p hp)
  have hlw : Lays g (g.vals w) T := fun p hp => by rw [hwv p hp]; exact hl' p hp
  refine ⟨w, (Sat_append _ _ _).2 ⟨hws, ?_⟩, decodes_of_lays hlw⟩
  refine joinE_fill h1 ?_
  simp only [List.mem_cons, List.not_mem_nil, or_false, forall_eq_or_imp, forall_eq]
  refine ⟨fun c hc => ?_, fun c hc => ?_, fun c hc => ?_⟩
  · cases hc; exact (Sat_blockBelt hg _ w).2 ((blockBelt_iff hlw _).2 hr.surface)
  · cases hc; exact (Sat_intersection g w).2 ((realise_intersection hg hr.basic hr.joined hr.ends).congr hg hwv)
  · cases hul : ugLen with
    | none =>
      rw [(c21_no_limit g).1 (gu.trans hul)] at hc
      cases hc
      exact (Sat_nil w).2 trivial
    | some l =>
      obtain ⟨cl, q1, q2⟩ := length_iff hg l (gu.trans hul) (hL l hul)
      rw [q1] at hc; cases hc
      exact (q2 w).2 ((realise_length hg (hul ▸ hr.undergrounds)).congr hg hwv)

theorem TidyPower.congr {In : Nat × Nat → Prop} {nb : Nat × Nat → Dir → Option (Nat × Nat)} {w h : Nat} {ugLen : Option Nat}
    {T : Nat × Nat → Tile} {ent out ent' out' : Nat × Nat → Dir → Prop} (hin : ∀ p q d, nb p d = some q → In q)
    (he : ∀ p d, In p → (ent' p d ↔ ent p d)) (ho : ∀ p d, In p → (out' p d ↔ out p d)) (ht : TidyPower In nb w h ugLen T ent out) :
    TidyPower In nb w h ugLen T ent' out' := by
  refine { ht with patterns := fun p d t hp ha => ?_, loose := fun p d hp h1 h2 hl => ht.loose p d hp h1 h2 ?_ }
  · obtain ⟨k1, k2, k3, k4, k5, k6⟩ := ht.patterns p d t hp ha
    refine ⟨k1, k2, k3, k4, k5, fun hb => k6 ?_⟩
    obtain ⟨q, b, c, e1, e2, e3, e4, e5, e6⟩ := hb
    exact ⟨q, b, c, e1, e2, e3, e4, (ho b t (hin _ _ _ e2)).1 e5, e6⟩
  · obtain ⟨q, a, b, e1, e2, e3, e4, e5, e6⟩ := hl
    exact ⟨q, a, b, e1, e2, e3, e4, e5, by rwa [he p d hp, he q d (hin _ _ _ e1.2.1)] at e6⟩

/-- What the clauses that `main` adds say about a layout. -/
theorem powerMain_tidy {g : Grid} (hg : g.WF) (hw : 2 ≤ g.width) (hedge : g.edge = ⟨false, false⟩) :
    ∃ cs, joinE [expandUnderground g { minX := 1, maxX := some ((g.width : Int) - 2) }, applyGenericOptimisations g] = .ok cs ∧
      ∀ v T, Solved g v T → PairedUndergrounds g.In g.nb T g.ugLen →
      (Sat v cs ↔ TidyPower g.In g.nb g.width g.height g.ugLen T (fun q e => (g.vals v q).inp e = true)
        (fun q e => (g.vals v q).out e = true)) := by
  have hin : Window.Inside { minX := 1, maxX := some ((g.width : Int) - 2) } g := by
    unfold Window.Inside Window.hiX Window.hiY
    simp only [Option.getD_some, Option.getD_none]
    omega
  have e1 : Window.hiX { minX := 1, maxX := some ((g.width : Int) - 2) } g = ((g.width - 2 : Nat) : Int) := by
    unfold Window.hiX
    simp only [Option.getD_some]
    omega
  have e2 : Window.hiY { minX := 1, maxX := some ((g.width : Int) - 2) } g = ((g.height - 1 : Nat) : Int) := by
    have := hg.h
    unfold Window.hiY
    simp only [Option.getD_none]
    omega
  have key : ∃ c1, expandUnderground g { minX := 1, maxX := some ((g.width : Int) - 2) } = .ok c1 ∧
      ∀ v T, Solved g v T → (Sat v c1 ↔ Expanded T g.nb g.In g.width g.height g.ugLen) := by
    rcases hu : g.ugLen with _ | L
    · obtain ⟨cs, h1, h2⟩ := c59_expand_unlimited hg _ hin hu
      refine ⟨cs, h1, fun v T hS => ?_⟩
      rw [h2 v T hS, e1, e2]
      simp only [Expanded, Nat.cast_sub hw, Nat.cast_sub (show 1 ≤ g.height from hg.h)]
      exact Iff.rfl
    · obtain ⟨cs, h1, h2⟩ := c59_expand hg _ hin L hu
      refine ⟨cs, h1, fun v T hS => ?_⟩
      rw [h2 v T hS, e1, e2]
      simp only [Expanded, Nat.cast_sub hw, Nat.cast_sub (show 1 ≤ g.height from hg.h)]
      exact Iff.rfl
  obtain ⟨c1, h1, k1⟩ := key
  obtain ⟨c2, h2, k2⟩ := c59_generic hg
  refine ⟨c1 ++ (c2 ++ []), by rw [h1, h2]; rfl, fun v T hS hpu => ?_⟩
  rw [Sat_append, List.append_nil, k1 v T hS, k2 v T hS]
  constructor
  · rintro ⟨a1, ⟨b1, b2, b3, b4, b5, b6⟩⟩
    refine ⟨a1, b1, fun p q d k hp he => b2 p q d k hp (fun L hL => hpu.len p q d k hp he.1 L hL) he, b3, b4, fun p d k m hp hL hm => ?_,
      b6⟩
    have hs : Sat v (preventMergeableUnderground g) := (c59_mergeable hS).2 b5
    exact (c59_mergeable_flat hS (by rw [hedge]) (by rw [hedge])).1 hs p d k m hp hL hm
  · intro ht
    exact ⟨ht.expanded, ⟨ht.loops, fun p q d k hp _ => ht.spans p q d k hp, ht.glued, ht.patterns,
      fun p d k m hp hL _ => ht.mergeable p d k m hp hL, ht.loose⟩⟩

end FSat
