import Verif.Props.ParseBack
import Verif.Props.Pasted
/-!
# C104: the network read back from a printed balancer is a balancer
-/

namespace FSat

/-! ### Sound layouts on a copy -/

section
variable {P Q : Type} {In : P → Prop} {nb : P → Dir → Option P} {T : P → Tile} {In' : Q → Prop} {nb' : Q → Dir → Option Q} {T' : Q → Tile} {e : P → Q}

theorem UgPair.along_copy (C : LayoutCopy In nb T In' nb' T' e) {p q : P} {d : Dir} {k : Nat} (hp : In p) (h : UgPair nb T p q d k) :
    UgPair nb' T' (e p) (e q) d k := by
  obtain ⟨h1, h2, h3, h4, h5⟩ := h
  have hq := (C.walk hp d k).2 q h2
  refine ⟨h1, by rw [(C.walk hp d k).1, h2]; rfl, C.underground hp d _ h3, C.underground hq d _ h4, fun i hi hk r hr => ?_⟩
  rw [(C.walk hp d i).1, Option.map_eq_some_iff] at hr
  obtain ⟨s, hs, rfl⟩ := hr
  rw [C.along ((C.walk hp d i).2 s hs)]
  exact h5 i hi hk s hs

/-- A sound layout stays sound when it is copied tile by tile. -/
theorem LayoutCopy.sound (C : LayoutCopy In nb T In' nb' T' e) (hT : ∀ p, In p → T' (e p) = T p) (hs : SoundLayout In nb T) : SoundLayout In' nb' T' := by
  have up : ∀ {p q : P} {d : Dir}, In p → nb p d = some q → nb' (e p) d = some (e q) := by
    intro p q d hp h
    rw [C.nbs p d hp, h]
    rfl
  have pr : ∀ {p q : P} {d : Dir}, In p → In q → SplitterPair nb T p q d → SplitterPair nb' T' (e p) (e q) d := by
    intro p q d hp hq h
    exact ⟨by rw [hT p hp, h.1], up hp h.2.1, by rw [hT q hq, h.2.2]⟩
  refine ⟨fun r hr => ?_, ⟨fun r d hr h => ?_, fun r d hr h => ?_⟩, ⟨fun r s d hr hn h1 h2 => ?_, fun r s d hr hn h1 h2 => ?_⟩,
    ⟨fun r d hr h => ?_, fun r d hr h => ?_, fun _ _ _ _ _ _ _ h => by cases h⟩⟩
  all_goals obtain ⟨p, hp, rfl⟩ := C.onto r hr
  · rw [hT p hp]
    exact hs.basic p hp
  · obtain ⟨q, hq, h2⟩ := hs.splitters.head p d hp (hT p hp ▸ h)
    exact ⟨e q, C.maps q hq, pr hp hq h2⟩
  · obtain ⟨q, hq, h2⟩ := hs.splitters.tail p d hp (hT p hp ▸ h)
    exact ⟨e q, C.maps q hq, pr hq hp h2⟩
  · rw [C.nbs p d hp, Option.map_eq_some_iff] at hn
    obtain ⟨q, hn, rfl⟩ := hn
    rw [hT p hp] at h1 h2
    rw [hT q (C.nbIn p q d hp hn)]
    exact hs.joined.out p q d hp hn h1 h2
  · rw [C.nbs p d hp, Option.map_eq_some_iff] at hn
    obtain ⟨q, hn, rfl⟩ := hn
    rw [hT q (C.nbIn p q d hp hn)] at h1 h2
    rw [hT p hp]
    exact hs.joined.inp p q d hp hn h1 h2
  · obtain ⟨q, k, hq, h2⟩ := hs.undergrounds.entrance p d hp (hT p hp ▸ h)
    exact ⟨e q, k, C.maps q hq, h2.along_copy C hp⟩
  · obtain ⟨q, k, hq, h2⟩ := hs.undergrounds.exit p d hp (hT p hp ▸ h)
    exact ⟨e q, k, C.maps q hq, h2.along_copy C hq⟩

end

/-- The array of a layout is a copy of it. -/
theorem copy_layout {g : Grid} (hg : g.WF) (hw : g.NoWrap) (T : Nat × Nat → Tile) :
    LayoutCopy g.In g.nb T (layoutArr g T).In (layoutArr g T).nb (layoutArr g T).board toPlane := by
  refine ⟨fun p hp => (inArea T _).2 ⟨p, hp, rfl⟩, fun r hr => (inArea T r).1 hr, toPlane_inj, fun p d hp => nb_area hg hw T hp d,
    fun p q d hp hq => Grid.nb_in hg hq, fun p hp _ => layout_board T hp, fun p i o hp hb => ⟨i, by rw [layout_board T hp, hb]⟩, fun p q d hp hq => ?_⟩
  unfold Connected
  rw [nb_area hg hw T hp, layout_board T hp, layout_board T hq, Option.map_eq_some_iff]
  refine and_congr_left fun _ => ⟨?_, fun h => ⟨q, h, rfl⟩⟩
  rintro ⟨q', h, e⟩
  rw [h, toPlane_inj _ _ e]

/-! ### Flows that nothing is supplied to from outside -/

section
variable {P : Type} {In : P → Prop} {nb : P → Dir → Option P} {T : P → Tile}

open Classical in
/-- If splitter halves at the edge get nothing from outside, then it makes no difference whether they could. -/
theorem Carries.shut {F : P → ℚ} (hback : ∀ p q d, In p → nb p d = some q → nb q d.opp = some p) (supplied : P → Prop)
    (hF : Carries In nb T (Connected nb T) (fun _ => False) F) :
    Carries In nb T (Connected nb T) supplied fun p => if ∃ d b, T p = .splitter d b ∧ nb p d.opp = none then 0 else F p := by
  have ne : ∀ {p}, ¬ (T p).IsSplitter → ¬ ∃ d b, T p = .splitter d b ∧ nb p d.opp = none := fun hn ⟨d, b, h, _⟩ => hn ⟨d, b, h⟩
  have fed : ∀ {p q d}, In p → Connected nb T p q d → ¬ ∃ d b, T q = .splitter d b ∧ nb q d.opp = none := by
    rintro p q d hp ⟨h1, _, h3⟩ ⟨e, b, h, h4⟩
    rw [h] at h3
    have : e = d := h3
    subst this
    rw [hback p q _ hp h1] at h4
    cases h4
  refine ⟨fun p q d hp hc hn => ?_, fun p q d k hp h => ?_, fun p q d hp hq h r hr => ?_⟩
  · rw [if_neg (fed hp hc), if_neg (ne hn)]
    exact hF.surface p q d hp hc hn
  · rw [if_neg (ne fun ⟨_, _, e⟩ => by rw [h.2.2.2.1] at e; cases e), if_neg (ne fun ⟨_, _, e⟩ => by rw [h.2.2.1] at e; cases e)]
    exact hF.under p q d k hp h
  · have key : ∀ {s b}, T s = .splitter d b → gets In nb (Connected nb T) supplied
        (fun p => if ∃ d b, T p = .splitter d b ∧ nb p d.opp = none then 0 else F p) s d = gets In nb (Connected nb T) (fun _ => False) F s d := by
      intro s b hs
      unfold gets FedAt
      dsimp only
      by_cases hx : ∃ r, In r ∧ Connected nb T r s d
      · obtain ⟨r, h1, h2⟩ := hx
        rw [if_neg (fed h1 h2), if_pos (.inl ⟨r, h1, h2⟩), if_pos (.inl ⟨r, h1, h2⟩)]
      · rw [if_neg (show ¬ ((∃ r, In r ∧ Connected nb T r s d) ∨ nb s d.opp = none ∧ False) from fun h => h.elim hx fun h => h.2)]
        by_cases hy : nb s d.opp = none ∧ supplied s
        · rw [if_pos (.inr hy), if_pos ⟨d, b, hs, hy.1⟩]
        · rw [if_neg fun h => h.elim hx hy]
    rw [key h.1, key h.2.2, if_neg (hr.elim (fed hp) (fed hq))]
    exact hF.splitter p q d hp hq h r hr

end

section
variable {lib : CardLib} {net : PyDict Node Nat} {width height : Nat} {ugLen : Option Nat} {o : BalancerOptions} {g : Grid}
  {node : Nat × Nat → List Lit} {cs : Cnf} {s' : Nat}

/-- C104: every layout printed by `belt_balancer` is one that `network parse` can make sense of. -/
theorem c104_sound (hl : lib.Correct) (hpos : ∀ c ∈ netColours net, 0 ≤ c) (hw : 2 ≤ width) (hh : 2 ≤ height)
    (hc : balancerMain lib net width height ugLen o = .ok (g, node, cs, s')) (v : Asg) (hs : Sat v cs) (T : Nat × Nat → Tile)
    (hT : Decodes g v T) : SoundLayout (layoutArr g T).In (layoutArr g T).nb (layoutArr g T).board := by
  obtain ⟨P, hP⟩ := balancerMain_parts hc
  have hH := (hP v).1 hs
  have hx := hH.2.1
  obtain ⟨k, V, a0, m0, b0, n0, hR⟩ := P.ready hl hpos hw hh
  have hg := hR.wf
  have hnw : g.NoWrap := by unfold Grid.NoWrap; rw [hR.edge]; exact ⟨rfl, rfl⟩
  obtain ⟨hi, _, hbu, hu, _⟩ := hR.base.sound v hH.1
  obtain ⟨ci, hci, hci'⟩ := init_iff hg
  have hsi := (hci' v).2 hi
  have hlay := lays_of_decodes hi hT
  obtain ⟨u1, u2⟩ := c20_paired hg hci v hsi ((Sat_underground g v).2 hu) (.ofBool true) (fun d _ => by cases d <;> rfl)
    ((Sat_blockUg hg _ v).2 hbu) T hT
  refine (copy_layout hg hnw T).sound (fun p hp => layout_board T hp) ⟨fun p hp => (hlay p hp).basic, (splitterSem_iff hg hlay).1 hi.splitter,
    c18_joined hg hci v hsi hx T hT, fun p d hp h => ?_, fun p d hp h => ?_, fun _ _ _ _ _ _ _ h => by cases h⟩
  · obtain ⟨q, ⟨k, h1, h2⟩, _⟩ := u1 p d hp h
    exact ⟨q, k, h1, h2⟩
  · obtain ⟨q, ⟨k, h1, h2⟩, _⟩ := u2 p d hp h
    exact ⟨q, k, h1, h2⟩

/-- C104, partial: the network read back from a layout that `belt_balancer` printed for a balancer is a balancer, provided that no splitter
stands directly in front of another.  Without this condition the printed layout may not even be a balancer: `c77_adjacent_refuted`.  That
`network parse` reads every such layout is not true: `c62_row_refuted`, `c62_empty_refuted`. -/
theorem c104_printed_partial (hl : lib.Correct) (hv : net.Valid) (hpos : ∀ c ∈ netColours net, 0 ≤ c) (hw : 2 ≤ width) (hh : 2 ≤ height)
    (hc : balancerMain lib net width height ugLen o = .ok (g, node, cs, s')) (v : Asg) (hs : Sat v cs) (T : Nat × Nat → Tile)
    (hT : Decodes g v T) (a m a' n : Int) (hE : Ends (elements net) a m a' n) (hbal : IsBalancer (elements net) a a')
    (hapart : ∀ p q d, g.In p → Connected g.nb T p q d → ¬ ((T p).IsSplitter ∧ (T q).IsSplitter))
    {ord : List (Int × Int) → List (Int × Int)} (ho : ∀ l, (ord l).Perm l) {net' : Network}
    (h : parseNetwork ord (layoutArr g T) false = .ok net') : IsBalancer net' 0 (net'.length + 1) := by
  classical
  have hsound := c104_sound hl hpos hw hh hc v hs T hT
  rw [c104_balancer hsound ho h]
  intro F hF p q hp hq
  obtain ⟨P, hP⟩ := balancerMain_parts hc
  have hH := (hP v).1 hs
  obtain ⟨k, V, a0, m0, b0, n0, hR⟩ := P.ready hl hpos hw hh
  have hg := hR.wf
  have hnw : g.NoWrap := by unfold Grid.NoWrap; rw [hR.edge]; exact ⟨rfl, rfl⟩
  have C := copy_layout hg hnw T
  obtain ⟨p, hp', rfl⟩ := (inArea T p).1 (takesOut_in hp)
  obtain ⟨q, hq', rfl⟩ := (inArea T q).1 (takesOut_in hq)
  have hG := (C.carries (supplied := fun _ => False) (fun _ _ => Iff.rfl) hF.carries).shut (fun p q d hp h => Grid.nb_opp hg hp h)
    (fun p => ev v (g.at' p).isInput = true)
  have := c77_balances_partial hl hv hpos P.hbase hw hh v hH.1 hH.2.1 T hT a m a' n hE hbal hapart _ hG p q hp' hq'
    ((C.leaves hp').1 hp.2.1) ((C.leaves hq').1 hq.2.1)
  have ne : ∀ {r}, g.In r → TakesOut (layoutArr g T).nb (layoutArr g T).board (toPlane r) → ¬ ∃ d b, T r = .splitter d b ∧ g.nb r d.opp = none :=
    fun hr ht ⟨d, b, h, _⟩ => ht.1 ⟨d, b, by rw [layout_board T hr, h]⟩
  rwa [if_neg (ne hp' hp), if_neg (ne hq' hq)] at this

end

/-- The hypotheses of `c104_printed_partial` are met by the case of C77. -/
example : ∃ node cs s' net', exOne.Valid ∧ (∀ c ∈ netColours exOne, 0 ≤ c) ∧
    balancerMain naiveLib exOne 3 2 (some 4) {} = .ok (exShareGrid, node, cs, s') ∧ Sat exShareAsg cs ∧
    Decodes exShareGrid exShareAsg exShareLayout ∧ Ends (elements exOne) 0 2 1 2 ∧ IsBalancer (elements exOne) 0 1 ∧
    (∀ p q d, exShareGrid.In p → Connected exShareGrid.nb exShareLayout p q d →
      ¬ ((exShareLayout p).IsSplitter ∧ (exShareLayout q).IsSplitter)) ∧
    parseNetwork id (layoutArr exShareGrid exShareLayout) false = .ok net' ∧ net' = [((some 0, some 0), (some 2, some 2))] := by
  obtain ⟨_, _, _, h1, h2, _, _, _, h3, h4, h5, h6, h7⟩ := exShare_case
  obtain ⟨g, node, cs, s', h8, h9⟩ := balancerCnf_ok exShareMain_sat
  obtain ⟨P, hP⟩ := balancerMain_parts h8
  have := createBalancer_grid P.hbase (m := 1) (by decide)
  subst this
  exact ⟨node, cs, s', _, h1, h2, h8, h9, h3, h4, h5, h6, by rfl, rfl⟩

end FSat
