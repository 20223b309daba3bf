import Verif.Lemmas.NetworkFlow
import Verif.Lemmas.FillSpan
import Verif.Props.Balancer
import Verif.Props.Network
/-!
# C77: a printed balancer does what its network does
-/

set_option linter.unusedVariables false

namespace FSat

theorem Grid.cellsIn (g : Grid) : (fun p => p ∈ g.cells) = g.In := funext fun p => propext (g.mem_cells p)

theorem nb_none_outside {g : Grid} (hg : g.WF) (hedge : g.edge = ⟨false, false⟩) {p : Nat × Nat} (hp : g.In p) (d : Dir) :
    (g.nb p d.opp = none ↔ FromOutside g p d) ∧ (g.nb p d = none ↔ ToOutside g p d) := by
  have hx := hp.1
  have hy := hp.2
  have hwr : ∀ d, g.wraps d = false := by
    intro d
    unfold Grid.wraps
    rw [hedge]
    exact ite_self _
  rw [g.nb_none_iff hg hp, g.nb_none_iff hg hp, hwr, hwr]
  unfold FromOutside ToOutside Grid.OnEdge
  cases d <;> simp [Dir.dx, Dir.dy, Dir.opp, -not_and, not_and_or] <;> omega

/-- In a solution the flags and colours follow the belts of the layout. -/
theorem tracks_of_sem {g : Grid} (hg : g.WF) (hedge : g.edge = ⟨false, false⟩) {v : Asg} (hi : InitSem g (g.vals v))
    (hb : BlockUgSem g (.ofBool true) (g.vals v)) (hu : UndergroundSem g (g.vals v)) (hc : ColourSem g (g.vals v))
    (hx : IntersectionSem g (g.vals v)) {T : Nat × Nat → Tile} (hlay : Lays g (g.vals v) T) {n : Network}
    {lab : Nat × Nat → Option Node} (hR : Realises g.nb T (g.flow v) g.cells n lab) : Tracks g.cells g.nb T (g.flow v) := by
  have hpair := (splitterSem_iff hg hlay).1 hi.splitter
  have hcol := colourRules_of_sem hg hlay hu hc fun p hp => (hi.range p hp).1
  have hE : g.Sealed (.ofBool true) := fun d _ => by cases d <;> rfl
  simp only [← g.cellsIn] at hpair hcol
  have mem := fun p => (g.mem_cells p)
  refine ⟨g.cells_nodup, fun p q d hp hq => ?_, fun p hp => (hlay p ((mem p).1 hp)).basic,
    fun p hp d h => (hlay p ((mem p).1 hp)).inp_takes h, fun p hp d h => (hlay p ((mem p).1 hp)).out_emits h,
    fun p hp hs d h => ?_, fun p hp hs d h => ?_, fun p q d hp hq => ?_, fun p hp d ht => ?_, fun q hq d ht => ?_,
    fun p p' q d d' k k' hp hp' h h' => ?_, fun p q d hp ho hq hs => ?_, fun p q d k hp h => hcol.under p q d k hp h,
    fun p d hp hs ho => ?_⟩
  · exact ⟨(mem q).2 (g.nb_in hg hq), g.nb_opp hg ((mem p).1 hp) hq⟩
  · have hl := hlay p ((mem p).1 hp)
    exact (hl.takes_iff (hl.isSplitter_false hs) d).2 h
  · have hl := hlay p ((mem p).1 hp)
    exact (hl.emits_iff (hl.isSplitter_false hs) d).2 h
  · exact (hx d p q ((mem p).1 hp) hq).1
  · obtain ⟨q, k, a, b, _⟩ := entrance_run hg hlay hu hb hE ((mem p).1 hp) ht
    exact ⟨q, k, (mem q).2 a, b⟩
  · obtain ⟨p, k, a, b⟩ := exit_run hg hlay hu hb hE ((mem q).1 hq) ht
    exact ⟨p, k, (mem p).2 a, b⟩
  · have e := h.2.2.2.1.symm.trans h'.2.2.2.1
    simp only [Tile.underground.injEq, and_true] at e
    subst e
    exact ((UgPair.back hg ((mem p).1 hp) h).unique (UgPair.back hg ((mem p').1 hp') h')).2
  · exact hcol.surface p q d hp hq ((hlay p ((mem p).1 hp)).out_emits ho) hs
  · obtain ⟨e, b, ht⟩ := hs
    have := (hlay p ((mem p).1 hp)).out_emits ho
    rw [ht] at this
    cases (show e = d from this)
    cases b with
    | true =>
      obtain ⟨k, hk⟩ := (hR.heads p hp).2 ⟨d, ht⟩
      obtain ⟨_, p', _, _, h1, _⟩ := hR.wired p hp k d hk ht
      exact ⟨p', h1⟩
    | false =>
      obtain ⟨p0, hp0, hpr⟩ := hpair.tail p d hp ht
      obtain ⟨k, hk⟩ := (hR.heads p0 hp0).2 ⟨d, hpr.1⟩
      obtain ⟨q, _, q', hpr', _, h1, _⟩ := hR.wired p0 hp0 k d hk hpr.1
      have := hpr.2.1.symm.trans hpr'.2.1
      cases this
      exact ⟨q', h1⟩

section
variable {lib : CardLib} {net : PyDict Node Nat} {width height : Nat} {ugLen : Option Nat} {g : Grid} {node : Nat × Nat → List Lit}
  {cs : Cnf} {s' : Nat}

/-- The cell `p` hands items on to its neighbour `q` in direction `d`, according to the flags of the solution.  By
`c27_connected_partial` these are the connections of the layout, except that some between two splitters may be left out. -/
def Grid.hands (g : Grid) (v : Asg) (p q : Nat × Nat) (d : Dir) : Prop := g.nb p d = some q ∧ (g.flow v).out p d = true

/-- Items come into the grid at the cell, according to the flags of the solution. -/
def Grid.entry (g : Grid) (v : Asg) (p : Nat × Nat) : Prop := ∃ d, (g.flow v).inp p d = true ∧ g.nb p d.opp = none

/-- Items leave the grid at the cell, according to the flags of the solution. -/
def Grid.leave (g : Grid) (v : Asg) (p : Nat × Nat) : Prop := ∃ d, (g.flow v).out p d = true ∧ g.nb p d = none

open Classical in
/-- C77, in terms of the solver's own connection flags: however much enters the layout of a solution, the amounts entering and leaving
are those of a flow through the network. -/
theorem c77_flow (hl : lib.Correct) (hv : net.Valid) (hpos : ∀ c ∈ netColours net, 0 ≤ c)
    (hc : createBalancer lib net width height ugLen = .ok (g, node, cs, s')) (hw : 2 ≤ width) (hh : 2 ≤ height) (v : Asg)
    (hs : Sat v cs) (hx : Sat v (preventIntersection g)) (T : Nat × Nat → Tile) (hT : Decodes g v T) (a m b n : Int)
    (hE : Ends (elements net) a m b n) :
    (g.cells.countP (fun p => g.entry v p) : Int) = m ∧ (g.cells.countP (fun p => g.leave v p) : Int) = n ∧
    ∀ F, Carries g.In g.nb T (g.hands v) (g.entry v) F →
      ∃ flow, NetworkFlow (elements net) a b flow ((g.cells.filter fun p => g.entry v p).map F : List ℚ)
        ((g.cells.filter fun p => g.leave v p).map F : List ℚ) := by
  obtain ⟨k, a', m', b', n', hk, hgd, hw', hh', hne, hnd, hE', hok, hcol, henc⟩ := createBalancer_enc hl hpos hc
  have hio := (gio_iff _ _ _ _ _).2 hE
  have hio' := (gio_iff _ _ _ _ _).2 hE'
  rw [hio] at hio'
  simp only [Except.ok.injEq, Prod.mk.injEq] at hio'
  obtain ⟨⟨rfl, rfl⟩, rfl, rfl⟩ := hio'
  obtain ⟨hi, _, hbu, hu, hcl, hB⟩ := henc.sound v hs
  have hg : g.WF := hgd ▸ mkGrid_wf hw' hh' _ _ _ (by intro n h; cases h; omega) _ _
  have hedge : g.edge = ⟨false, false⟩ := by rw [hgd]; rfl
  have hlay := lays_of_decodes hi hT
  have hpair := (splitterSem_iff hg hlay).1 hi.splitter
  have hR := hB.realises hv hlay hpair
  have ht := tracks_of_sem hg hedge hi hbu hu hcl ((Sat_intersection g v).1 hx) hlay hR
  obtain ⟨a', m', b', n', hE', hends⟩ := c27_ends_partial hl hpos hc hw hh v hs
  have hio' := (gio_iff _ _ _ _ _).2 hE'
  rw [hio] at hio'
  simp only [Except.ok.injEq, Prod.mk.injEq] at hio'
  obtain ⟨⟨rfl, rfl⟩, rfl, rfl⟩ := hio'
  have out := fun (p : Nat × Nat) (hp : g.In p) (d : Dir) => nb_none_outside hg hedge hp d
  obtain ⟨h1, h2, h3, h4⟩ := hends (fun p => decide (∃ d, (g.flow v).inp p d = true ∧ FromOutside g p d))
    (fun p => decide (∃ d, (g.flow v).out p d = true ∧ ToOutside g p d)) (fun p => by simp) (fun p => by simp)
  have eI : ∀ p, g.In p → (g.entry v p ↔ ∃ d, (g.flow v).inp p d = true ∧ FromOutside g p d) := fun p hp =>
    exists_congr fun d => and_congr_right fun _ => (out p hp d).1
  have eO : ∀ p, g.In p → (g.leave v p ↔ ∃ d, (g.flow v).out p d = true ∧ ToOutside g p d) := fun p hp =>
    exists_congr fun d => and_congr_right fun _ => (out p hp d).2
  refine ⟨?_, ?_, fun F hF => ?_⟩
  · rw [← h1]
    congr 1
    exact List.countP_congr fun p hp => by simpa using eI p ((g.mem_cells p).1 hp)
  · rw [← h2]
    congr 1
    exact List.countP_congr fun p hp => by simpa using eO p ((g.mem_cells p).1 hp)
  · rw [← g.cellsIn] at hpair hF
    exact ht.networkFlow hpair hR
      (fun p hp h => h3 p ((g.mem_cells p).1 hp) (by simpa using (eI p ((g.mem_cells p).1 hp)).1 h))
      (fun p hp h => h4 p ((g.mem_cells p).1 hp) (by simpa using (eO p ((g.mem_cells p).1 hp)).1 h)) hF

/-- C77: a layout printed for a balancer is a balancer in the game, provided that no splitter stands directly in front of another.
Whatever is supplied at the inputs of the solution, all belts leaving the grid carry the same.  The condition cannot be dropped:
`c77_adjacent_refuted`. -/
theorem c77_balances_partial (hl : lib.Correct) (hv : net.Valid) (hpos : ∀ c ∈ netColours net, 0 ≤ c)
    (hc : createBalancer lib net width height ugLen = .ok (g, node, cs, s')) (hw : 2 ≤ width) (hh : 2 ≤ height) (v : Asg)
    (hs : Sat v cs) (hx : Sat v (preventIntersection g)) (T : Nat × Nat → Tile) (hT : Decodes g v T) (a m b n : Int)
    (hE : Ends (elements net) a m b n) (hbal : IsBalancer (elements net) a b)
    (hapart : ∀ p q d, g.In p → Connected g.nb T p q d → ¬ ((T p).IsSplitter ∧ (T q).IsSplitter)) (F : Nat × Nat → ℚ)
    (hF : Carries g.In g.nb T (Connected g.nb T) (fun p => ev v (g.at' p).isInput = true) F) :
    ∀ p q, g.In p → g.In q → LeavesAt g.nb T p → LeavesAt g.nb T q → F p = F q := by
  classical
  obtain ⟨_, _, h3⟩ := c77_flow hl hv hpos hc hw hh v hs hx T hT a m b n hE
  obtain ⟨k, a', m', b', n', hk, hgd, hw', hh', hne, hnd, hE', hok, hcol, henc⟩ := createBalancer_enc hl hpos hc
  obtain ⟨hi, _, hbu, hu, hcl, hB⟩ := henc.sound v hs
  have hg : g.WF := hgd ▸ mkGrid_wf hw' hh' _ _ _ (by intro n h; cases h; omega) _ _
  have hedge : g.edge = ⟨false, false⟩ := by rw [hgd]; rfl
  have hlay := lays_of_decodes hi hT
  have hpair := (splitterSem_iff hg hlay).1 hi.splitter
  have hR := hB.realises hv hlay hpair
  obtain ⟨ci, hci, hci'⟩ := init_iff hg
  have hconn : ∀ p, g.In p → ∀ q d, (Connected g.nb T p q d ↔ g.hands v p q d) := by
    intro p hp q d
    constructor
    · intro h
      exact ⟨h.1, (c27_connected_partial hg hci v ((hci' v).2 hi) hx T hT p q d hp h.1).2.2 (hapart p q d hp h) h⟩
    · intro h
      exact (c27_connected_partial hg hci v ((hci' v).2 hi) hx T hT p q d hp h.1).2.1 h.2
  have hent : ∀ p, g.In p → (g.entry v p ↔ ev v (g.at' p).isInput = true) := by
    intro p hp
    rw [(c24_markers_partial hg (by rw [hgd]; exact hw) (by rw [hgd]; exact hh) hci v ((hci' v).2 hi) p hp).1]
    exact exists_congr fun d => and_congr_right fun _ => (nb_none_outside hg hedge hp d).1
  have hfed : ∀ p d, g.In p → (FedAt g.In g.nb (Connected g.nb T) (fun p => ev v (g.at' p).isInput = true) p d ↔
      FedAt g.In g.nb (g.hands v) (g.entry v) p d) := by
    intro p d hp
    unfold FedAt
    rw [hent p hp]
    exact or_congr (exists_congr fun r => and_congr_right fun hr => hconn r hr p d) Iff.rfl
  have hF' : Carries g.In g.nb T (g.hands v) (g.entry v) F := by
    refine ⟨fun p q d hp h hs => hF.surface p q d hp ((hconn p hp q d).2 h) hs, hF.under, fun p q d hp hq hpr r hr => ?_⟩
    have := hF.splitter p q d hp hq hpr r (hr.imp (hconn p hp r d).2 (hconn q hq r d).2)
    unfold gets outlets at this ⊢
    simp only [hfed p d hp, hfed q d hq, hconn p hp, hconn q hq] at this
    exact this
  obtain ⟨flow, hflow⟩ := h3 F hF'
  have hleave : ∀ p, g.In p → LeavesAt g.nb T p → g.leave v p := by
    rintro p hp ⟨d, hd, hn⟩
    refine ⟨d, ((hlay p hp).emits_iff ((hlay p hp).isSplitter_false ?_) d).2 hd, hn⟩
    rintro ⟨e, b, ht⟩
    rw [ht] at hd
    cases (show e = d from hd)
    have hmem := (g.mem_cells p).2 hp
    cases b with
    | true =>
      obtain ⟨k, hk⟩ := (hR.heads p hmem).2 ⟨d, ht⟩
      obtain ⟨_, p', _, _, h1, _⟩ := hR.wired p hmem k d hk ht
      rw [hn] at h1; cases h1
    | false =>
      obtain ⟨p0, hp0, hpr⟩ := hpair.tail p d hp ht
      obtain ⟨k, hk⟩ := (hR.heads p0 ((g.mem_cells p0).2 hp0)).2 ⟨d, hpr.1⟩
      obtain ⟨q, _, q', hpr', _, h1, _⟩ := hR.wired p0 ((g.mem_cells p0).2 hp0) k d hk hpr.1
      have := hpr.2.1.symm.trans hpr'.2.1
      cases this
      rw [hn] at h1; cases h1
  intro p q hp hq h1 h2
  have mem : ∀ r, g.In r → LeavesAt g.nb T r → F r ∈ (((g.cells.filter fun p => g.leave v p).map F : List ℚ) : Multiset ℚ) := by
    intro r hr h
    exact Multiset.mem_coe.2 (List.mem_map.2 ⟨r, List.mem_filter.2 ⟨(g.mem_cells r).2 hr, by simpa using hleave r hr h⟩, rfl⟩)
  exact hbal flow _ _ hflow _ (mem p hp h1) _ (mem q hq h2)

end

/-! ### The networks of `network.py` are balancers in this sense too -/

theorem perm_of_map {flow : List (Node × Amounts)} {n : Network} (h : (flow.map Prod.fst).Perm n) :
    ∃ flow' : List (Node × Amounts), flow'.Perm flow ∧ flow'.map Prod.fst = n := by
  generalize hm : flow.map Prod.fst = m at h
  induction h generalizing flow with
  | nil => exact ⟨flow, .refl _, hm⟩
  | cons x _ ih =>
    cases flow with
    | nil => cases hm
    | cons y flow =>
      simp only [List.map_cons, List.cons.injEq] at hm
      obtain ⟨f', h1, h2⟩ := ih hm.2
      exact ⟨y :: f', h1.cons y, by rw [List.map_cons, h2, hm.1]⟩
  | swap x y l =>
    cases flow with
    | nil => cases hm
    | cons u flow =>
      cases flow with
      | nil => simp at hm
      | cons w flow =>
        simp only [List.map_cons, List.cons.injEq] at hm
        exact ⟨w :: u :: flow, .swap _ _ _, by simp [hm]⟩
  | trans _ _ ih1 ih2 =>
    obtain ⟨f1, a, b⟩ := ih1 hm
    obtain ⟨f2, c, d⟩ := ih2 b
    exact ⟨f2, c.trans a, d⟩

theorem arriving_perm {f f' : List (Node × Amounts)} (h : f.Perm f') (c : Colour) : arriving f c = arriving f' c := by
  unfold arriving
  exact Multiset.coe_eq_coe.2 ((List.Perm.flatMap_right _ h).filterMap _)

theorem leaving_perm {f f' : List (Node × Amounts)} (h : f.Perm f') (c : Colour) : leaving f c = leaving f' c := by
  unfold leaving
  exact Multiset.coe_eq_coe.2 ((List.Perm.flatMap_right _ h).filterMap _)

theorem steady_of_networkFlow {n n' : Network} (hp : n'.Perm n) (hn : ∀ c ∈ insOf n ++ outsOf n, c ≠ none) {a b : Int}
    {flow : List (Node × Amounts)} {inputs outputs : Multiset ℚ} (h : NetworkFlow n' a b flow inputs outputs) :
    ∃ flow', SteadyFlow n a b flow' inputs outputs := by
  obtain ⟨flow', h1, h2⟩ := perm_of_map (h.nodes.trans hp)
  refine ⟨flow', h2, fun x hx => ?_, fun c => ?_⟩
  · have hs := h.shares x (h1.mem_iff.1 hx)
    have hmem : x.1 ∈ n := h2 ▸ List.mem_map.2 ⟨x, hx, rfl⟩
    have hne : ∀ c ∈ [x.1.2.1, x.1.2.2], c ≠ none := fun c hc => hn c (List.mem_append.2 (.inr (List.mem_flatMap.2 ⟨x.1, hmem, hc⟩)))
    have n1 := hne x.1.2.1 (by simp)
    have n2 := hne x.1.2.2 (by simp)
    have e : x.1.outputs = 2 := by
      unfold Node.outputs
      rw [List.countP_cons, List.countP_cons, List.countP_nil, if_pos (Option.isSome_iff_ne_none.2 n1),
        if_pos (Option.isSome_iff_ne_none.2 n2)]
    have o1 := hs.out1
    have o2 := hs.out2
    rw [if_neg n1, e] at o1
    rw [if_neg n2, e] at o2
    push_cast at o1 o2
    exact ⟨by linarith, by linarith⟩
  · rw [leaving_perm h1, arriving_perm h1]
    exact h.connected c

/-- C77: the networks that `network.py` creates are balancers, so `c77_balances_partial` applies to them: what is printed for them
balances any number of belts. -/
theorem c77_benes (ord : Nat → List Colour → List Colour) (hord : ∀ k, SetOrder (ord k)) (size : Nat) (h : 2 ≤ size)
    (n : Network) (hn : createBenes ord size = .ok n) (net : PyDict Node Nat) (hnet : (elements net).Perm n) (a p b q : Int)
    (hE : Ends (elements net) a p b q) : IsBalancer (elements net) a b := by
  obtain ⟨n', a', b', e, -, hg⟩ := createBenes_good ord hord size h
  rw [hn] at e
  simp only [Except.ok.injEq] at e
  subst e
  have hsur : ∀ c, surplus (elements net) c = surplus n c := by
    intro c
    have h1 : (insOf (elements net)).Perm (insOf n) := List.Perm.flatMap_right _ hnet
    have h2 : (outsOf (elements net)).Perm (outsOf n) := List.Perm.flatMap_right _ hnet
    unfold surplus
    rw [h1.count_eq, h2.count_eq]
  have hio : getInputOutputColours n = .ok ((a, p), (b, q)) := (gio_iff _ _ _ _ _).2
    ⟨hE.pos, hE.neg, hsur _ ▸ hE.input, hsur _ ▸ hE.output, fun c h1 h2 => hsur _ ▸ hE.rest c h1 h2⟩
  intro flow inputs outputs hf x hx y hy
  obtain ⟨flow', hs⟩ := steady_of_networkFlow hnet hg.none_ hf
  obtain ⟨_, _, h3⟩ := c63_balances ord hord size h n hn a p b q hio flow' inputs outputs hs
  rw [h3 x hx, h3 y hy]

end FSat
