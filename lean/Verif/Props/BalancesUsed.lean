import Verif.Props.Reported
import Verif.Props.PrintPasted
/-!
# C77, C103, C106: networks whose splitters have all ends in use

A printed layout does what its network does unless a splitter stands directly in front of another.  If all splitters of the network have two
outputs, or all have two inputs, this is no exception.
-/

namespace FSat

section
variable {lib : CardLib} {net : PyDict Node Nat} {width height : Nat} {ugLen : Option Nat} {g : Grid} {node : Nat × Nat → List Lit} {cs : Cnf}
  {s' : Nat}

open Classical in
/-- C77: a printed layout does what its network does.  There are as many inputs and outputs as the network has, and whatever is supplied at the
inputs of the solution, some flow through the network takes the same in and gives the same out. -/
theorem c77_flow_used (hl : lib.Correct) (hv : net.Valid) (hpos : ∀ c ∈ netColours net, 0 ≤ c)
    (hc : createBalancer lib net width height ugLen = .ok (g, node, cs, s')) (hw : 2 ≤ width) (hh : 2 ≤ height) (v : Asg)
    (hs : Sat v cs) (hx : Sat v (preventIntersection g)) (T : Nat × Nat → Tile) (hT : Decodes g v T) (a m b n : Int)
    (hE : Ends (elements net) a m b n) (hX : AllOutputsUsed (elements net) ∨ AllInputsUsed (elements net) ∨ Apart g.In g.nb T) :
    (g.cells.filter fun p => ev v (g.at' p).isInput = true).length = m ∧ (g.cells.filter fun p => LeavesAt g.nb T p).length = n ∧
    ∀ F, Carries g.In g.nb T (Connected g.nb T) (fun p => ev v (g.at' p).isInput = true) F →
      ∃ flow, NetworkFlow (elements net) a b flow ((g.cells.filter fun p => ev v (g.at' p).isInput = true).map F : List ℚ)
        ((g.cells.filter fun p => LeavesAt g.nb T p).map F : List ℚ) := by
  obtain ⟨c1, c2, h3⟩ := c77_flow hl hv hpos hc hw hh v hs hx T hT a m b n hE
  obtain ⟨k, a', m', b', n', hk, hgd, hw', hh', hne, hnd, hE', hok, hcol, henc⟩ := createBalancer_enc hl hpos hc
  obtain ⟨hi, _, hbu, hu, hcl, hB⟩ := henc.sound v hs
  have hg : g.WF := hgd ▸ mkGrid_wf hw' hh' _ _ _ (by intro n h; cases h; omega) _ _
  have hedge : g.edge = ⟨false, false⟩ := by rw [hgd]; rfl
  have hlay := lays_of_decodes hi hT
  have hpair := (splitterSem_iff hg hlay).1 hi.splitter
  have hR := hB.realises hv hlay hpair
  obtain ⟨ci, hci, hci'⟩ := init_iff hg
  have hconn : ∀ p, g.In p → ∀ q d, (Connected g.nb T p q d ↔ g.hands v p q d) := by
    intro p hp q d
    constructor
    · intro h
      refine ⟨h.1, ?_⟩
      obtain ⟨same, -, far⟩ := c27_connected_partial hg hci v ((hci' v).2 hi) hx T hT p q d hp h.1
      by_cases hns : (T p).IsSplitter ∧ (T q).IsSplitter
      · obtain ⟨⟨e, b, ht⟩, e', b', ht'⟩ := hns
        have hd : e = d := by have := h.2.1; rw [ht] at this; exact this
        have hd' : e' = d := by have := h.2.2; rw [ht'] at this; exact this
        subst hd hd'
        obtain ⟨k, a1, -, -, a2⟩ := half_node hpair hR hp ht
        obtain ⟨k', b1, -, b2, -⟩ := half_node hpair hR (g.nb_in hg h.1) ht'
        rcases hX with hX | hX | hX
        · exact a2 (hX k a1)
        · rw [same]
          exact b2 (hX k' b1)
        · exact absurd ⟨⟨_, _, ht⟩, _, _, ht'⟩ (hX p q e' hp h)
      · exact far hns h
    · intro h
      exact (c27_connected_partial hg hci v ((hci' v).2 hi) hx T hT p q d hp h.1).2.1 h.2
  have hent : ∀ p, g.In p → (g.entry v p ↔ ev v (g.at' p).isInput = true) := by
    intro p hp
    rw [(c24_markers_partial hg (by rw [hgd]; exact hw) (by rw [hgd]; exact hh) hci v ((hci' v).2 hi) p hp).1]
    exact exists_congr fun d => and_congr_right fun _ => (nb_none_outside hg hedge hp d).1
  have hfed : ∀ p d, g.In p → (FedAt g.In g.nb (Connected g.nb T) (fun p => ev v (g.at' p).isInput = true) p d ↔
      FedAt g.In g.nb (g.hands v) (g.entry v) p d) := by
    intro p d hp
    unfold FedAt
    rw [hent p hp]
    exact or_congr (exists_congr fun r => and_congr_right fun hr => hconn r hr p d) Iff.rfl
  have hleave : ∀ p, g.In p → (g.leave v p ↔ LeavesAt g.nb T p) := by
    intro p hp
    constructor
    · rintro ⟨d, hd, hn⟩
      exact ⟨d, (hlay p hp).out_emits hd, hn⟩
    · rintro ⟨d, hd, hn⟩
      refine ⟨d, ((hlay p hp).emits_iff ((hlay p hp).isSplitter_false ?_) d).2 hd, hn⟩
      rintro ⟨e, b, ht⟩
      rw [ht] at hd
      cases (show e = d from hd)
      obtain ⟨k, -, ⟨q, hq⟩, -⟩ := half_node hpair hR hp ht
      rw [hn] at hq
      cases hq
  have e1 : (g.cells.filter fun p => g.entry v p) = g.cells.filter fun p => ev v (g.at' p).isInput = true :=
    List.filter_congr fun p hp => by rw [decide_eq_decide]; exact hent p ((g.mem_cells p).1 hp)
  have e2 : (g.cells.filter fun p => g.leave v p) = g.cells.filter fun p => LeavesAt g.nb T p :=
    List.filter_congr fun p hp => by rw [decide_eq_decide]; exact hleave p ((g.mem_cells p).1 hp)
  rw [List.countP_eq_length_filter, e1] at c1
  rw [List.countP_eq_length_filter, e2] at c2
  rw [e1, e2] at h3
  refine ⟨c1, c2, fun F hF => h3 F ?_⟩
  refine ⟨fun p q d hp h hs => hF.surface p q d hp ((hconn p hp q d).2 h) hs, hF.under, fun p q d hp hq hpr r hr => ?_⟩
  have := hF.splitter p q d hp hq hpr r (hr.imp (hconn p hp r d).2 (hconn q hq r d).2)
  unfold gets outlets at this ⊢
  simp only [hfed p d hp, hfed q d hq, hconn p hp, hconn q hq] at this
  exact this

/-- C77: a layout printed for a balancer is a balancer in the game. Whatever is supplied at the inputs of the solution, all belts leaving the
grid carry the same. -/
theorem c77_balances_used (hl : lib.Correct) (hv : net.Valid) (hpos : ∀ c ∈ netColours net, 0 ≤ c)
    (hc : createBalancer lib net width height ugLen = .ok (g, node, cs, s')) (hw : 2 ≤ width) (hh : 2 ≤ height) (v : Asg)
    (hs : Sat v cs) (hx : Sat v (preventIntersection g)) (T : Nat × Nat → Tile) (hT : Decodes g v T) (a m b n : Int)
    (hE : Ends (elements net) a m b n) (hbal : IsBalancer (elements net) a b)
    (hX : AllOutputsUsed (elements net) ∨ AllInputsUsed (elements net) ∨ Apart g.In g.nb T) (F : Nat × Nat → ℚ)
    (hF : Carries g.In g.nb T (Connected g.nb T) (fun p => ev v (g.at' p).isInput = true) F) :
    ∀ p q, g.In p → g.In q → LeavesAt g.nb T p → LeavesAt g.nb T q → F p = F q := by
  classical
  obtain ⟨flow, hflow⟩ := (c77_flow_used hl hv hpos hc hw hh v hs hx T hT a m b n hE hX).2.2 F hF
  intro p q hp hq h1 h2
  have mem : ∀ r, g.In r → LeavesAt g.nb T r → F r ∈ (((g.cells.filter fun p => LeavesAt g.nb T p).map F : List ℚ) : Multiset ℚ) :=
    fun r hr h => Multiset.mem_coe.2 (List.mem_map.2 ⟨r, List.mem_filter.2 ⟨(g.mem_cells r).2 hr, by simpa using h⟩, rfl⟩)
  exact hbal flow _ _ hflow _ (mem p hp h1) _ (mem q hq h2)

variable {o : BalancerOptions}

/-- C103: the blueprint of a printed balancer is a balancer. -/
theorem c103_balances_used (hl : lib.Correct) (hv : net.Valid) (hpos : ∀ c ∈ netColours net, 0 ≤ c) (hw : 2 ≤ width) (hh : 2 ≤ height)
    (hc : balancerMain lib net width height ugLen o = .ok (g, node, cs, s')) (v : Asg) (hs : Sat v cs) (T : Nat × Nat → Tile)
    (hT : Decodes g v T) (hk : ∃ p, g.In p ∧ T p ≠ .empty) (a m a' n : Int) (hE : Ends (elements net) a m a' n)
    (hbal : IsBalancer (elements net) a a')
    (hX : AllOutputsUsed (elements net) ∨ AllInputsUsed (elements net) ∨ Apart g.In g.nb T)
    (c : Codec) (label : Option (List Char)) (level : BeltLevel) {line : List Char} (hline : SolutionLine line (layoutArr g T)) :
    ∃ text B, encodeLine c label level line = .ok text ∧ PastedAs c text B ∧ ∀ F : Int × Int → ℚ,
      Carries (layoutArr g T).In (layoutArr g T).nb B (Connected (layoutArr g T).nb B) (g.inputAt v) F →
        ∀ p q, (layoutArr g T).In p → (layoutArr g T).In q → LeavesAt (layoutArr g T).nb B p → LeavesAt (layoutArr g T).nb B q → F p = F q := by
  obtain ⟨text, B, h1, h2, _, _, h5, h6⟩ := c103_pasted hl hpos hw hh hc v hs T hT hk c label level hline
  refine ⟨text, B, h1, h2, fun F hF p q hp hq hlp hlq => ?_⟩
  obtain ⟨P, hP⟩ := balancerMain_parts hc
  have hH := (hP v).1 hs
  obtain ⟨p, hp', rfl⟩ := (inArea T p).1 hp
  obtain ⟨q, hq', rfl⟩ := (inArea T q).1 hq
  exact c77_balances_used hl hv hpos P.hbase hw hh v hH.1 hH.2.1 T hT a m a' n hE hbal hX _ ((h6 F).1 hF) p q hp' hq'
    ((h5 p hp').1 hlp) ((h5 q hq').1 hlq)

end

/-- C106: `belt_balancer | blueprint encode` prints nothing if there is no balancer, and otherwise one string.  Pasted, it is a balancer:
whatever is supplied at the inputs, all belts leaving the area carry the same. -/
theorem c106_pasted_used {lib : CardLib} (hl : lib.Correct) {net : PyDict Node Nat} (hv : net.Valid) (hpos : ∀ c ∈ netColours net, 0 ≤ c)
    (hcnt : ∀ e ∈ net, 0 < e.2) {width height : Nat} (hw : 2 ≤ width) (hh : 2 ≤ height) {ugLen : Option Nat} {o : BalancerOptions} {g : Grid}
    {node : Nat × Nat → List Lit} {cs : Cnf} {s : Nat} (hc : balancerMain lib net width height ugLen o = .ok (g, node, cs, s))
    {solver : Oracle} (hs : CorrectSolver solver) (hf : CompleteSolver solver) (fuel : Nat) {a i b j : Int}
    (hE : Ends (elements net) a i b j) (hbal : IsBalancer (elements net) a b) (c : Codec) (label : Option (List Char)) (level : BeltLevel) :
    let printed := balancerRun lib net width height ugLen o solver false fuel
    printed.ending = .finished ∧
    ((printed.out = [] ∧ (¬ ∃ v, Sat v cs) ∧ blueprintEncode c label level printed.out = ⟨[], .endOfInput⟩) ∨
    ∃ v T text B, Sat v cs ∧ Decodes g v T ∧ blueprintEncode c label level printed.out = ⟨textOf [text], .endOfInput⟩ ∧
      PastedAs c text B ∧ (AllOutputsUsed (elements net) ∨ AllInputsUsed (elements net) ∨ Apart g.In g.nb T → ∀ F : Int × Int → ℚ,
        Carries (layoutArr g T).In (layoutArr g T).nb B (Connected (layoutArr g T).nb B) (g.inputAt v) F →
          ∀ p q, (layoutArr g T).In p → (layoutArr g T).In q → LeavesAt (layoutArr g T).nb B p → LeavesAt (layoutArr g T).nb B q →
            F p = F q)) := by
  intro printed
  have hprinted : printed = balancerRun lib net width height ugLen o solver false fuel := rfl
  unfold balancerRun itersolve itersolveFrom at hprinted
  rw [hc] at hprinted
  simp only [Bool.false_eq_true, if_false] at hprinted
  cases hq : solver 0 cs with
  | none =>
    rw [hq] at hprinted
    simp only [printLoop] at hprinted
    rw [hprinted]
    exact ⟨rfl, Or.inl ⟨rfl, hs.unsat 0 cs hq, rfl⟩⟩
  | some m =>
    obtain ⟨l, T, e1, hT, e3⟩ := balancer_prints hl hpos hc (hs.model 0 cs m hq) (hf 0 cs m hq)
    rw [hq] at hprinted
    simp only [printLoop, e1, Bool.false_eq_true, if_false] at hprinted
    have hprinted : printed = ⟨textOf [l], .finished⟩ := hprinted.trans (by simp [textOf])
    have hsat := (hs.model 0 cs m hq).asg
    rw [hprinted]
    refine ⟨rfl, Or.inr ⟨asgOf m, T, ?_⟩⟩
    obtain ⟨text, B, h1, h2, _, _, h5, h6⟩ := c103_pasted hl hpos hw hh hc _ hsat T hT (printed_nonempty hl hv hpos hcnt hc hsat hT) c label level
      (c96_printed e3)
    refine ⟨text, B, hsat, hT, ?_, h2, fun hX F hF p q hp hqq hlp hlq => ?_⟩
    · unfold blueprintEncode
      rw [inputLines_of (isInput_textOf (by simpa using e3.line))]
      simp [lineLoop, h1, textOf]
    · obtain ⟨P, hP⟩ := balancerMain_parts hc
      have hH := (hP (asgOf m)).1 hsat
      obtain ⟨p, hp', rfl⟩ := (inArea T p).1 hp
      obtain ⟨q, hq', rfl⟩ := (inArea T q).1 hqq
      exact c77_balances_used hl hv hpos P.hbase hw hh _ hH.1 hH.2.1 T hT _ _ _ _ hE hbal hX _ ((h6 F).1 hF) p q hp' hq'
        ((h5 p hp').1 hlp) ((h5 q hq').1 hlq)

/-! ### The networks that come with the program -/

theorem isBalancer_dedup {n : Network} {a b : Int} {p q : Nat} (hq : 0 < q) (hd : DividesEvenly n a p b q) :
    IsBalancer (elements (deduplicateNetwork n)) a b := by
  intro flow inputs outputs hf x hx y hy
  obtain ⟨flow', hf'⟩ := flow_of_dedup hf
  have h := (hd _ _ _ hf').2.2
  have hq' : (q : ℚ) ≠ 0 := by positivity
  exact mul_right_cancel₀ hq' ((h x hx).trans (h y hy).symm)

/-- What the programs need to know of these networks. -/
theorem shipped_dedup {x : ShippedNetwork} (hx : x ∈ shippedNetworks) {n : Network} (hn : openNetwork x.text.toList = .ok n) :
    (deduplicateNetwork n).Valid ∧ (∀ c ∈ netColours (deduplicateNetwork n), 0 ≤ c) ∧ (∀ e ∈ deduplicateNetwork n, 0 < e.2) ∧
    ∃ a b, Ends (elements (deduplicateNetwork n)) a x.inputs b x.outputs ∧ 0 < x.outputs ∧ DividesEvenly n a x.inputs b x.outputs := by
  obtain ⟨n', a, b, hn', hpos, hio, hd, -⟩ := c93_shipped x hx
  rw [hn] at hn'
  obtain rfl := Except.ok.inj hn'
  have hE := ends_dedup ((gio_iff _ _ _ _ _).1 hio)
  refine ⟨(counter_spec _ [] PyDict.valid_nil).1, dedup_colours fun k hk c hc => hpos c (List.mem_append.2 ?_), dedup_pos n, a, b, hE,
    by have := hE.neg; omega, hd⟩
  simp only [Node.HasColour, List.mem_cons, List.not_mem_nil, or_false] at hc
  simp only [insOf, outsOf, List.mem_flatMap, List.mem_cons, List.not_mem_nil, or_false]
  rcases hc with h | h | h | h
  · exact .inl ⟨k, hk, .inl h⟩
  · exact .inl ⟨k, hk, .inr h⟩
  · exact .inr ⟨k, hk, .inl h⟩
  · exact .inr ⟨k, hk, .inr h⟩

open Classical in
/-- C77, of the networks that come with the program: a layout that is printed has as many inputs and outputs as the name of the network says,
and each output carries the same share of everything that is supplied.  For the networks with one input and five outputs, and the other way round, this is only shown if no
splitter stands directly in front of another. -/
theorem c77_shipped_partial {lib : CardLib} (hl : lib.Correct) {x : ShippedNetwork} (hx : x ∈ shippedNetworks) {n : Network}
    (hn : openNetwork x.text.toList = .ok n) {width height : Nat} (hw : 2 ≤ width) (hh : 2 ≤ height) {ugLen : Option Nat} {o : BalancerOptions}
    {g : Grid} {node : Nat × Nat → List Lit} {cs : Cnf} {s : Nat}
    (hc : balancerMain lib (deduplicateNetwork n) width height ugLen o = .ok (g, node, cs, s)) (v : Asg) (hs : Sat v cs)
    (T : Nat × Nat → Tile) (hT : Decodes g v T)
    (hX : ((x.inputs, x.outputs) ≠ (1, 5) ∧ (x.inputs, x.outputs) ≠ (5, 1)) ∨ Apart g.In g.nb T) :
    (g.cells.filter fun p => ev v (g.at' p).isInput = true).length = x.inputs ∧
    (g.cells.filter fun p => LeavesAt g.nb T p).length = x.outputs ∧
    ∀ F, Carries g.In g.nb T (Connected g.nb T) (fun p => ev v (g.at' p).isInput = true) F → ∀ p, g.In p → LeavesAt g.nb T p →
      F p * x.outputs = ((g.cells.filter fun p => ev v (g.at' p).isInput = true).map F).sum := by
  obtain ⟨hv, hpos, -, a, b, hE, -, hd⟩ := shipped_dedup hx hn
  obtain ⟨P, hP⟩ := balancerMain_parts hc
  have hH := (hP v).1 hs
  have hX' : AllOutputsUsed (elements (deduplicateNetwork n)) ∨ AllInputsUsed (elements (deduplicateNetwork n)) ∨ Apart g.In g.nb T := by
    rcases hX with h | h
    · exact (shipped_used x hx n hn h.1 h.2).elim (fun h => .inl (used_dedup.1 h)) fun h => .inr (.inl (used_dedup.2 h))
    · exact .inr (.inr h)
  obtain ⟨k1, k2, k3⟩ := c77_flow_used hl hv hpos P.hbase hw hh v hH.1 hH.2.1 T hT a _ b _ hE hX'
  refine ⟨by exact_mod_cast k1, by exact_mod_cast k2, fun F hF p hp hpl => ?_⟩
  obtain ⟨flow, hflow⟩ := k3 F hF
  obtain ⟨flow', hflow'⟩ := flow_of_dedup hflow
  have h3 := (hd _ _ _ hflow').2.2 (F p) (Multiset.mem_coe.2 (List.mem_map_of_mem (List.mem_filter.2 ⟨(g.mem_cells p).2 hp, by simpa using hpl⟩)))
  rw [h3, Multiset.sum_coe]

/-- C106, of the networks that come with the program. -/
theorem c106_shipped_partial {lib : CardLib} (hl : lib.Correct) {x : ShippedNetwork} (hx : x ∈ shippedNetworks) {n : Network}
    (hn : openNetwork x.text.toList = .ok n) {width height : Nat} (hw : 2 ≤ width) (hh : 2 ≤ height) {ugLen : Option Nat} {o : BalancerOptions}
    {g : Grid} {node : Nat × Nat → List Lit} {cs : Cnf} {s : Nat}
    (hc : balancerMain lib (deduplicateNetwork n) width height ugLen o = .ok (g, node, cs, s))
    {solver : Oracle} (hs : CorrectSolver solver) (hf : CompleteSolver solver) (fuel : Nat) (c : Codec) (label : Option (List Char))
    (level : BeltLevel) :
    let printed := balancerRun lib (deduplicateNetwork n) width height ugLen o solver false fuel
    printed.ending = .finished ∧
    ((printed.out = [] ∧ (¬ ∃ v, Sat v cs) ∧ blueprintEncode c label level printed.out = ⟨[], .endOfInput⟩) ∨
    ∃ v T text B, Sat v cs ∧ Decodes g v T ∧ blueprintEncode c label level printed.out = ⟨textOf [text], .endOfInput⟩ ∧
      PastedAs c text B ∧ (((x.inputs, x.outputs) ≠ (1, 5) ∧ (x.inputs, x.outputs) ≠ (5, 1)) ∨ Apart g.In g.nb T → ∀ F : Int × Int → ℚ,
        Carries (layoutArr g T).In (layoutArr g T).nb B (Connected (layoutArr g T).nb B) (g.inputAt v) F →
          ∀ p q, (layoutArr g T).In p → (layoutArr g T).In q → LeavesAt (layoutArr g T).nb B p → LeavesAt (layoutArr g T).nb B q →
            F p = F q)) := by
  intro printed
  obtain ⟨hv, hpos, hcnt, a, b, hE, hq, hd⟩ := shipped_dedup hx hn
  obtain ⟨h1, h2⟩ := c106_pasted_used hl hv hpos hcnt hw hh hc hs hf fuel hE (isBalancer_dedup hq hd) c label level
  refine ⟨h1, h2.imp id ?_⟩
  rintro ⟨v, T, text, B, k1, k2, k3, k4, k5⟩
  refine ⟨v, T, text, B, k1, k2, k3, k4, fun hX => k5 ?_⟩
  rcases hX with h | h
  · exact (shipped_used x hx n hn h.1 h.2).elim (fun h => .inl (used_dedup.1 h)) fun h => .inr (.inl (used_dedup.2 h))
  · exact .inr (.inr h)

/-! ### A case: networks/2x2, one splitter, on three columns -/

/-- Reading the file gives the network of the case of C77, and all ends of its splitter are in use. -/
theorem open2x2 : ∃ n, openNetwork net2x2.text.toList = .ok n ∧ deduplicateNetwork n = exOne ∧ AllOutputsUsed (elements exOne) ∧
    AllInputsUsed (elements exOne) := by
  refine ⟨[((some 0, some 0), (some 1, some 1))], by decide +kernel, by decide +kernel, ?_, ?_⟩ <;> intro k hk <;>
    (obtain rfl : k = ((some 0, some 0), (some 1, some 1)) := by simpa [elements, exOne] using hk) <;> simp

/-- The hypotheses of the theorems above are met, there is a layout, and it carries something in which the inputs differ. -/
example : net2x2 ∈ shippedNetworks ∧ ((net2x2.inputs, net2x2.outputs) ≠ (1, 5) ∧ (net2x2.inputs, net2x2.outputs) ≠ (5, 1)) ∧
    ∃ n node cs s', openNetwork net2x2.text.toList = .ok n ∧
      balancerMain naiveLib (deduplicateNetwork n) 3 2 (some 4) {} = .ok (exShareGrid, node, cs, s') ∧ Sat exShareAsg cs ∧
      Decodes exShareGrid exShareAsg exShareLayout ∧
      Carries exShareGrid.In exShareGrid.nb exShareLayout (Connected exShareGrid.nb exShareLayout)
        (fun p => ev exShareAsg (exShareGrid.at' p).isInput = true) exShareFlow := by
  obtain ⟨n, h1, h2, -⟩ := open2x2
  obtain ⟨_, _, _, -, -, k3, -, -, k6, -, -, -, k10⟩ := exShare_case
  obtain ⟨g, node, cs, s', h8, h9⟩ := balancerCnf_ok exShareMain_sat
  have hg : g = exShareGrid := by
    obtain ⟨P, -⟩ := balancerMain_parts h8
    have := P.hbase.symm.trans k3
    simp only [Except.ok.injEq, Prod.mk.injEq] at this
    exact this.1
  subst hg
  exact ⟨by simp [shippedNetworks], by decide, n, node, cs, s', h1, by rw [h2]; exact h8, h9, k6, k10⟩

end FSat
