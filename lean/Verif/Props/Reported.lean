import Verif.Lemmas.Reported
import Verif.Props.Query
import Verif.Props.ShippedNetworks
import Verif.Lemmas.ShippedUsed
/-!
# C113: the balancers that `calculate_optimal query` reports, as blueprints, divide evenly
-/

namespace FSat

/-! ### The layouts -/

/-- A grid of this size. -/
def plainGrid (w h : Nat) : Grid := mkGrid w h ⟨false, false⟩ none none .nil 0

theorem ends_dedup {n : Network} {a p b q : Int} (hE : Ends n a p b q) : Ends (elements (deduplicateNetwork n)) a p b q :=
  (gio_iff _ _ _ _ _).1 ((c39_ends n _ _ _ _).2 ((gio_iff _ _ _ _ _).2 hE))

theorem used_dedup {n : Network} : (AllOutputsUsed n → AllOutputsUsed (elements (deduplicateNetwork n))) ∧
    (AllInputsUsed n → AllInputsUsed (elements (deduplicateNetwork n))) := by
  have key : ∀ k ∈ elements (deduplicateNetwork n), ∃ x ∈ n, sortNode x = k := fun k hk =>
    List.mem_map.1 ((c39_elements n).1.mem_iff.1 hk)
  have side : ∀ s : Colour × Colour, s.1 ≠ none ∧ s.2 ≠ none → (sortSide s).1 ≠ none ∧ (sortSide s).2 ≠ none := by
    intro s hs
    rcases sortSide_or s with e | e <;> rw [e]
    · exact hs
    · exact ⟨hs.2, hs.1⟩
  constructor
  · intro h k hk
    obtain ⟨x, hx, rfl⟩ := key k hk
    exact side _ (h x hx)
  · intro h k hk
    obtain ⟨x, hx, rfl⟩ := key k hk
    exact side _ (h x hx)

/-- What is known of a balancer, with the grid in place of its size. -/
theorem balancer_parts {n : Network} {size : Size} {T : Nat × Nat → Tile} (hT : BalancerOfSize n size T) {a p b q : Int} (hE : Ends n a p b q) :
    ∃ (g : Grid) (F : Flow (Nat × Nat)) (lab : Nat × Nat → Option Node), g.width = size.2.1.toNat ∧ g.height = size.2.2.toNat ∧ g.WF ∧
      g.edge = ⟨false, false⟩ ∧ g.nb = boxNb size.2.1.toNat size.2.2.toNat ∧
      BasicRules g.In g.nb T (fun _ _ => False) (g.shut (.ofBool true)) (some size.1.toNat) ∧
      Implements g.In g.nb T F g.cells (elements (deduplicateNetwork n)) lab ∧ EndsInColumns g T F := by
  obtain ⟨hR, F, lab, hI, hO⟩ := hT
  have hpos : 0 < size.2.1.toNat ∧ 0 < size.2.2.toNat := by
    obtain ⟨_, i, _, _, hE', h1, -⟩ := hI.ends
    have := hE'.pos
    obtain ⟨r, hr, -⟩ := List.countP_pos_iff.1 (show 0 < (boxCells size.2.1.toNat size.2.2.toNat).countP
      (F.comesIn (boxNb size.2.1.toNat size.2.2.toNat)) by omega)
    have := (mem_boxCells r).1 hr
    unfold boxIn at this
    omega
  have hg : (plainGrid size.2.1.toNat size.2.2.toNat).WF := mkGrid_wf hpos.1 hpos.2 _ _ _ (by intro _ h; cases h) _ _
  have he : (plainGrid size.2.1.toNat size.2.2.toNat).edge = ⟨false, false⟩ := rfl
  have e1 : (plainGrid size.2.1.toNat size.2.2.toNat).nb = boxNb size.2.1.toNat size.2.2.toNat := nb_box hg he
  have e2 : (plainGrid size.2.1.toNat size.2.2.toNat).shut (.ofBool true) = boxRim size.2.1.toNat size.2.2.toNat := shut_box _
  have hI' : Implements (plainGrid size.2.1.toNat size.2.2.toNat).In (plainGrid size.2.1.toNat size.2.2.toNat).nb T F
      (plainGrid size.2.1.toNat size.2.2.toNat).cells (elements (deduplicateNetwork n)) lab := by
    rw [e1]; exact hI
  refine ⟨plainGrid size.2.1.toNat size.2.2.toNat, F, lab, rfl, rfl, hg, he, e1, ?_, hI', ?_⟩
  · rw [e1, e2]; exact hR
  · exact ends_in_columns hg he hI' (ends_dedup hE) (hO.ends _ _ _ _ (ends_dedup hE))

/-- C113: in a balancer of any size for a network that divides evenly, every output carries the same part of everything that is supplied,
if all splitters of the network have two outputs, or all have two inputs, or no splitter of the layout stands directly in front of another. -/
theorem c113_even {n : Network} {size : Size} {T : Nat × Nat → Tile} (hT : BalancerOfSize n size T) {a b : Int} {p q : Nat}
    (hE : Ends n a p b q) (hD : DividesEvenly n a p b q)
    (hX : AllOutputsUsed n ∨ AllInputsUsed n ∨ Apart (boxIn size.2.1.toNat size.2.2.toNat) (boxNb size.2.1.toNat size.2.2.toNat) T) :
    EvenLayout size.2.1.toNat size.2.2.toNat T p q := by
  classical
  obtain ⟨g, F, lab, ew, eh, hg, he, enb, hR, hI, hC⟩ := balancer_parts hT hE
  have hE' := ends_dedup hE
  have e3 : g.In = boxIn size.2.1.toNat size.2.2.toNat := by rw [← ew, ← eh]; rfl
  have e4 : g.cells = boxCells size.2.1.toNat size.2.2.toNat := by rw [← ew, ← eh]; rfl
  have hX' : AllOutputsUsed (elements (deduplicateNetwork n)) ∨ AllInputsUsed (elements (deduplicateNetwork n)) ∨ Apart g.In g.nb T := by
    rw [e3, enb]
    exact hX.imp used_dedup.1 fun h => h.imp used_dedup.2 id
  have hin : (g.cells.filter fun p => p.1 = 0 ∧ (T p).Takes .right) = g.cells.filter fun p => EntryAt g.nb F p :=
    List.filter_congr fun r hr => by rw [decide_eq_decide]; exact (hC.entry r ((g.mem_cells r).1 hr)).symm
  have hsup : ∀ p d h, g.In p → T p = .splitter d h → g.nb p d.opp = none → (p.1 = 0 ↔ EntryAt g.nb F p) := by
    intro p d h hp ht hn
    rw [hC.entry p hp]
    refine ⟨fun h0 => ⟨h0, ?_⟩, And.left⟩
    rcases hC.first p hp h0 with h' | h'
    · exact h'
    · rw [ht] at h'; cases h'
  obtain ⟨a', i', b', k', hE2, c1, c2, -, -⟩ := hI.ends
  have ea := ((gio_iff _ _ _ _ _).2 hE').symm.trans ((gio_iff _ _ _ _ _).2 hE2)
  simp only [Except.ok.injEq, Prod.mk.injEq] at ea
  obtain ⟨⟨rfl, rfl⟩, rfl, rfl⟩ := ea
  have hout : (g.cells.filter fun p => LeavesAt g.nb T p) = g.cells.filter fun p => F.goesOut g.nb p :=
    List.filter_congr fun r hr => by
      rw [Bool.eq_iff_iff]
      simpa using (leaves_iff hR hI ((g.mem_cells r).1 hr)).trans (goesOut_iff r).symm
  unfold EvenLayout
  rw [← enb, ← e3, ← e4]
  refine ⟨?_, ?_, fun r hr hl => ?_, fun X hX r hr hl => ?_⟩
  · rw [hin, show (g.cells.filter fun p => EntryAt g.nb F p) = g.cells.filter fun p => F.comesIn g.nb p from
      List.filter_congr fun r hr => by rw [Bool.eq_iff_iff]; simpa using (comesIn_iff r).symm, ← List.countP_eq_length_filter]
    exact_mod_cast c1
  · rw [hout, ← List.countP_eq_length_filter]
    exact_mod_cast c2
  · rw [← ew]
    exact (hC.exit r hr ((leaves_iff hR hI hr).1 hl)).1
  · obtain ⟨flow, hf⟩ := layout_flow hg hR hI hE' hX' hsup hX
    obtain ⟨flow', hf'⟩ := flow_of_dedup hf
    have h3 := (hD _ _ _ hf').2.2 (X r) (Multiset.mem_coe.2 (List.mem_map_of_mem (List.mem_filter.2 ⟨(g.mem_cells r).2 hr, by simpa using hl⟩)))
    rw [h3, Multiset.sum_coe, hin]

/-! ### Blueprints -/

theorem balancer_back {n : Network} {size : Size} {T : Nat × Nat → Tile} (hT : BalancerOfSize n size T) (hE : ∃ a p b q, Ends n a p b q) :
    ((boxArr size.2.1.toNat size.2.2.toNat T).AllValid ∧ Encodable (boxArr size.2.1.toNat size.2.2.toNat T).board ∧
      ∃ p, ((boxArr size.2.1.toNat size.2.2.toNat T).board p).Kept) ∧
    ∀ B : Int × Int → Tile, (∀ p, Restored (boxArr size.2.1.toNat size.2.2.toNat T).board p (B p)) → ∀ p, B p = (boxArr size.2.1.toNat size.2.2.toNat T).board p := by
  obtain ⟨a, p, b, q, hE⟩ := hE
  obtain ⟨g, F, lab, ew, eh, hg, he, enb, hR, hI, hC⟩ := balancer_parts hT hE
  have hw : g.NoWrap := by unfold Grid.NoWrap; rw [he]; exact ⟨rfl, rfl⟩
  have ea : layoutArr g T = boxArr size.2.1.toNat size.2.2.toNat T := by rw [← ew, ← eh]; rfl
  rw [← ea]
  refine ⟨⟨valid_of_rules hR, encodable_of_rules hg hw hR, ?_⟩, fun B hB => restored_same hg hw hR (hC.straight hg he hR hI) hB⟩
  obtain ⟨_, i, _, _, hE', h1, -⟩ := hI.ends
  have := hE'.pos
  obtain ⟨r, hr, h2⟩ := List.countP_pos_iff.1 (show 0 < g.cells.countP (F.comesIn g.nb) by omega)
  have hr := (g.mem_cells r).1 hr
  refine ⟨_, kept_of_rules hR hr fun h0 => ?_⟩
  have := ((hC.entry r hr).1 ((comesIn_iff r).1 h2)).2
  rw [h0] at this
  exact this

/-- Lines that report balancers, made into blueprints and read again. -/
theorem lines_back {ul : Int} {Q : List Char × Network → Size → Prop} {ns : List (List Char × Network)} {lines : List (List Char)}
    (h : List.Forall₂ (fun e line => ∃ size, ReportsBalancer ul e.2 line size ∧ Q e size) ns lines)
    (hE : ∀ e ∈ ns, ∃ a p b q, Ends e.2 a p b q) {c : Codec} (h1 : c.OneLine) (label : Option (List Char)) (level : BeltLevel) :
    ∃ mid outs bs, blueprintEncode c label level (textOf lines) = ⟨mid, .endOfInput⟩ ∧ blueprintDecode c mid = ⟨textOf outs, .endOfInput⟩ ∧
      List.Forall₂ SolutionLine outs bs ∧
      List.Forall₂ (fun e b => ∃ size T, BalancerOfSize e.2 size T ∧ size.1 = ul ∧ Q e size ∧
        CutTo (boxArr size.2.1.toNat size.2.2.toNat T) b) ns bs := by
  obtain ⟨as, k1, k2, k3⟩ : ∃ as : List (Arr Tile), (∀ l ∈ lines, '\n' ∉ l) ∧ List.Forall₂ PrintedLine lines as ∧
      List.Forall₂ (fun e a => ∃ size T, BalancerOfSize e.2 size T ∧ size.1 = ul ∧ Q e size ∧
        a = boxArr size.2.1.toNat size.2.2.toNat T) ns as := by
    clear hE
    induction h with
    | nil => exact ⟨[], by simp, .nil, .nil⟩
    | @cons e l ns ls h _ ih =>
      obtain ⟨as, k1, k2, k3⟩ := ih
      obtain ⟨size, ⟨T, g1, g2, g3⟩, g4⟩ := h
      refine ⟨_ :: as, ?_, .cons g3 k2, .cons ⟨size, T, g1, g2, g4, rfl⟩ k3⟩
      intro l' hl'
      rcases List.mem_cons.1 hl' with rfl | hl'
      · obtain ⟨cells, -, -, e, -⟩ := g3
        rw [e]
        exact Json.dumps_line _
      · exact k1 l' hl'
  have each : ∀ a ∈ as, ∃ e ∈ ns, ∃ size T, BalancerOfSize e.2 size T ∧ a = boxArr size.2.1.toNat size.2.2.toNat T := by
    intro a ha
    clear hE h k1 k2
    induction k3 with
    | nil => cases ha
    | @cons e a' ns as h _ ih =>
      rcases List.mem_cons.1 ha with rfl | ha
      · obtain ⟨size, T, g1, -, -, g4⟩ := h
        exact ⟨e, .head _, size, T, g1, g4⟩
      · obtain ⟨e, he, h⟩ := ih ha
        exact ⟨e, .tail _ he, h⟩
  obtain ⟨mid, outs, bs, e1, e2, e3, e4⟩ := c96_blueprint h1 label level (isInput_textOf k1) (k2.imp fun _ _ h => c96_printed h) (by
    intro a ha
    obtain ⟨e, he, size, T, g1, rfl⟩ := each a ha
    exact (balancer_back g1 (hE e he)).1)
  refine ⟨mid, outs, bs, e1, e2, e3, ?_⟩
  clear e1 e2 e3 k1 k2 each h
  induction k3 generalizing bs with
  | nil =>
    rw [List.forall₂_nil_left_iff] at e4
    subst e4
    exact .nil
  | @cons e a ns as h _ ih =>
    cases e4 with
    | cons h' t =>
      obtain ⟨size, T, g1, g2, g3, rfl⟩ := h
      obtain ⟨x0, y0, h2, h3⟩ := h'
      exact .cons ⟨size, T, g1, g2, g3, x0, y0, h2, (balancer_back g1 (hE e (.head _))).2 (fun p => _) h3⟩
        (ih (fun e he => hE e (.tail _ he)) _ t)

section
variable {ul : Int} {nets : List (List Char × Network)} {file : Option (List Char)} {listing : List (List Char × Network)}

/-- C113: `query`, `blueprint encode` and `blueprint decode` read everything and end without an error, whatever was computed before; and what
comes back, in the order of the networks, are best balancers for them, without the empty rows at their sides. -/
theorem c113_blueprints (hd : Directory nets) (hf : Recorded ul nets file) (hl : listing.Perm nets) (obj : Objective) {c : Codec}
    (h1 : c.OneLine) (label : Option (List Char)) (level : BeltLevel) :
    ∃ (ns : List (List Char × Network)) (mid : List Char) (outs : List (List Char)) (bs : List (Arr Tile)),
      (queryMain none obj ul false file listing).ending = .finished ∧
      blueprintEncode c label level (queryMain none obj ul false file listing).out = ⟨mid, .endOfInput⟩ ∧
      blueprintDecode c mid = ⟨textOf outs, .endOfInput⟩ ∧ List.Forall₂ SolutionLine outs bs ∧
      ns.Subperm nets ∧ InNumericOrder (ns.map Prod.fst) ∧
      List.Forall₂ (fun e b => ∃ size T, BalancerOfSize e.2 size T ∧ size.1 = ul ∧ BestSize obj ul e.2 size ∧
        CutTo (boxArr size.2.1.toNat size.2.2.toNat T) b) ns bs := by
  obtain ⟨ns, lines, e1, e2, e3, e4⟩ := c112_printed hd hf hl obj
  obtain ⟨mid, outs, bs, g1, g2, g3, g4⟩ := lines_back e4 (fun e he => hd.ends e (e2.subset he)) h1 label level
  refine ⟨ns, mid, outs, bs, ?_, ?_, g2, g3, e2, e3, g4⟩
  · rw [e1]
  · rw [e1]
    exact g1

/-- C113: after a run of `compute` that came to its end, there is one for every network. -/
theorem c113_complete (hd : Directory nets) (hf : Recorded ul nets file) {obj : Objective} {stores : List Store}
    {evs : List (Nat × Option Json)} (hl : listing.Perm nets) (hst : startUp file (listing.map freshStore) = .ok stores)
    (hrun : RightRun obj ul (Sys.start obj ul stores file) evs)
    (hdone : ∀ t ∈ (Sys.run obj ul (Sys.start obj ul stores file) evs).tasks, t.state = .done)
    {listing' : List (List Char × Network)} (hl' : listing'.Perm nets) {c : Codec} (h1 : c.OneLine) (label : Option (List Char))
    (level : BeltLevel) :
    let printed := queryMain none obj ul false (Sys.run obj ul (Sys.start obj ul stores file) evs).file listing'
    ∃ (ns : List (List Char × Network)) (mid : List Char) (outs : List (List Char)) (bs : List (Arr Tile)),
      printed.ending = .finished ∧ blueprintEncode c label level printed.out = ⟨mid, .endOfInput⟩ ∧
      blueprintDecode c mid = ⟨textOf outs, .endOfInput⟩ ∧ List.Forall₂ SolutionLine outs bs ∧
      ns.Perm nets ∧ InNumericOrder (ns.map Prod.fst) ∧
      List.Forall₂ (fun e b => ∃ size T, BalancerOfSize e.2 size T ∧ size.1 = ul ∧ BestSize obj ul e.2 size ∧
        CutTo (boxArr size.2.1.toNat size.2.2.toNat T) b) ns bs := by
  intro printed
  obtain ⟨ns, lines, e1, e2, e3, e4⟩ := c112_complete hd hf hl hst hrun hdone hl'
  obtain ⟨mid, outs, bs, g1, g2, g3, g4⟩ := lines_back e4 (fun e he => hd.ends e (e2.subset he)) h1 label level
  have e : printed = ⟨textOf lines, .finished⟩ := e1
  refine ⟨ns, mid, outs, bs, ?_, ?_, g2, g3, e2, e3, g4⟩
  · rw [e]
  · rw [e]
    exact g1

/-- C113, of the networks that come with the program, in any selection: each balancer that is reported has as many inputs and outputs as the
network, and each output carries the same part of everything that is supplied.  For two of the networks, those with one input and five outputs
and the other way round, this is only shown if no splitter stands directly in front of another. -/
theorem c113_shipped_partial (hn : (nets.map Prod.fst).Nodup)
    (hs : ∀ e ∈ nets, ∃ x ∈ shippedNetworks, openNetwork x.text.toList = .ok e.2) (hf : Recorded ul nets file) (hl : listing.Perm nets)
    (obj : Objective) {c : Codec} (h1 : c.OneLine) (label : Option (List Char)) (level : BeltLevel) :
    ∃ (ns : List (List Char × Network)) (mid : List Char) (outs : List (List Char)) (bs : List (Arr Tile)),
      (queryMain none obj ul false file listing).ending = .finished ∧
      blueprintEncode c label level (queryMain none obj ul false file listing).out = ⟨mid, .endOfInput⟩ ∧
      blueprintDecode c mid = ⟨textOf outs, .endOfInput⟩ ∧ List.Forall₂ SolutionLine outs bs ∧ ns.Subperm nets ∧
      List.Forall₂ (fun e b => ∃ x ∈ shippedNetworks, openNetwork x.text.toList = .ok e.2 ∧ ∃ w h T, CutTo (boxArr w h T) b ∧
        (((x.inputs, x.outputs) ≠ (1, 5) ∧ (x.inputs, x.outputs) ≠ (5, 1)) ∨ Apart (boxIn w h) (boxNb w h) T →
          EvenLayout w h T x.inputs x.outputs)) ns bs := by
  have hd : Directory nets := by
    refine ⟨hn, fun e he => ?_⟩
    obtain ⟨x, hx, hx'⟩ := hs e he
    obtain ⟨n', a, b, k1, -, k3, -⟩ := c93_shipped x hx
    rw [hx'] at k1
    cases k1
    exact ⟨a, _, b, _, (gio_iff _ _ _ _ _).1 k3⟩
  obtain ⟨ns, mid, outs, bs, e1, e2, e3, e4, e5, -, e7⟩ := c113_blueprints hd hf hl obj h1 label level
  refine ⟨ns, mid, outs, bs, e1, e2, e3, e4, e5, ?_⟩
  have hs' : ∀ e ∈ ns, ∃ x ∈ shippedNetworks, openNetwork x.text.toList = .ok e.2 := fun e he => hs e (e5.subset he)
  clear e1 e2 e3 e4 e5
  induction e7 with
  | nil => exact .nil
  | @cons e b ns bs h _ ih =>
    refine .cons ?_ (ih fun e he => hs' e (.tail _ he))
    obtain ⟨x, hx, hx'⟩ := hs' e (.head _)
    obtain ⟨n', a, b, k1, -, k3, k4, -⟩ := c93_shipped x hx
    rw [hx'] at k1
    cases k1
    obtain ⟨size, T, g1, -, -, g4⟩ := h
    refine ⟨x, hx, hx', size.2.1.toNat, size.2.2.toNat, T, g4, fun hX => c113_even g1 ((gio_iff _ _ _ _ _).1 k3) k4 ?_⟩
    rcases hX with ⟨h15, h51⟩ | hX
    · exact (shipped_used x hx e.2 hx' h15 h51).imp id .inl
    · exact .inr (.inr hX)

end

/-! ### A case: networks/2x2 -/

/-- The hypotheses are met: after `compute` has found a balancer for networks/2x2, one blueprint comes back, and it divides evenly. -/
example {c : Codec} (h1 : c.OneLine) : ∃ file, Recorded 4 exDirectory file ∧
    (∀ e ∈ exDirectory, ∃ x ∈ shippedNetworks, openNetwork x.text.toList = .ok e.2) ∧
    ∃ mid out b w h T, blueprintEncode c none .normal (queryMain none .length 4 false file exDirectory).out = ⟨mid, .endOfInput⟩ ∧
      blueprintDecode c mid = ⟨textOf [out], .endOfInput⟩ ∧ SolutionLine out b ∧ CutTo (boxArr w h T) b ∧ EvenLayout w h T 2 2 := by
  obtain ⟨v, hv⟩ := oneSplitter_answer
  have hrun : RightRun .length 4 (Sys.start .length 4 (exDirectory.map freshStore) none) [(0, some v)] := by
    refine .cons (fun t size ht hs => ?_) (.nil _)
    have e : (Sys.start .length 4 (exDirectory.map freshStore) none).tasks =
        [⟨freshStore (['2', 'x', '2'], oneSplitter), .waiting (4, 3, 2)⟩] := by rfl
    rw [e] at ht
    cases ht
    cases hs
    exact hv
  have hdone : ∀ t ∈ (Sys.run .length 4 (Sys.start .length 4 (exDirectory.map freshStore) none) [(0, some v)]).tasks, t.state = .done := by
    intro t ht
    have e : (Sys.run .length 4 (Sys.start .length 4 (exDirectory.map freshStore) none) [(0, some v)]).tasks =
        [⟨((freshStore (['2', 'x', '2'], oneSplitter)).add (4, 3, 2) (some v)).clean, .done⟩] := by rfl
    rw [e] at ht
    rw [List.mem_singleton.1 ht]
  have hx : net2x2 ∈ shippedNetworks := by simp [shippedNetworks]
  have hopen : openNetwork net2x2.text.toList = .ok oneSplitter := by decide +kernel
  have hs : ∀ e ∈ exDirectory, ∃ x ∈ shippedNetworks, openNetwork x.text.toList = .ok e.2 := fun e he => by
    rw [List.mem_singleton.1 he]
    exact ⟨_, hx, hopen⟩
  refine ⟨_, .run .length .start (.refl _) rfl hrun, hs, ?_⟩
  obtain ⟨ns, mid, outs, bs, g1, g2, g3, g4, g5, -, g7⟩ :=
    c113_complete exDirectory_ok .start (.refl _) rfl hrun hdone (.refl _) h1 none .normal
  have g5 := List.perm_singleton.1 g5
  subst g5
  obtain ⟨b, bs', ⟨size, T, k1, -, -, k2⟩, hnil, rfl⟩ := List.forall₂_cons_left_iff.1 g7
  obtain rfl := List.forall₂_nil_left_iff.1 hnil
  obtain ⟨out, outs', k3, hnil', rfl⟩ := List.forall₂_cons_right_iff.1 g4
  obtain rfl := List.forall₂_nil_right_iff.1 hnil'
  obtain ⟨n', a, b', j1, -, j3, j4, -⟩ := c93_shipped net2x2 hx
  rw [hopen] at j1
  cases j1
  exact ⟨mid, out, b, _, _, T, g2, g3, k3, k2, c113_even k1 ((gio_iff _ _ _ _ _).1 j3) j4
    ((shipped_used net2x2 hx _ hopen (by decide) (by decide)).imp id .inl)⟩

end FSat
