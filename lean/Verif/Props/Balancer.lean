import Verif.Lemmas.Labels
/-!
# Balancers for a given network (C27)
-/

set_option linter.unusedSimpArgs false

namespace FSat

/-- The flow an assignment describes: the direction flags and the colour of each cell. -/
def Grid.flow (g : Grid) (v : Asg) : Flow (Nat × Nat) where
  inp p d := ev v ((g.at' p).inp d)
  out p d := ev v ((g.at' p).out d)
  col p := value v (g.at' p).colour

theorem Gen.all_ok {fs : List Gen} {s : Nat} {r : Cnf × Nat} (h : Gen.all fs s = .ok r) : ∀ f ∈ fs, ∃ s r, f s = .ok r := by
  induction fs generalizing s r with
  | nil => simp
  | cons f fs ih =>
    unfold Gen.all at h
    cases e : f s with
    | error e' => rw [e] at h; cases h
    | ok r1 =>
      rw [e] at h
      simp only at h
      cases e2 : Gen.all fs r1.2 with
      | error e' => rw [e2] at h; cases h
      | ok r2 => exact fun x hx => (List.mem_cons.1 hx).elim (fun hx => hx ▸ ⟨s, r1, e⟩) (ih e2 x)

/-- All clauses of a balancer, as a statement about the values of the cells and the labels. -/
theorem createBalancer_enc {lib : CardLib} (hl : lib.Correct) {net : PyDict Node Nat} (hpos : ∀ c ∈ netColours net, 0 ≤ c)
    {width height : Nat} {ugLen : Option Nat} {g : Grid} {node : Nat × Nat → List Lit} {cs : Cnf} {s' : Nat}
    (hc : createBalancer lib net width height ugLen = .ok (g, node, cs, s')) :
    ∃ (k : Nat) (a m b n : Int), 1 ≤ k ∧ g = mkGrid width height ⟨false, false⟩ (some k) ugLen (nodeFields net.length) 0 ∧
      0 < width ∧ 0 < height ∧ net ≠ [] ∧ node = nodeLits width k net.length ∧ Ends (elements net) a m b n ∧
      (∀ e ∈ net, NodeOk g.bits e.1) ∧ (∀ c, c < k → c < 2 ^ g.bits) ∧
      Enc (height * width * (gridFields (some k) (nodeFields net.length)).variableCount) s' cs fun v => InitSem g (g.vals v) ∧
        (∀ c < k, (c : Int) ∉ netColours net → NoColourSem g c (g.vals v)) ∧ BlockUgSem g (.ofBool true) (g.vals v) ∧
        UndergroundSem g (g.vals v) ∧ ColourSem g (g.vals v) ∧
        BalancerSem g net a m b n (g.vals v) fun p i => ev v ((node p).getD i default) := by
  unfold createBalancer at hc
  split at hc
  case isFalse => cases hc
  case isTrue hwh =>
  split at hc
  · cases hc
  rename_i mx hmx
  split at hc
  · cases hc
  rename_i hm0
  simp only at hc
  have hmem : mx ∈ netColours net ∧ ∀ c ∈ netColours net, c ≤ mx := List.max?_eq_some_iff.1 hmx
  obtain ⟨k, hk⟩ : ∃ k, k = (mx + 1).toNat := ⟨_, rfl⟩
  rw [← hk] at hc
  have hkmx : (k : Int) = mx + 1 := by omega
  have hcol : ∀ c, c < k → c < 2 ^ (k - 1).size := fun c hc => lt_of_le_of_lt (by omega) (Nat.lt_size_self (k - 1))
  cases hio : getInputOutputColours (elements net) with
  | error e =>
    have : ∀ s, balancerClauses lib (mkGrid width height ⟨false, false⟩ (some k) ugLen (nodeFields net.length) 0)
      (nodeLits width k net.length) net s = .error e := by intro s; unfold balancerClauses; rw [hio]
    simp only [Gen.all, Gen.pure, this] at hc
    split at hc
    · cases hc
    · rename_i h
      exfalso
      split at h
      · cases h
      · split at h
        · cases h
        · rename_i h2
          split at h2
          · cases h2
          · cases h2
  | ok r =>
  obtain ⟨⟨a, m⟩, ⟨b, n⟩⟩ := r
  have hends := (gio_iff _ a m b n).1 hio
  generalize hgd : mkGrid width height ⟨false, false⟩ (some k) ugLen (nodeFields net.length) 0 = g0 at hc
  have hg : g0.WF := hgd ▸ mkGrid_wf hwh.1 hwh.2 _ _ _ (by intro n h; cases h; omega) _ _
  have hbits : g0.bits = (k - 1).size := by rw [← hgd]; rfl
  have hcolours : g0.colours = some k := by rw [← hgd]; rfl
  generalize hs0 : height * width * (gridFields (some k) (nodeFields net.length)).variableCount = s0 at hc
  obtain ⟨hlits, hextra⟩ := mkGrid_lits width height ⟨false, false⟩ (some k) ugLen (nodeFields net.length) 0
  rw [hgd, Nat.zero_add, hs0] at hlits hextra
  have hflat : ∀ x : (nodeFields net.length).Inst, (nodeFields net.length).flatten x = x.1 := by
    intro x
    exact List.append_nil (α := Lit) x.1
  have hnode : ∀ p, g0.In p → LBound s0 (nodeLits width k net.length p) := by
    intro p hp
    have := hextra p hp
    rw [hflat] at this
    exact this
  have hlen : ∀ p, (nodeLits width k net.length p).length = net.length := by
    intro p
    show (toExtras (some k) (nodeFields net.length) (cellInstance width (some k) (nodeFields net.length) 0 p.1 p.2)).1.length = _
    simp [toExtras, cellInstance, gridFields, nodeFields, TFields.instantiate, Tmpl.instantiate, nextMany_eq]
  have hin : ∀ e ∈ net, ∀ c, (e.1.1.1 = some c ∨ e.1.1.2 = some c) ∨ (e.1.2.1 = some c ∨ e.1.2.2 = some c) → c ∈ netColours net := by
    intro e he c h
    unfold netColours
    rw [List.mem_filterMap]
    refine ⟨some c, List.mem_flatMap.2 ⟨e, he, ?_⟩, rfl⟩
    rcases h with (h | h) | (h | h) <;> simp [← h]
  have hrange : ∀ c ∈ netColours net, 0 ≤ c ∧ c < 2 ^ g0.bits := by
    intro c hc
    refine ⟨hpos c hc, ?_⟩
    have h1 := hmem.2 c hc
    have h2 := hcol c.toNat (by have := hpos c hc; omega)
    rw [hbits]
    have h3 := hpos c hc
    have : (c.toNat : Int) < 2 ^ (k - 1).size := by exact_mod_cast h2
    omega
  have hcolmem : ∀ c : Int, some c ∈ insOf (elements net) ∨ some c ∈ outsOf (elements net) → c ∈ netColours net := by
    intro c h
    simp only [insOf, outsOf, elements, List.mem_flatMap, List.mem_replicate] at h
    rcases h with ⟨x, ⟨e, he, _, rfl⟩, hx⟩ | ⟨x, ⟨e, he, _, rfl⟩, hx⟩
    · simp only [List.mem_cons, List.not_mem_nil, or_false] at hx
      exact hin e he c (.inl (hx.imp Eq.symm Eq.symm))
    · simp only [List.mem_cons, List.not_mem_nil, or_false] at hx
      exact hin e he c (.inr (hx.imp Eq.symm Eq.symm))
  have hamem : a ∈ netColours net := hcolmem a (.inl (by
    have h1 := hends.input
    have h2 := hends.pos
    unfold surplus at h1
    exact List.count_pos_iff.1 (by omega)))
  have hbmem : b ∈ netColours net := hcolmem b (.inr (by
    have h1 := hends.output
    have h2 := hends.neg
    unfold surplus at h1
    exact List.count_pos_iff.1 (by omega)))
  have hbal := balancer_enc hl hg hlits hnode hlen hio (hrange a hamem) (hrange b hbmem) (fun e he c h => hrange c (hin e he c h))
  have v_eq : ∀ {v w : Asg}, Agree s0 v w → ∀ p, g0.In p → g0.vals w p = g0.vals v p := fun h p hp => g0.vals_agree hlits h hp
  have hunused : ∃ cu, concatE (fun c : Nat => if (c : Int) ∈ netColours net then .ok [] else preventColour g0 c) (List.range k) = .ok cu ∧
      ∀ v, Sat v cu ↔ ∀ c : Nat, c ∈ List.range k → ((c : Int) ∉ netColours net → NoColourSem g0 c (g0.vals v)) := by
    refine concatE_iff _ (fun v (c : Nat) => ((c : Int) ∉ netColours net → NoColourSem g0 c (g0.vals v))) _ fun c hc' => ?_
    by_cases hmm : (c : Int) ∈ netColours net
    · exact ⟨[], if_pos hmm, fun v => by simp [hmm]⟩
    · obtain ⟨cs, h1, h2⟩ := preventColour_iff hg c (hbits ▸ hcol c (List.mem_range.1 hc'))
      exact ⟨cs, by rw [if_neg hmm, h1], fun v => by simp [hmm, h2]⟩
  have hall : GenEnc s0 (Gen.all [
            Gen.pure (initClauses g0),
            Gen.pure (concatE (fun c : Nat => if (c : Int) ∈ netColours net then .ok [] else preventColour g0 c) (List.range k)),
            balancerClauses lib g0 (nodeLits width k net.length) net]) fun v => InitSem g0 (g0.vals v) ∧
        (∀ c < k, (c : Int) ∉ netColours net → NoColourSem g0 c (g0.vals v)) ∧ BlockUgSem g0 (.ofBool true) (g0.vals v) ∧
        UndergroundSem g0 (g0.vals v) ∧ ColourSem g0 (g0.vals v) ∧
        BalancerSem g0 net a m b n (g0.vals v) fun p i => ev v (((nodeLits width k net.length) p).getD i default) := by
    refine GenEnc.congr (GenEnc.cons (P := fun v => InitSem g0 (g0.vals v)) (GenEnc.pure ?_ ?_)
      (GenEnc.cons (P := fun v => ∀ c < k, (c : Int) ∉ netColours net → NoColourSem g0 c (g0.vals v)) (GenEnc.pure ?_ ?_)
      (GenEnc.cons hbal (GenEnc.nil s0)))) ?_
    · exact fun v w h => ⟨InitSem.congr hg fun p hp => (v_eq h p hp).symm, InitSem.congr hg fun p hp => v_eq h p hp⟩
    · intro cs e v
      obtain ⟨cs', e', h⟩ := init_iff hg
      rw [e] at e'; cases e'; exact h v
    · intro v w h
      refine forall_congr' fun c => forall_congr' fun _ => forall_congr' fun _ => forall_congr' fun p => imp_congr_right fun hp => ?_
      rw [v_eq h p hp]
    · intro cs e v
      obtain ⟨cs', e', h⟩ := hunused
      rw [e] at e'; cases e'
      rw [h v]
      simp only [List.mem_range]
    · intro v
      simp only [and_true, and_assoc]
  cases he : Gen.all [
            Gen.pure (initClauses g0),
            Gen.pure (concatE (fun c : Nat => if (c : Int) ∈ netColours net then .ok [] else preventColour g0 c) (List.range k)),
            balancerClauses lib g0 (nodeLits width k net.length) net] s0 with
  | error e => rw [he] at hc; cases hc
  | ok r =>
  obtain ⟨cs1, s1⟩ := r
  rw [he] at hc
  simp only [Except.ok.injEq, Prod.mk.injEq] at hc
  obtain ⟨rfl, rfl, rfl, rfl⟩ := hc
  have henc := hall.enc s0 (Nat.le_refl _) _ _ he
  refine ⟨k, a, m, b, n, by omega, hgd.symm, hwh.1, hwh.2, ?_, rfl, hends, ?_, fun c h => hbits ▸ hcol c h, by rw [hs0]; exact henc⟩
  · rintro rfl
    simp [netColours] at hmem
  · intro e hemem
    refine ⟨?_, fun c h => hrange c (hin e hemem c (.inl h)), fun c h => hrange c (hin e hemem c (.inr h))⟩
    obtain ⟨s2, r2, h2⟩ := Gen.all_ok he (balancerClauses lib g0 (nodeLits width k net.length) net) (by simp)
    unfold balancerClauses at h2
    rw [hio] at h2
    obtain ⟨s3, r3, h3⟩ := Gen.all_ok h2 (Gen.pure (concatE (fun e : (Node × Nat) × Nat =>
      nodeClauses g0 (nodeLits width k net.length) a b e.2 e.1.1) net.zipIdx)) (by simp)
    unfold Gen.pure at h3
    cases h4 : concatE (fun e : (Node × Nat) × Nat => nodeClauses g0 (nodeLits width k net.length) a b e.2 e.1.1) net.zipIdx with
    | error e => rw [h4] at h3; cases h3
    | ok c =>
      obtain ⟨i, hi, rfl⟩ := List.mem_iff_getElem.1 hemem
      obtain ⟨c', h5⟩ := concatE_ok h4 _ (zipIdx_getElem hi)
      unfold nodeClauses at h5
      by_contra hcon
      rw [if_neg hcon] at h5
      cases h5

/-! ### C27 -/

section
variable {lib : CardLib} {net : PyDict Node Nat} {width height : Nat} {ugLen : Option Nat} {g : Grid} {node : Nat × Nat → List Lit}
  {cs : Cnf} {s' : Nat}

/-- C27, in terms of the solver's own connection flags: every solution is a layout whose splitters can be labelled with the nodes of
the network, each used as often as it occurs, and are connected as their labels say.  Missing: that the flags show all connections
of the layout, which is false (`c27_adjacent_refuted`); see `c27_connected_partial`. -/
theorem c27_realises_partial (hl : lib.Correct) (hv : net.Valid) (hpos : ∀ c ∈ netColours net, 0 ≤ c)
    (hc : createBalancer lib net width height ugLen = .ok (g, node, cs, s')) (v : Asg) (hs : Sat v cs) :
    ∃ T lab, Decodes g v T ∧ Realises g.nb T (g.flow v) g.cells (elements net) lab := by
  obtain ⟨k, a, m, b, n, hk, hgd, hw, hh, hne, hnd, hE, hok, hcol, henc⟩ := createBalancer_enc hl hpos hc
  obtain ⟨hi, _, _, _, _, hB⟩ := henc.sound v hs
  have hg : g.WF := hgd ▸ mkGrid_wf hw hh _ _ _ (by intro n h; cases h; omega) _ _
  obtain ⟨ci, h1, h2⟩ := init_iff hg
  obtain ⟨T, hT⟩ := c15_layout hg h1 v ((h2 v).2 hi)
  have hlay := lays_of_decodes hi hT
  exact ⟨T, _, hT, hB.realises hv hlay ((splitterSem_iff hg hlay).1 hi.splitter)⟩

/-- C27: the belts entering and leaving the grid are as many as the inputs and outputs of the network, and have their colours. -/
theorem c27_ends_partial (hl : lib.Correct) (hpos : ∀ c ∈ netColours net, 0 ≤ c)
    (hc : createBalancer lib net width height ugLen = .ok (g, node, cs, s')) (hw : 2 ≤ width) (hh : 2 ≤ height) (v : Asg)
    (hs : Sat v cs) :
    ∃ a m b n, Ends (elements net) a m b n ∧
      (∀ I O : Nat × Nat → Bool, (∀ p, I p = true ↔ ∃ d, (g.flow v).inp p d = true ∧ FromOutside g p d) →
        (∀ p, O p = true ↔ ∃ d, (g.flow v).out p d = true ∧ ToOutside g p d) →
        (g.cells.countP I : Int) = m ∧ (g.cells.countP O : Int) = n ∧
        (∀ p, g.In p → I p = true → ((g.flow v).col p : Int) = a) ∧ (∀ p, g.In p → O p = true → ((g.flow v).col p : Int) = b)) := by
  obtain ⟨k, a, m, b, n, hk, hgd, hw', hh', hne, hnd, hE, hok, hcol, henc⟩ := createBalancer_enc hl hpos hc
  obtain ⟨hi, _, _, _, _, hB⟩ := henc.sound v hs
  have hg : g.WF := hgd ▸ mkGrid_wf hw' hh' _ _ _ (by intro n h; cases h; omega) _ _
  obtain ⟨ci, h1, h2⟩ := init_iff hg
  have hends := hB.ends hne
  refine ⟨a, m, b, n, hE, fun I O hI hO => ?_⟩
  have key := fun p hp => c24_markers_partial hg (by rw [hgd]; exact hw) (by rw [hgd]; exact hh) h1 v ((h2 v).2 hi) p hp
  have eI : ∀ p, g.In p → (I p = true ↔ (g.vals v p).isInput = true) := fun p hp => (hI p).trans (key p hp).1.symm
  have eO : ∀ p, g.In p → (O p = true ↔ (g.vals v p).isOutput = true) := fun p hp => (hO p).trans (key p hp).2.symm
  refine ⟨?_, ?_, fun p hp h => hends.inCol p hp ((eI p hp).1 h), fun p hp h => hends.outCol p hp ((eO p hp).1 h)⟩
  · rw [← hends.ins, List.countP_congr fun p hp => eI p ((g.mem_cells p).1 hp)]
  · rw [← hends.outs, List.countP_congr fun p hp => eO p ((g.mem_cells p).1 hp)]

/-- `c27_complete` with the labels that the solution shows. -/
theorem createBalancer_complete (hl : lib.Correct) (hv : net.Valid) (hpos : ∀ c ∈ netColours net, 0 ≤ c)
    (hc : createBalancer lib net width height ugLen = .ok (g, node, cs, s')) (v : Asg) {ci cc : Cnf}
    (hci : initClauses g = .ok ci) (hi : Sat v ci) (hb : Sat v (blockUnderground g (.ofBool true)))
    (hu : Sat v (preventBadUndergrounding g)) (hcc : preventBadColouring g = .ok cc) (hcs : Sat v cc)
    (hun : ∀ c : Nat, c < g.colours.getD 1 → (c : Int) ∉ netColours net → ∀ cu, preventColour g c = .ok cu → Sat v cu)
    (T : Nat × Nat → Tile) (hT : Decodes g v T) (lab : Nat × Nat → Option Node)
    (hR : Realises g.nb T (g.flow v) g.cells (elements net) lab) (a m b n : Int) (hE : Ends (elements net) a m b n)
    (hin : (g.cells.countP (fun p => ev v (g.at' p).isInput) : Int) = m)
    (hout : (g.cells.countP (fun p => ev v (g.at' p).isOutput) : Int) = n)
    (hinc : ∀ p, g.In p → ev v (g.at' p).isInput = true → ((g.flow v).col p : Int) = a)
    (houtc : ∀ p, g.In p → ev v (g.at' p).isOutput = true → ((g.flow v).col p : Int) = b) :
    ∃ v', (∀ p, g.In p → evalTile v' (g.at' p) = evalTile v (g.at' p)) ∧ Sat v' cs ∧
      ∀ p, g.In p → ∀ i, ∀ hi : i < net.length, ev v' ((node p).getD i default) = decide (lab p = some (net[i]).1) := by
  obtain ⟨k, a', m', b', n', hk, hgd, hw', hh', hne, hnd, hE', hok, hcol, henc⟩ := createBalancer_enc hl hpos hc
  have hio := (gio_iff _ _ _ _ _).2 hE
  have hio' := (gio_iff _ _ _ _ _).2 hE'
  rw [hio] at hio'
  simp only [Except.ok.injEq, Prod.mk.injEq] at hio'
  obtain ⟨⟨rfl, rfl⟩, rfl, rfl⟩ := hio'
  have hg : g.WF := hgd ▸ mkGrid_wf hw' hh' _ _ _ (by intro n h; cases h; omega) _ _
  have hedge : g.edge = ⟨false, false⟩ := by rw [hgd]; rfl
  have hsem := sem_of_sat hg hci hi
  have hlay := lays_of_decodes hsem hT
  have hpair := (splitterSem_iff hg hlay).1 hsem.splitter
  have hB := balancerSem_of (C := g.vals v) hg hedge hv hok hlay hpair hR ⟨hin, hout, hinc, houtc⟩
  have hbits : ∀ p, (g.at' p).colour.length = (k - 1).size ∧ (g.at' p).colourUx.length = (k - 1).size ∧
      (g.at' p).colourUy.length = (k - 1).size := by
    intro p
    have e : g.bits = (k - 1).size := by rw [hgd]; rfl
    exact ⟨e ▸ hg.c p, e ▸ hg.cx p, e ▸ hg.cy p⟩
  obtain ⟨w, _, hw⟩ := mkGrid_free width height ⟨false, false⟩ (some k) ugLen (nodeFields net.length) 0 v (g.vals v)
    (fun p => (List.range net.length).map fun i => decide (∃ h : i < net.length, lab p = some (net[i]).1))
    (fun p => by simpa [Grid.vals, evalTile] using (hbits p).1) (fun p => by simpa [Grid.vals, evalTile] using (hbits p).2.1)
    (fun p => by simpa [Grid.vals, evalTile] using (hbits p).2.2) (fun p => by simp [nodeFields, TFields.variableCount, Tmpl.variableCount])
  rw [← hgd] at hw
  have hvals : ∀ p, g.In p → g.vals w p = g.vals v p := fun p hp => (hw p hp).1
  have hN : ∀ p, g.In p → ∀ i, i < net.length →
      ev w ((node p).getD i default) = decide (∃ h : i < net.length, lab p = some (net[i]).1) := by
    intro p hp i hi'
    have h1 := (hw p hp).2
    have h2 : (nodeFields net.length).flatten (toExtras (some k) (nodeFields net.length)
        (cellInstance width (some k) (nodeFields net.length) 0 p.1 p.2)) = node p := by
      rw [hnd]; exact List.append_nil (α := Lit) _
    rw [h2] at h1
    have h3 := congrArg (fun l : List Bool => l[i]?) h1
    have hlen : (node p).length = net.length := by simpa using congrArg List.length h1
    simp only [List.getElem?_map, List.getElem?_eq_getElem (show i < (node p).length by omega), Option.map_some] at h3
    rw [List.getElem?_eq_getElem (by simpa using hi')] at h3
    simp only [List.getElem_range, Option.map_some, Option.some.injEq] at h3
    rw [List.getD_eq_getElem?_getD, List.getElem?_eq_getElem (show i < (node p).length by omega), Option.getD_some]
    exact h3
  obtain ⟨cc', e', hcc'⟩ := colouring_iff hg
  rw [hcc] at e'; cases e'
  have hnc : ∀ c < k, (c : Int) ∉ netColours net → NoColourSem g c (g.vals w) := by
    intro c hck hcm
    obtain ⟨cu, h1, h2⟩ := preventColour_iff hg c (hcol c hck)
    have := (h2 v).1 (hun c (by rw [hgd]; exact hck) hcm cu h1)
    intro p hp
    rw [hvals p hp]
    exact this p hp
  have hbs : BalancerSem g net a m b n (g.vals w) fun p i => ev w ((node p).getD i default) := by
    have hzi : ∀ e ∈ net.zipIdx, e.2 < net.length := fun e he => (List.mem_zipIdx' he).1
    refine ⟨?_, fun e he => ?_, fun p hp => ?_, ?_, ?_, fun e he p hp => ?_⟩
    · rw [← hB.splitters]
      refine List.countP_congr fun p hp => ?_
      rw [hvals p ((g.mem_cells p).1 (List.mem_filter.1 hp).1)]
    · rw [← hB.count e he]
      refine List.countP_congr fun p hp => ?_
      rw [hN p ((g.mem_cells p).1 hp) _ (hzi e he)]
    · rw [hvals p hp, ← hB.one p hp]
      congr 2
      exact List.map_congr_left fun i hi' => hN p hp i (List.mem_range.1 hi')
    · rw [← hB.ins, List.countP_congr fun p hp => ?_]
      rw [hvals p ((g.mem_cells p).1 hp)]
    · rw [← hB.outs, List.countP_congr fun p hp => ?_]
      rw [hvals p ((g.mem_cells p).1 hp)]
    · rw [hN p hp _ (hzi e he)]
      obtain ⟨h1, h2, h3, h4⟩ := hB.nodes e he p hp
      unfold NodeCellSem
      rw [hvals p hp]
      refine ⟨h1, h2, h3, fun d hd hd' => ?_⟩
      obtain ⟨q, p', q', e1, e2, e3, h5, h6⟩ := h4 d hd hd'
      refine ⟨q, p', q', e1, e2, e3, ?_, ?_⟩
      · rw [hvals p hp, hvals q (g.nb_in hg e1)]; exact h5
      · rw [hvals p hp, hvals q (g.nb_in hg e1), hvals p' (g.nb_in hg e2), hvals q' (g.nb_in hg e3)]; exact h6
  obtain ⟨v', hagree, hsat⟩ := henc.complete w ⟨InitSem.congr hg hvals hsem, hnc,
    BlockUgSem.congr hvals ((Sat_blockUg hg _ v).1 hb), UndergroundSem.congr hg hvals ((Sat_underground g v).1 hu),
    ColourSem.congr hg hvals ((hcc' v).1 hcs), hbs⟩
  obtain ⟨hlits, hnodes⟩ := mkGrid_lits width height ⟨false, false⟩ (some k) ugLen (nodeFields net.length) 0
  rw [← hgd, Nat.zero_add] at hlits hnodes
  refine ⟨v', fun p hp => (g.vals_agree hlits hagree hp).trans (hvals p hp), hsat, fun p hp i hi => ?_⟩
  have h2 : (nodeFields net.length).flatten (toExtras (some k) (nodeFields net.length)
      (cellInstance width (some k) (nodeFields net.length) 0 p.1 p.2)) = node p := by
    rw [hnd]; exact List.append_nil (α := Lit) _
  have hlen : (node p).length = net.length := by
    have := congrArg List.length (hw p hp).2
    rw [h2] at this
    simpa using this
  have hmem : (node p).getD i default ∈ node p := by
    rw [List.getD_eq_getElem?_getD, List.getElem?_eq_getElem (show i < (node p).length by omega), Option.getD_some]
    exact List.getElem_mem _
  rw [ev_agree' hagree (hnodes p hp _ (h2 ▸ hmem)), hN p hp i hi]
  simp [hi]

/-- C27, the other direction: nothing else is demanded.  Take an assignment of the variables of the cells that satisfies the
clauses of the grid, of undergrounds, of colours, and of unused colours.  If its layout realises the network, and as many belts of
the right colours enter and leave as the network has inputs and outputs, then some solution gives all cells the same values. -/
theorem c27_complete (hl : lib.Correct) (hv : net.Valid) (hpos : ∀ c ∈ netColours net, 0 ≤ c)
    (hc : createBalancer lib net width height ugLen = .ok (g, node, cs, s')) (v : Asg) {ci cc : Cnf}
    (hci : initClauses g = .ok ci) (hi : Sat v ci) (hb : Sat v (blockUnderground g (.ofBool true)))
    (hu : Sat v (preventBadUndergrounding g)) (hcc : preventBadColouring g = .ok cc) (hcs : Sat v cc)
    (hun : ∀ c : Nat, c < g.colours.getD 1 → (c : Int) ∉ netColours net → ∀ cu, preventColour g c = .ok cu → Sat v cu)
    (T : Nat × Nat → Tile) (hT : Decodes g v T) (lab : Nat × Nat → Option Node)
    (hR : Realises g.nb T (g.flow v) g.cells (elements net) lab) (a m b n : Int) (hE : Ends (elements net) a m b n)
    (hin : (g.cells.countP (fun p => ev v (g.at' p).isInput) : Int) = m)
    (hout : (g.cells.countP (fun p => ev v (g.at' p).isOutput) : Int) = n)
    (hinc : ∀ p, g.In p → ev v (g.at' p).isInput = true → ((g.flow v).col p : Int) = a)
    (houtc : ∀ p, g.In p → ev v (g.at' p).isOutput = true → ((g.flow v).col p : Int) = b) :
    ∃ v', (∀ p, g.In p → evalTile v' (g.at' p) = evalTile v (g.at' p)) ∧ Sat v' cs := by
  obtain ⟨v', h1, h2, _⟩ := createBalancer_complete hl hv hpos hc v hci hi hb hu hcc hcs hun T hT lab hR a m b n hE hin hout hinc houtc
  exact ⟨v', h1, h2⟩

end

/-- C27: with the clauses of `prevent_intersection` the flags show exactly the connections of the layout, except between two
splitters, where they show some of them. -/
theorem c27_connected_partial {g : Grid} (hg : g.WF) {ci : Cnf} (hci : initClauses g = .ok ci) (v : Asg) (hi : Sat v ci)
    (hx : Sat v (preventIntersection g)) (T : Nat × Nat → Tile) (hT : Decodes g v T) (p q : Nat × Nat) (d : Dir) (hp : g.In p)
    (hn : g.nb p d = some q) :
    (g.flow v).out p d = (g.flow v).inp q d ∧ ((g.flow v).out p d = true → Connected g.nb T p q d) ∧
    (¬ ((T p).IsSplitter ∧ (T q).IsSplitter) → Connected g.nb T p q d → (g.flow v).out p d = true) := by
  have hsem := sem_of_sat hg hci hi
  have hlay := lays_of_decodes hsem hT
  have hq := g.nb_in hg hn
  have h1 : (g.vals v p).out d = (g.vals v q).inp d := ((Sat_intersection g v).1 hx d p q hp hn).1
  refine ⟨h1, fun h => ⟨hn, (hlay p hp).out_emits h, (hlay q hq).inp_takes (h1 ▸ h)⟩, fun hns hc => ?_⟩
  by_cases hs : (T p).IsSplitter
  · have hsq : ¬ (T q).IsSplitter := fun h => hns ⟨hs, h⟩
    show (g.vals v p).out d = true
    rw [h1]
    exact ((hlay q hq).takes_iff ((hlay q hq).isSplitter_false hsq) d).2 hc.2.2
  · exact ((hlay p hp).emits_iff ((hlay p hp).isSplitter_false hs) d).2 hc.2.1

/-! ### An example -/

/-- An assignment given cell by cell: the cells in the order of the pool, `n` variables each. -/
def cellsAsg (n : Nat) (cells : List (List Bool)) : Asg := fun x => (cells.getD ((x - 1) / n) []).getD ((x - 1) % n) false

/-- A cell of the example: kind, head, input, output, the flags for moving right in and out, colour (2 bits), node. -/
def exCell (kind : Nat) (head isIn isOut inp out : Bool) (colour : Nat) (node : List Bool) : List Bool :=
  (List.range 5).map (· == kind) ++ [head, isIn, isOut] ++ [inp, false, false, false] ++ [out, false, false, false] ++
    [false, false, false, false] ++ [colour % 2 == 1, colour / 2 == 1] ++ [false, false] ++ [false, false] ++ node

/-- A network with two splitters: the second output of the first and the second input of the second are not connected. -/
def exNet : PyDict Node Nat := [(((some 0, some 0), (some 1, none)), 1), (((some 1, none), (some 2, some 2)), 1)]

/-- Two splitters, one in front of the other, between two rows of belts. -/
def exBalancer : Asg := cellsAsg 28 [
  exCell 0 false true false true true 0 [false, false], exCell 2 false false false true true 0 [false, false],
  exCell 2 false false false true true 1 [false, false], exCell 0 false false true true true 2 [false, false],
  exCell 0 false true false true true 0 [false, false], exCell 2 true false false true false 0 [true, false],
  exCell 2 true false false false true 1 [false, true], exCell 0 false false true true true 2 [false, false]]

/-- The clauses of a balancer. -/
def balancerCnf (e : Except PyErr (Grid × (Nat × Nat → List Lit) × Cnf × Nat)) : Except PyErr Cnf :=
  match e with
  | .error e => .error e
  | .ok (_, _, cs, _) => .ok cs

theorem exBalancer_sat : okSat exBalancer (balancerCnf (createBalancer naiveLib exNet 4 2 (some 4))) = true := by decide +kernel

theorem createBalancer_grid {lib : CardLib} {net : PyDict Node Nat} {width height : Nat} {ugLen : Option Nat} {g : Grid}
    {node : Nat × Nat → List Lit} {cs : Cnf} {s' : Nat} (hc : createBalancer lib net width height ugLen = .ok (g, node, cs, s')) {m : Int}
    (hm : (netColours net).max? = some m) :
    g = mkGrid width height ⟨false, false⟩ (some (m + 1).toNat) ugLen (nodeFields net.length) 0 := by
  unfold createBalancer at hc
  rw [hm] at hc
  simp only at hc
  split at hc
  · split at hc
    · cases hc
    · split at hc
      · cases hc
      · simp only [Except.ok.injEq, Prod.mk.injEq] at hc
        exact hc.1.symm
  · cases hc

/-- The grid of the example. -/
def exBalancerGrid : Grid := mkGrid 4 2 ⟨false, false⟩ (some 3) (some 4) (nodeFields 2) 0

theorem exBalancer_ok : ∃ node cs s', createBalancer naiveLib exNet 4 2 (some 4) = .ok (exBalancerGrid, node, cs, s') ∧ Sat exBalancer cs := by
  obtain ⟨cs, h1, h2⟩ := okSat_iff.1 exBalancer_sat
  unfold balancerCnf at h1
  split at h1
  · cases h1
  · rename_i g node cs' s' h
    cases h1
    have := createBalancer_grid h (m := 2) (by decide)
    subst this
    exact ⟨node, _, s', h, h2⟩

/-- The layout of the example. -/
def exBalancerLayout (p : Nat × Nat) : Tile :=
  if p.1 = 0 ∨ p.1 = 3 then .belt .right .right else .splitter .right (p.2 == 1)

theorem exBalancer_decodes : Decodes exBalancerGrid exBalancer exBalancerLayout := by
  have key : ∀ x < 4, ∀ y < 2, (decodeCell exBalancerGrid exBalancer (x, y)).toOption = some (exBalancerLayout (x, y)) := by
    decide +kernel
  intro p hp
  have := key p.1 hp.1 p.2 hp.2
  cases h : decodeCell exBalancerGrid exBalancer p with
  | error e => rw [show (p.1, p.2) = p from rfl, h] at this; cases this
  | ok t => rw [show (p.1, p.2) = p from rfl, h] at this; exact congrArg _ (Option.some.inj this)

example : exNet.Valid ∧ (∀ c ∈ netColours exNet, 0 ≤ c) ∧ ∃ node cs s',
    createBalancer naiveLib exNet 4 2 (some 4) = .ok (exBalancerGrid, node, cs, s') ∧ Sat exBalancer cs :=
  ⟨by unfold PyDict.Valid; decide, by decide, exBalancer_ok⟩

/-- C27 is false if a splitter is connected to whatever tile of the layout takes what it puts out: the solver may place two
splitters one directly in front of the other and leave the connection between two of their halves out of its count, which in the
layout it prints is there.  For the network `exNet` it prints two splitters connected by two belts instead of one, and no labelling
makes that the network. -/
theorem c27_adjacent_refuted : ∃ (lib : CardLib) (net : PyDict Node Nat) (width height : Nat) (ugLen : Option Nat) (g : Grid)
    (node : Nat × Nat → List Lit) (cs : Cnf) (s' : Nat) (v : Asg) (T : Nat × Nat → Tile),
    lib.Correct ∧ net.Valid ∧ (∀ c ∈ netColours net, 0 ≤ c) ∧ createBalancer lib net width height ugLen = .ok (g, node, cs, s') ∧
    Sat v cs ∧ Sat v (preventIntersection g) ∧ Decodes g v T ∧
    ∀ F : Flow (Nat × Nat), (∀ p q d, g.In p → g.nb p d = some q → (F.out p d = true ↔ Connected g.nb T p q d)) →
      ∀ lab, ¬ Realises g.nb T F g.cells (elements net) lab := by
  obtain ⟨node, cs, s', h1, h2⟩ := exBalancer_ok
  refine ⟨naiveLib, exNet, 4, 2, some 4, exBalancerGrid, node, cs, s', exBalancer, exBalancerLayout, naiveLib_correct,
    by unfold PyDict.Valid; decide, by decide, h1, h2, ?_, exBalancer_decodes, ?_⟩
  · exact (okSat_iff (v := exBalancer) (e := .ok (preventIntersection exBalancerGrid))).1 (by decide +kernel) |>.elim
      fun c h => by cases h.1; exact h.2
  intro F hF lab hR
  have key : ∀ x, x = 1 ∨ x = 2 → ∀ k, lab (x, 1) = some k → k = ((some 1, none), (some 2, some 2)) := by
    intro x hx k hk
    have hcell : (x, 1) ∈ exBalancerGrid.cells := (exBalancerGrid.mem_cells _).2 ⟨by rcases hx with rfl | rfl <;> decide, show 1 < 2 by decide⟩
    have hmem : k ∈ elements exNet := by
      rw [← List.count_pos_iff, ← hR.used k]
      exact List.countP_pos_iff.2 ⟨_, hcell, by simpa using hk⟩
    have ht : exBalancerLayout (x, 1) = .splitter .right true := by rcases hx with rfl | rfl <;> rfl
    obtain ⟨q, p', q', hp, hn, hn', _, hside⟩ := hR.wired _ hcell k .right hk ht
    have hq : q = (x, 0) := by
      have := hp.2.1
      rcases hx with rfl | rfl
      · rw [show exBalancerGrid.nb (1, 1) Dir.right.ccw = some (1, 0) by decide] at this; cases this; rfl
      · rw [show exBalancerGrid.nb (2, 1) Dir.right.ccw = some (2, 0) by decide] at this; cases this; rfl
    subst hq
    have e1 : p' = (x + 1, 1) ∧ q' = (x + 1, 0) := by
      rcases hx with rfl | rfl
      · rw [show exBalancerGrid.nb (1, 1) .right = some (2, 1) by decide] at hn
        rw [show exBalancerGrid.nb (1, 0) .right = some (2, 0) by decide] at hn'
        cases hn; cases hn'; exact ⟨rfl, rfl⟩
      · rw [show exBalancerGrid.nb (2, 1) .right = some (3, 1) by decide] at hn
        rw [show exBalancerGrid.nb (2, 0) .right = some (3, 0) by decide] at hn'
        cases hn; cases hn'; exact ⟨rfl, rfl⟩
    obtain ⟨rfl, rfl⟩ := e1
    have o1 : F.out (x, 1) .right = true := (hF _ _ _ ((exBalancerGrid.mem_cells _).1 hcell) hn).2
      ⟨hn, by rw [ht]; rfl, by rcases hx with rfl | rfl <;> rfl⟩
    have o2 : F.out (x, 0) .right = true := (hF (x, 0) _ _ ⟨((exBalancerGrid.mem_cells _).1 hcell).1, show 0 < 2 by decide⟩ hn').2
      ⟨hn', by rcases hx with rfl | rfl <;> rfl, by rcases hx with rfl | rfl <;> rfl⟩
    rw [o1, o2] at hside
    have : elements exNet = [((some 0, some 0), (some 1, none)), ((some 1, none), (some 2, some 2))] := rfl
    rw [this] at hmem
    simp only [List.mem_cons, List.not_mem_nil, or_false] at hmem
    rcases hmem with rfl | rfl
    · simp [SameSide, colourIf] at hside
    · rfl
  have hlab : ∀ x, x = 1 ∨ x = 2 → lab (x, 1) = some ((some 1, none), (some 2, some 2)) := by
    intro x hx
    have hcell : (x, 1) ∈ exBalancerGrid.cells := (exBalancerGrid.mem_cells _).2 ⟨by rcases hx with rfl | rfl <;> decide, show 1 < 2 by decide⟩
    obtain ⟨k, hk⟩ := (hR.heads _ hcell).2 ⟨.right, by rcases hx with rfl | rfl <;> rfl⟩
    rw [hk, key x hx k hk]
  have hcount := hR.used ((some 1, none), (some 2, some 2))
  have : elements exNet = [((some 0, some 0), (some 1, none)), ((some 1, none), (some 2, some 2))] := rfl
  rw [this, show exBalancerGrid.cells = [(0, 0), (0, 1), (1, 0), (1, 1), (2, 0), (2, 1), (3, 0), (3, 1)] from rfl] at hcount
  simp only [List.countP_cons, List.countP_nil, hlab 1 (.inl rfl), hlab 2 (.inr rfl), decide_true, if_true] at hcount
  have h2' : List.count (((some 1, none), (some 2, some 2)) : Node) [((some 0, some 0), (some 1, none)), ((some 1, none), (some 2, some 2))] = 1 := by
    decide
  rw [h2'] at hcount
  omega

end FSat
