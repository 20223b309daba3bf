import Verif.Props.Balancer
import Verif.Props.PowerOfTwoCase
import Verif.Lemmas.NetFree
/-!
# C78: for which networks the clauses of a balancer are built
-/

set_option linter.unusedVariables false

namespace FSat

/-- The cells of one colour of a checkerboard are half of the cells. -/
theorem checker_count (w h : Nat) : ((List.range w).flatMap fun x => (List.range h).map fun y => (x, y)).countP
    (fun p => (p.1 + p.2) % 2 = 1) = w * h / 2 := by
  have col : ∀ h b, (List.range h).countP (fun y => decide ((b + y) % 2 = 1)) = (h + b % 2) / 2 := by
    intro h b
    induction h with
    | zero => simp
    | succ h ih =>
      rw [List.range_succ, List.countP_append, ih, List.countP_singleton]
      split <;> rename_i hc <;> simp only [decide_eq_true_eq] at hc <;> omega
  have key : ∀ w, ((List.range w).flatMap fun x => (List.range h).map fun y => (x, y)).countP (fun p => (p.1 + p.2) % 2 = 1) =
      w / 2 * h + (w % 2) * (h / 2) := by
    intro w
    induction w with
    | zero => simp
    | succ w ih =>
      rw [List.range_succ, List.flatMap_append, List.countP_append, ih]
      simp only [List.flatMap_cons, List.flatMap_nil, List.append_nil, List.countP_map]
      have := col h w
      simp only [Function.comp_def]
      rw [this]
      rcases Nat.mod_two_eq_zero_or_one w with hw | hw
      · rw [hw, show (w + 1) / 2 = w / 2 by omega, show (w + 1) % 2 = 1 by omega]; omega
      · rw [hw, show (w + 1) / 2 = w / 2 + 1 by omega, show (w + 1) % 2 = 0 by omega, Nat.add_mul]; omega
  rw [key]
  rcases Nat.even_or_odd' w with ⟨u, rfl | rfl⟩
  · rw [show 2 * u / 2 = u by omega, show 2 * u % 2 = 0 by omega, Nat.mul_assoc, Nat.mul_div_cancel_left _ (by omega)]; omega
  · rw [show (2 * u + 1) / 2 = u by omega, show (2 * u + 1) % 2 = 1 by omega, Nat.add_mul, Nat.mul_assoc]; omega

/-- C78: the clauses of a balancer can be built for every network that has one colour of inputs and one of outputs, and whose splitters
have at most one end unconnected, on every grid with room for its splitters and belts, if the library accepts the sums. -/
theorem c78_builds {lib : CardLib} (htot : ∀ ls n s, 0 < n → n ≤ (ls.length : Int) → ∃ r, libraryEquals lib ls n s = .ok r)
    {net : PyDict Node Nat} (hcount : ∀ e ∈ net, 0 < e.2) (hpos : ∀ c ∈ netColours net, 0 ≤ c) {a m b n : Int}
    (hE : Ends (elements net) a m b n) (hone : ∀ e ∈ net, [e.1.1.1, e.1.1.2, e.1.2.1, e.1.2.2].countP (·.isNone) ≤ 1)
    {width height : Nat} (hw : 0 < width) (hh : 0 < height) (hroom : (elements net).length ≤ width * height / 2)
    (hm : m ≤ (width * height : Nat)) (hn : n ≤ (width * height : Nat)) (ugLen : Option Nat) :
    ∃ r, createBalancer lib net width height ugLen = .ok r := by
  have hin : ∀ e ∈ net, ∀ c, (e.1.1.1 = some c ∨ e.1.1.2 = some c) ∨ (e.1.2.1 = some c ∨ e.1.2.2 = some c) → c ∈ netColours net := by
    intro e he c h
    unfold netColours
    rw [List.mem_filterMap]
    refine ⟨some c, List.mem_flatMap.2 ⟨e, he, ?_⟩, rfl⟩
    rcases h with (h | h) | (h | h) <;> simp [← h]
  have hcolmem : ∀ c : Int, some c ∈ insOf (elements net) ∨ some c ∈ outsOf (elements net) → c ∈ netColours net := by
    intro c h
    simp only [insOf, outsOf, elements, List.mem_flatMap, List.mem_replicate] at h
    rcases h with ⟨x, ⟨e, he, _, rfl⟩, hx⟩ | ⟨x, ⟨e, he, _, rfl⟩, hx⟩
    · simp only [List.mem_cons, List.not_mem_nil, or_false] at hx
      exact hin e he c (.inl (hx.imp Eq.symm Eq.symm))
    · simp only [List.mem_cons, List.not_mem_nil, or_false] at hx
      exact hin e he c (.inr (hx.imp Eq.symm Eq.symm))
  have hamem : a ∈ netColours net := hcolmem a (.inl (by
    have h1 := hE.input
    have h2 := hE.pos
    unfold surplus at h1
    exact List.count_pos_iff.1 (by omega)))
  have hbmem : b ∈ netColours net := hcolmem b (.inr (by
    have h1 := hE.output
    have h2 := hE.neg
    unfold surplus at h1
    exact List.count_pos_iff.1 (by omega)))
  unfold createBalancer
  rw [if_pos ⟨hw, hh⟩]
  cases hmx : (netColours net).max? with
  | none => rw [List.max?_eq_none_iff] at hmx; rw [hmx] at hamem; simp at hamem
  | some mx =>
  have hmem : mx ∈ netColours net ∧ ∀ c ∈ netColours net, c ≤ mx := List.max?_eq_some_iff.1 hmx
  have h0 : ¬ mx < 0 := by have := hpos mx hmem.1; omega
  simp only [if_neg h0]
  obtain ⟨k, hk⟩ : ∃ k, k = (mx + 1).toNat := ⟨_, rfl⟩
  rw [← hk]
  have hkmx : (k : Int) = mx + 1 := by omega
  have hcol : ∀ c, c < k → c < 2 ^ (k - 1).size := fun c hc => lt_of_le_of_lt (by omega) (Nat.lt_size_self (k - 1))
  have hg := mkGrid_wf hw hh ⟨false, false⟩ (some k) ugLen (by intro n h; cases h; omega) (nodeFields net.length) 0
  have hbits : (mkGrid width height ⟨false, false⟩ (some k) ugLen (nodeFields net.length) 0).bits = (k - 1).size := rfl
  have hcl : (mkGrid width height ⟨false, false⟩ (some k) ugLen (nodeFields net.length) 0).cells.length = width * height := by
    show ((List.range width).flatMap fun x => (List.range height).map fun y => (x, y)).length = _
    simp [List.length_flatMap]
  have hodd : ((mkGrid width height ⟨false, false⟩ (some k) ugLen (nodeFields net.length) 0).cells.filter
      fun p => (p.1 + p.2) % 2 = 1).length = width * height / 2 := by
    rw [← List.countP_eq_length_filter]
    exact checker_count width height
  have hsum : (elements net).length = (net.map Prod.snd).sum := by
    unfold elements
    rw [List.length_flatMap]
    simp
  have hle : ∀ e ∈ net, e.2 ≤ (net.map Prod.snd).sum := fun e he => List.single_le_sum (by simp) _ (List.mem_map.2 ⟨e, he, rfl⟩)
  have hne : net ≠ [] := by rintro rfl; simp [netColours] at hamem
  have hspos : 0 < (net.map Prod.snd).sum := by
    obtain ⟨e, he⟩ := List.exists_mem_of_ne_nil _ hne
    exact lt_of_lt_of_le (hcount e he) (hle e he)
  generalize hgd : mkGrid width height ⟨false, false⟩ (some k) ugLen (nodeFields net.length) 0 = g at *
  generalize nodeLits width k net.length = node
  have hrange : ∀ c ∈ netColours net, 0 ≤ c ∧ c < 2 ^ g.bits := by
    intro c hc
    refine ⟨hpos c hc, ?_⟩
    have h1 := hmem.2 c hc
    have h2 := hcol c.toNat (by have := hpos c hc; omega)
    rw [hbits]
    have h3 := hpos c hc
    have : (c.toNat : Int) < 2 ^ (k - 1).size := by exact_mod_cast h2
    omega
  obtain ⟨ci, hci, _⟩ := init_iff hg
  obtain ⟨cu, hcu⟩ : ∃ cu, concatE (fun c : Nat => if (c : Int) ∈ netColours net then .ok [] else preventColour g c) (List.range k) = .ok cu := by
    refine concatE_total fun c hc => ?_
    by_cases hmm : (c : Int) ∈ netColours net
    · exact ⟨[], if_pos hmm⟩
    · obtain ⟨cs, h1, _⟩ := preventColour_iff hg c (hbits ▸ hcol c (List.mem_range.1 hc))
      exact ⟨cs, by rw [if_neg hmm, h1]⟩
  obtain ⟨cc, hcc, _⟩ := colouring_iff hg
  obtain ⟨cn, hcn⟩ : ∃ cn, concatE (fun e : (Node × Nat) × Nat => nodeClauses g node a b e.2 e.1.1) net.zipIdx = .ok cn := by
    refine concatE_total fun e he => ?_
    have hemem : e.1 ∈ net := List.fst_mem_of_mem_zipIdx he
    obtain ⟨cs, h, _⟩ := nodeClauses_iff hg node (hrange a hamem) (hrange b hbmem) e.2 (k := e.1.1)
      ⟨hone _ hemem, fun c h => hrange c (hin _ hemem c (.inl h)), fun c h => hrange c (hin _ hemem c (.inr h))⟩
    exact ⟨cs, h⟩
  obtain ⟨r, hr⟩ : ∃ r, Gen.all [Gen.pure (initClauses g),
      Gen.pure (concatE (fun c : Nat => if (c : Int) ∈ netColours net then .ok [] else preventColour g c) (List.range k)),
      balancerClauses lib g node net] (height * width * (gridFields (some k) (nodeFields net.length)).variableCount) = .ok r := by
    refine Gen.all_total (fun f hf s => ?_) _
    simp only [List.mem_cons, List.not_mem_nil, or_false] at hf
    rcases hf with rfl | rfl | rfl
    · exact ⟨(ci, s), by simp only [Gen.pure, hci]⟩
    · exact ⟨(cu, s), by simp only [Gen.pure, hcu]⟩
    · unfold balancerClauses
      rw [(gio_iff _ _ _ _ _).2 hE]
      refine Gen.all_total (fun f hf s => ?_) _
      simp only [List.mem_append, List.mem_cons, List.not_mem_nil, or_false, List.mem_map] at hf
      rcases hf with ((rfl | rfl | rfl | rfl) | ⟨e, he, rfl⟩) | (rfl | rfl | rfl | rfl)
      · exact ⟨(_, s), rfl⟩
      · exact ⟨(_, s), rfl⟩
      · exact ⟨(cc, s), by simp only [Gen.pure, hcc]⟩
      · exact htot _ _ _ (by exact_mod_cast hspos) (by rw [List.length_map, hodd]; rw [hsum] at hroom; exact_mod_cast hroom)
      · have hemem : e.1 ∈ net := List.fst_mem_of_mem_zipIdx he
        refine htot _ _ _ (by exact_mod_cast hcount _ hemem) ?_
        rw [List.length_map, hcl]
        have := hle _ hemem
        rw [hsum] at hroom
        have : e.1.2 ≤ width * height := by omega
        exact_mod_cast this
      · exact ⟨(_, s), rfl⟩
      · exact htot _ _ _ hE.pos (by rw [List.length_map, hcl]; exact hm)
      · exact htot _ _ _ hE.neg (by rw [List.length_map, hcl]; exact hn)
      · exact ⟨(cn, s), by simp only [Gen.pure, hcn]⟩
  obtain ⟨cs, s'⟩ := r
  exact ⟨_, by rw [hr]⟩

/-- C78, the other direction: the clauses are built only for such networks (for all others an exception is raised). -/
theorem c78_only {lib : CardLib} (hl : lib.Correct) {net : PyDict Node Nat} (hpos : ∀ c ∈ netColours net, 0 ≤ c) {width height : Nat}
    {ugLen : Option Nat} {r : Grid × (Nat × Nat → List Lit) × Cnf × Nat} (hc : createBalancer lib net width height ugLen = .ok r) :
    0 < width ∧ 0 < height ∧ (∃ a m b n, Ends (elements net) a m b n) ∧
      ∀ e ∈ net, [e.1.1.1, e.1.1.2, e.1.2.1, e.1.2.2].countP (·.isNone) ≤ 1 := by
  obtain ⟨g, node, cs, s'⟩ := r
  obtain ⟨k, a, m, b, n, _, _, hw, hh, _, _, hE, hok, _⟩ := createBalancer_enc hl hpos hc
  exact ⟨hw, hh, ⟨a, m, b, n, hE⟩, fun e he => (hok e he).one⟩

/-- The hypotheses of C78 are met by the network `exNet` on a grid of 4 by 2. -/
example : ∃ r, createBalancer naiveLib exNet 4 2 (some 4) = .ok r :=
  c78_builds (fun ls n s hn _ => naiveLib_total ls n s hn) (by decide) (by decide) ((gio_iff (elements exNet) 0 2 2 2).1 (by decide)) (by decide)
    (by decide) (by decide) (by decide) (by decide) (by decide) _

end FSat
