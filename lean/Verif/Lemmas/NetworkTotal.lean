import Verif.Lemmas.NetworkCheck
import Mathlib.Algebra.BigOperators.Group.Finset.Basic
/-!
What goes into a network comes out of it, and the order in which the belts at a splitter are listed does not matter.
-/

namespace FSat

theorem sum_colours (C : Finset Int) (k : Colour) (y : ℚ) (h : k = none → y = 0) (hC : ∀ c, k = some c → c ∈ C) :
    ∑ c ∈ C, (if k = some c then y else 0) = y := by
  cases k with
  | none => simp [h rfl]
  | some c =>
    simp only [Option.some.injEq]
    rw [Finset.sum_ite_eq, if_pos (hC c rfl)]

theorem total_leaving (C : Finset Int) : ∀ flow : List (Node × Amounts), (∀ x ∈ flow, Shares x.1 x.2) →
    (∀ c, some c ∈ outsOf (flow.map Prod.fst) → c ∈ C) →
    ∑ c ∈ C, (leaving flow (some c)).sum = (flow.map fun e => e.2.2.1 + e.2.2.2).sum
  | [], _, _ => by simp [leaving]
  | e :: f, hs, hC => by
    have ih := total_leaving C f (fun x hx => hs x (List.mem_cons_of_mem _ hx)) fun c hc => hC c (by
      simp only [List.map_cons, outsOf, List.flatMap_cons]
      exact List.mem_append.2 (.inr hc))
    simp only [sum_leaving] at ih ⊢
    simp only [List.map_cons, List.sum_cons, Finset.sum_add_distrib] at ih ⊢
    rw [ih]
    have h0 := hs e List.mem_cons_self
    rw [sum_colours, sum_colours]
    · intro h; have := h0.out2; rwa [if_pos h] at this
    · intro c h; exact hC c (by simp [outsOf, h])
    · intro h; have := h0.out1; rwa [if_pos h] at this
    · intro c h; exact hC c (by simp [outsOf, h])

theorem total_arriving (C : Finset Int) : ∀ flow : List (Node × Amounts), (∀ x ∈ flow, Shares x.1 x.2) →
    (∀ c, some c ∈ insOf (flow.map Prod.fst) → c ∈ C) →
    ∑ c ∈ C, (arriving flow (some c)).sum = (flow.map fun e => e.2.1.1 + e.2.1.2).sum
  | [], _, _ => by simp [arriving]
  | e :: f, hs, hC => by
    have ih := total_arriving C f (fun x hx => hs x (List.mem_cons_of_mem _ hx)) fun c hc => hC c (by
      simp only [List.map_cons, insOf, List.flatMap_cons]
      exact List.mem_append.2 (.inr hc))
    simp only [sum_arriving] at ih ⊢
    simp only [List.map_cons, List.sum_cons, Finset.sum_add_distrib] at ih ⊢
    rw [ih]
    have h0 := hs e List.mem_cons_self
    rw [sum_colours, sum_colours]
    · exact h0.in2
    · intro c h; exact hC c (by simp [insOf, h])
    · exact h0.in1
    · intro c h; exact hC c (by simp [insOf, h])

theorem Shares.total {k : Node} {x : Amounts} (h : Shares k x) (hk : k.outputs ≠ 0) : x.2.1 + x.2.2 = x.1.1 + x.1.2 := by
  obtain ⟨⟨i1, i2⟩, o1, o2⟩ := k
  have h1 := h.out1
  have h2 := h.out2
  cases o1 <;> cases o2 <;> simp [Node.outputs] at hk h1 h2 <;> linarith

theorem leaving_card (c : Colour) : ∀ flow : List (Node × Amounts), (leaving flow c).card = (outsOf (flow.map Prod.fst)).count c
  | [] => rfl
  | e :: f => by
    have ih := leaving_card c f
    simp only [leaving, outsOf, Multiset.coe_card, List.map_cons, List.flatMap_cons, List.filterMap_append, List.length_append,
      List.count_append] at ih ⊢
    rw [ih]
    congr 1
    by_cases h1 : e.1.2.1 = c <;> by_cases h2 : e.1.2.2 = c <;> simp [h1, h2]

theorem arriving_card (c : Colour) : ∀ flow : List (Node × Amounts), (arriving flow c).card = (insOf (flow.map Prod.fst)).count c
  | [] => rfl
  | e :: f => by
    have ih := arriving_card c f
    simp only [arriving, insOf, Multiset.coe_card, List.map_cons, List.flatMap_cons, List.filterMap_append, List.length_append,
      List.count_append] at ih ⊢
    rw [ih]
    congr 1
    by_cases h1 : e.1.1.1 = c <;> by_cases h2 : e.1.1.2 = c <;> simp [h1, h2]

section
variable {n : Network} {a b : Int} {flow : List (Node × Amounts)} {inputs outputs : Multiset ℚ}

/-- A flow with the splitters in the order of the network. -/
theorem NetworkFlow.ordered (h : NetworkFlow n a b flow inputs outputs) :
    ∃ flow', flow'.Perm flow ∧ OrderedFlow n a b flow' inputs outputs := by
  obtain ⟨flow', h1, h2⟩ := perm_of_map h.nodes
  exact ⟨flow', h1, h2, fun x hx => h.shares x (h1.mem_iff.1 hx), fun c => by
    rw [leaving_perm h1, arriving_perm h1]; exact h.connected c⟩

/-- What goes in comes out. -/
theorem NetworkFlow.total (h : NetworkFlow n a b flow inputs outputs) (hn : ∀ k ∈ n, k.outputs ≠ 0) : inputs.sum = outputs.sum := by
  obtain ⟨flow, -, h⟩ := h.ordered
  let C : Finset Int := ((outsOf n ++ insOf n).filterMap id ++ [a, b]).toFinset
  have ha : a ∈ C := by simp [C]
  have hb : b ∈ C := by simp [C]
  have h1 := total_leaving C flow h.shares fun c hc => by
    rw [h.nodes] at hc
    exact List.mem_toFinset.2 (List.mem_append.2 (.inl (List.mem_filterMap.2 ⟨some c, List.mem_append.2 (.inl hc), rfl⟩)))
  have h2 := total_arriving C flow h.shares fun c hc => by
    rw [h.nodes] at hc
    exact List.mem_toFinset.2 (List.mem_append.2 (.inl (List.mem_filterMap.2 ⟨some c, List.mem_append.2 (.inr hc), rfl⟩)))
  have h3 : (flow.map fun e => e.2.2.1 + e.2.2.2) = flow.map fun e => e.2.1.1 + e.2.1.2 :=
    List.map_congr_left fun e he => (h.shares e he).total (hn _ (h.nodes ▸ List.mem_map_of_mem he))
  have h4 : ∑ c ∈ C, ((leaving flow (some c)).sum + if c = a then inputs.sum else 0) =
      ∑ c ∈ C, ((arriving flow (some c)).sum + if c = b then outputs.sum else 0) :=
    Finset.sum_congr rfl fun c _ => by
      have := congrArg Multiset.sum (h.connected c)
      rw [Multiset.sum_add, Multiset.sum_add] at this
      have e1 : (if c = a then inputs else 0).sum = if c = a then inputs.sum else 0 := by split <;> simp
      have e2 : (if c = b then outputs else 0).sum = if c = b then outputs.sum else 0 := by split <;> simp
      rw [← e1, ← e2]
      exact this
  rw [Finset.sum_add_distrib, Finset.sum_add_distrib, h1, h2, h3, Finset.sum_ite_eq', Finset.sum_ite_eq', if_pos ha, if_pos hb] at h4
  linarith

/-- As many belts go in and come out as the network says. -/
theorem NetworkFlow.card {p q : Int} (h : NetworkFlow n a b flow inputs outputs) (hE : Ends n a p b q) :
    (inputs.card : Int) = p ∧ (outputs.card : Int) = q := by
  have hab : a ≠ b := by
    rintro rfl
    have h1 := hE.input
    rw [hE.output] at h1
    have := hE.pos
    have := hE.neg
    omega
  obtain ⟨flow, -, h⟩ := h.ordered
  have k1 := congrArg Multiset.card (h.connected a)
  have k2 := congrArg Multiset.card (h.connected b)
  rw [if_pos rfl, if_neg hab, add_zero, Multiset.card_add, leaving_card, arriving_card, h.nodes] at k1
  rw [if_pos rfl, if_neg hab.symm, add_zero, Multiset.card_add, leaving_card, arriving_card, h.nodes] at k2
  have e1 := hE.input
  have e2 := hE.output
  unfold surplus at e1 e2
  omega

end

/-! ### The order of the belts at a splitter -/

theorem sortSide_or (s : Colour × Colour) : sortSide s = s ∨ sortSide s = (s.2, s.1) := by
  unfold sortSide
  split
  · exact .inr rfl
  · exact .inl rfl

theorem shares_swap_in {i1 i2 o1 o2 : Colour} {x y z w : ℚ} (h : Shares ((i1, i2), (o1, o2)) ((x, y), (z, w))) :
    Shares ((i2, i1), (o1, o2)) ((y, x), (z, w)) := by
  refine ⟨h.in2, h.in1, ?_, ?_⟩
  · have := h.out1
    rw [add_comm] at this
    exact this
  · have := h.out2
    rw [add_comm] at this
    exact this

theorem shares_swap_out {i1 i2 o1 o2 : Colour} {x y z w : ℚ} (h : Shares ((i1, i2), (o1, o2)) ((x, y), (z, w))) :
    Shares ((i1, i2), (o2, o1)) ((x, y), (w, z)) := by
  have e : Node.outputs ((i1, i2), (o2, o1)) = Node.outputs ((i1, i2), (o1, o2)) := by
    cases o1 <;> cases o2 <;> rfl
  refine ⟨h.in1, h.in2, ?_, ?_⟩
  · rw [e]; exact h.out2
  · rw [e]; exact h.out1

/-- The amounts at a splitter, with its belts in another order. -/
theorem shares_unsort (k : Node) (x : Amounts) (h : Shares (sortNode k) x) : ∃ y : Amounts, Shares k y ∧
    List.Perm [(k.1.1, y.1.1), (k.1.2, y.1.2)] [((sortNode k).1.1, x.1.1), ((sortNode k).1.2, x.1.2)] ∧
    List.Perm [(k.2.1, y.2.1), (k.2.2, y.2.2)] [((sortNode k).2.1, x.2.1), ((sortNode k).2.2, x.2.2)] := by
  obtain ⟨⟨i1, i2⟩, o1, o2⟩ := k
  obtain ⟨⟨x1, x2⟩, x3, x4⟩ := x
  unfold sortNode at *
  rcases sortSide_or (i1, i2) with e1 | e1 <;> rcases sortSide_or (o1, o2) with e2 | e2 <;> simp only [e1, e2] at h ⊢
  · exact ⟨_, h, .refl _, .refl _⟩
  · exact ⟨_, shares_swap_out h, .refl _, .swap _ _ _⟩
  · exact ⟨_, shares_swap_in h, .swap _ _ _, .refl _⟩
  · exact ⟨_, shares_swap_in (shares_swap_out h), .swap _ _ _, .swap _ _ _⟩

theorem flow_unsort : ∀ (n : Network) (flow : List (Node × Amounts)), flow.map Prod.fst = n.map sortNode → (∀ x ∈ flow, Shares x.1 x.2) →
    ∃ flow' : List (Node × Amounts), flow'.map Prod.fst = n ∧ (∀ x ∈ flow', Shares x.1 x.2) ∧
      (∀ c, leaving flow' c = leaving flow c) ∧ ∀ c, arriving flow' c = arriving flow c
  | [], flow, h, _ => ⟨[], rfl, by simp, by
      have : flow = [] := by simpa using h
      subst this
      exact ⟨fun _ => rfl, fun _ => rfl⟩⟩
  | k :: n, [], h, _ => by simp at h
  | k :: n, e :: flow, h, hs => by
    simp only [List.map_cons, List.cons.injEq] at h
    obtain ⟨flow', h1, h2, h3, h4⟩ := flow_unsort n flow h.2 fun x hx => hs x (List.mem_cons_of_mem _ hx)
    have h0 := hs e List.mem_cons_self
    rw [h.1] at h0
    obtain ⟨y, k1, k2, k3⟩ := shares_unsort k e.2 h0
    refine ⟨(k, y) :: flow', by rw [List.map_cons, h1], fun x hx => ?_, fun c => ?_, fun c => ?_⟩
    · rcases List.mem_cons.1 hx with rfl | hx
      · exact k1
      · exact h2 x hx
    · have := h3 c
      unfold leaving at this ⊢
      rw [Multiset.coe_eq_coe] at this ⊢
      rw [List.flatMap_cons, List.flatMap_cons, List.filterMap_append, List.filterMap_append]
      refine List.Perm.append ?_ this
      rw [h.1]
      exact k3.filterMap _
    · have := h4 c
      unfold arriving at this ⊢
      rw [Multiset.coe_eq_coe] at this ⊢
      rw [List.flatMap_cons, List.flatMap_cons, List.filterMap_append, List.filterMap_append]
      refine List.Perm.append ?_ this
      rw [h.1]
      exact k2.filterMap _

/-- What the program makes of a network carries what the network carries. -/
theorem flow_of_dedup {n : Network} {a b : Int} {flow : List (Node × Amounts)} {inputs outputs : Multiset ℚ}
    (h : NetworkFlow (elements (deduplicateNetwork n)) a b flow inputs outputs) : ∃ flow', NetworkFlow n a b flow' inputs outputs := by
  have h' : NetworkFlow (n.map sortNode) a b flow inputs outputs := ⟨h.nodes.trans (c39_elements n).1, h.shares, h.connected⟩
  obtain ⟨flow, -, h⟩ := h'.ordered
  obtain ⟨flow', h1, h2, h3, h4⟩ := flow_unsort n flow h.nodes h.shares
  exact ⟨flow', h1 ▸ .refl _, h2, fun c => by rw [h3, h4]; exact h.connected c⟩

end FSat
