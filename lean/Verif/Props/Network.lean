import Verif.Lemmas.NetworkText
import Verif.Lemmas.NetworkNorm
/-!
# Properties of splitter networks (C35 - C39, C63, C64)
-/

namespace FSat

/-- Both iteration orders used in the examples. -/
theorem setOrder_id : SetOrder id := fun _ => List.Perm.refl _
theorem setOrder_reverse : SetOrder List.reverse := fun l => List.reverse_perm l

/-! ### C35 -/

/-- C35: `create_benes_network` returns for every size from two up and whatever the order in which Python iterates over its sets; no
colour is `None`; one colour `a` has `size` more inputs than outputs, one colour `b` has `size` more outputs than inputs, and all
others are balanced, as `get_input_output_colours` reports. -/
theorem c35_benes_size (ord : Nat → List Colour → List Colour) (hord : ∀ k, SetOrder (ord k)) (size : Nat) (h : 2 ≤ size) :
    ∃ n a b, createBenes ord size = .ok n ∧ Ends n a size b size ∧
      getInputOutputColours n = .ok ((a, (size : Int)), (b, (size : Int))) ∧
      (∀ nd ∈ n, nd.1.1 ≠ none ∧ nd.1.2 ≠ none ∧ nd.2.1 ≠ none ∧ nd.2.2 ≠ none) := by
  obtain ⟨n, a, b, e, -, hg⟩ := createBenes_good ord hord size h
  refine ⟨n, a, b, e, hg.ends, (gio_iff _ _ _ _ _).2 hg.ends, ?_⟩
  intro nd hnd
  have hi : ∀ c, (c = nd.1.1 ∨ c = nd.1.2) → c ∈ insOf n := fun c hc =>
    List.mem_flatMap.2 ⟨nd, hnd, by simpa using hc⟩
  have ho : ∀ c, (c = nd.2.1 ∨ c = nd.2.2) → c ∈ outsOf n := fun c hc =>
    List.mem_flatMap.2 ⟨nd, hnd, by simpa using hc⟩
  exact ⟨hg.none_ _ (List.mem_append_left _ (hi _ (Or.inl rfl))), hg.none_ _ (List.mem_append_left _ (hi _ (Or.inr rfl))),
    hg.none_ _ (List.mem_append_right _ (ho _ (Or.inl rfl))), hg.none_ _ (List.mem_append_right _ (ho _ (Or.inr rfl)))⟩

/-- C35: a size below two is rejected. -/
theorem c35_benes_small (ord : Nat → List Colour → List Colour) (size : Nat) (h : size < 2) :
    createBenes ord size = .error .assertion := by
  rw [createBenes, if_pos h]

/-- C35: the number of splitters; `m * 2^(m-1)` for the size `2^m`. -/
theorem c35_benes_count (ord : Nat → List Colour → List Colour) (hord : ∀ k, SetOrder (ord k)) (m : Nat) :
    ∃ n, createBenes ord (2 ^ (m + 1)) = .ok n ∧ n.length = (m + 1) * 2 ^ m := by
  obtain ⟨n, a, b, e, hl, -⟩ := createBenes_good ord hord (2 ^ (m + 1)) (by
    have := Nat.one_le_two_pow (n := m); rw [pow_succ]; omega)
  refine ⟨n, e, ?_⟩
  rw [hl]
  clear e hl n a b
  induction m with
  | zero => rw [benesCount]; rfl
  | succ m ih =>
    have h1 := Nat.one_le_two_pow (n := m)
    have h2 : 2 ^ (m + 1 + 1) = 4 * 2 ^ m := by ring
    have h3 : 2 ^ (m + 1) = 2 * 2 ^ m := by ring
    rw [benesCount, if_neg (by omega), if_neg (by omega), show 2 ^ (m + 1 + 1) / 2 = 2 ^ (m + 1) by omega, ih]
    ring

/-- C35, on the network for three belts. -/
example : createBenes (fun _ => id) 3 = .ok [((some 3, some 0), (some 1, some 2)), ((some 0, some 0), (some 1, some 2)),
    ((some 1, some 1), (some 3, some 3)), ((some 2, some 2), (some 3, some 3))] := by
  rw [createBenes, createBenes, createBenes]
  decide +kernel

/-- The meaning of `get_input_output_colours`, for every network. -/
theorem c35_input_output (n : Network) (a p b q : Int) :
    getInputOutputColours n = .ok ((a, p), (b, q)) ↔ Ends n a p b q := gio_iff n a p b q

example : getInputOutputColours [((some 3, some 0), (some 1, some 2)), ((some 0, none), (some 1, some 2)),
    ((some 1, some 1), (some 3, some 3)), ((some 2, some 2), (some 3, some 3))] = .ok ((0, 2), (3, 3)) := by decide +kernel

/-! ### C63 -/

theorem flow_zip {n : Network} {flow : List (Node × Amounts)} (h : flow.map Prod.fst = n) : flow = n.zip (flow.map Prod.snd) := by
  subst h
  induction flow with
  | nil => rfl
  | cons x flow ih => simpa using ih

theorem card_arriving (n : Network) (xs : List Amounts) (hl : xs.length = n.length) (c : Colour) :
    (arriving (n.zip xs) c).card = (insOf n).count c := by
  induction n generalizing xs with
  | nil => rfl
  | cons x n ih =>
    cases xs with
    | nil => simp at hl
    | cons y xs =>
      rw [List.zip_cons_cons, arriving_cons, insOf_cons, Multiset.card_add, Multiset.card_add, ih _ (by simpa using hl),
        List.count_cons, List.count_cons]
      by_cases h1 : x.1.1 = c <;> by_cases h2 : x.1.2 = c <;> simp [h1, h2] <;> omega

theorem card_leaving (n : Network) (xs : List Amounts) (hl : xs.length = n.length) (c : Colour) :
    (leaving (n.zip xs) c).card = (outsOf n).count c := by
  induction n generalizing xs with
  | nil => rfl
  | cons x n ih =>
    cases xs with
    | nil => simp at hl
    | cons y xs =>
      rw [List.zip_cons_cons, leaving_cons, outsOf_cons, Multiset.card_add, Multiset.card_add, ih _ (by simpa using hl),
        List.count_cons, List.count_cons]
      by_cases h1 : x.2.1 = c <;> by_cases h2 : x.2.2 = c <;> simp [h1, h2] <;> omega

/-- C63: whatever way the belts of each colour of a generated network are connected, and whatever amounts arrive at its inputs, in a
steady flow all outputs carry the same amount, the mean of the inputs; there are `size` of each. -/
theorem c63_balances (ord : Nat → List Colour → List Colour) (hord : ∀ k, SetOrder (ord k)) (size : Nat) (h : 2 ≤ size)
    (n : Network) (hn : createBenes ord size = .ok n) (a p b q : Int) (hio : getInputOutputColours n = .ok ((a, p), (b, q)))
    (flow : List (Node × Amounts)) (inputs outputs : Multiset ℚ) (hf : SteadyFlow n a b flow inputs outputs) :
    inputs.card = size ∧ outputs.card = size ∧ ∀ y ∈ outputs, y = inputs.sum / size := by
  obtain ⟨n', a', b', e, -, hg⟩ := createBenes_good ord hord size h
  rw [hn] at e
  simp only [Except.ok.injEq] at e
  subst e
  have hio' := (gio_iff _ _ _ _ _).2 hg.ends
  rw [hio] at hio'
  simp only [Except.ok.injEq, Prod.mk.injEq] at hio'
  obtain ⟨⟨rfl, rfl⟩, rfl, rfl⟩ := hio'
  have hab := hg.ends.ne
  obtain ⟨h1, h2, h3⟩ := hf
  have hz := flow_zip h1
  set xs := flow.map Prod.snd with hxs
  have hl : xs.length = n.length := by rw [← h1, hxs]; simp
  have he : ∀ x ∈ xs, Even x := by
    intro x hx
    obtain ⟨y, hy, rfl⟩ := List.mem_map.1 hx
    exact h2 y hy
  rw [hz] at h3
  have ha := h3 a
  have hb := h3 b
  rw [if_pos rfl, if_neg hab, leaving_none _ _ _ hg.start, zero_add, add_zero] at ha
  rw [if_neg (Ne.symm hab), if_pos rfl, add_zero] at hb
  have hs1 := hg.ends.input
  have hs2 := hg.ends.output
  unfold surplus at hs1 hs2
  refine ⟨?_, ?_, ?_⟩
  · rw [ha, card_arriving _ _ hl]
    rw [List.count_eq_zero_of_not_mem hg.start] at hs1
    push_cast at hs1
    omega
  · have := congrArg Multiset.card hb
    rw [Multiset.card_add, card_leaving _ _ hl, card_arriving _ _ hl] at this
    omega
  · intro y hy
    have := hg.balance (by omega) xs hl he (fun c hca hcb => by
      have := h3 c
      rwa [if_neg hca, if_neg hcb, add_zero, add_zero] at this)
      (fun y hy => by rw [hb]; exact Multiset.mem_add.2 (Or.inl hy)) y (by rw [hb]; exact Multiset.mem_add.2 (Or.inr hy))
    rw [← ha] at this
    have hk : (size : ℚ) ≠ 0 := by
      have : 0 < size := by omega
      exact_mod_cast this.ne'
    rw [← this, mul_comm, mul_div_assoc, div_self hk, mul_one]

/-- C63 is not vacuous: a steady flow through the network for three belts, with one output fed back, unequal inputs 6, 0 and 3, and
the belts of colours 1 and 2 crossed. -/
example : SteadyFlow [((some 3, some 0), (some 1, some 2)), ((some 0, some 0), (some 1, some 2)),
      ((some 1, some 1), (some 3, some 3)), ((some 2, some 2), (some 3, some 3))] 0 3
    [(((some 3, some 0), (some 1, some 2)), ((3, 6), (9 / 2, 9 / 2))), (((some 0, some 0), (some 1, some 2)), ((0, 3), (3 / 2, 3 / 2))),
      (((some 1, some 1), (some 3, some 3)), ((3 / 2, 9 / 2), (3, 3))), (((some 2, some 2), (some 3, some 3)), ((9 / 2, 3 / 2), (3, 3)))]
    {6, 0, 3} {3, 3, 3} := by
  refine ⟨rfl, ?_, ?_⟩
  · simp only [List.mem_cons, List.not_mem_nil, or_false, forall_eq_or_imp, forall_eq, Even]
    norm_num
  · intro c
    have hc : c = 0 ∨ c = 1 ∨ c = 2 ∨ c = 3 ∨ (c ≠ 0 ∧ c ≠ 1 ∧ c ≠ 2 ∧ c ≠ 3) := by omega
    rcases hc with rfl | rfl | rfl | rfl | ⟨h0, h1, h2, h3⟩
    · decide +kernel
    · decide +kernel
    · decide +kernel
    · decide +kernel
    · simp only [leaving_cons, arriving_cons, leaving_nil, arriving_nil, Option.some.injEq, Ne.symm h0, Ne.symm h1, Ne.symm h2,
        Ne.symm h3, h0, h3, if_false]

/-! ### C36 -/

/-- C36: what is read back after saving; only the colour `-1` is lost (it becomes `None`). -/
theorem c36_round_trip (n : Network) (h : some (-1) ∉ insOf n ++ outsOf n) : openNetwork (saveNetwork n) = .ok n := by
  rw [open_save]
  congr 1
  conv_rhs => rw [← List.map_id n]
  apply List.map_congr_left
  intro nd hnd
  have key : ∀ c, c ∈ insOf n ++ outsOf n → colourOfInt (intOfColour c) = c := by
    intro c hc
    cases c with
    | none => rfl
    | some x =>
      have : x ≠ -1 := by rintro rfl; exact h hc
      simp [colourOfInt, intOfColour, this]
  have hi : ∀ c, (c = nd.1.1 ∨ c = nd.1.2) → c ∈ insOf n ++ outsOf n := fun c hc =>
    List.mem_append_left _ (List.mem_flatMap.2 ⟨nd, hnd, by simpa using hc⟩)
  have ho : ∀ c, (c = nd.2.1 ∨ c = nd.2.2) → c ∈ insOf n ++ outsOf n := fun c hc =>
    List.mem_append_right _ (List.mem_flatMap.2 ⟨nd, hnd, by simpa using hc⟩)
  rw [key _ (hi _ (Or.inl rfl)), key _ (hi _ (Or.inr rfl)), key _ (ho _ (Or.inl rfl)), key _ (ho _ (Or.inr rfl))]
  rfl

example : some (-1) ∉ insOf [((some 3, none), (some (-12), some 2))] ++ outsOf [((some 3, none), (some (-12), some 2))] := by decide

example : saveNetwork [((some 3, none), (some (-12), some 2))] = "3 -1 -12 2\n".toList := by decide +kernel

/-- C36: blank lines and comments are ignored, anywhere in the file. -/
theorem c36_skipped (pre line post : List Char) (hpre : pre = [] ∨ pre.getLast? = some '\n') (hline : '\n' ∉ line)
    (h : Skipped line) : openNetwork (pre ++ line ++ '\n' :: post) = openNetwork (pre ++ post) := by
  have h' : Skipped (line ++ ['\n']) := by
    rcases h with h | ⟨w, r, hw, rfl⟩
    · refine Or.inl fun c hc => ?_
      rcases List.mem_append.1 hc with hc | hc
      · exact h c hc
      · rw [List.mem_singleton] at hc
        subst hc
        decide
    · exact Or.inr ⟨w, r ++ ['\n'], hw, by simp⟩
  unfold openNetwork
  rw [List.append_assoc, readLines_append _ _ hpre, readLines_append _ _ hpre, readLines_line _ _ hline, openLines_skip _ _ _ h']

example : openNetwork "0 0 1 1\n  # two\n\n1 1 2 -1\n".toList = .ok [((some 0, some 0), (some 1, some 1)),
    ((some 1, some 1), (some 2, none))] := by decide +kernel

/-- C36: a line with four numbers and any white space is a node. -/
theorem c36_node (line post : List Char) (hline : '\n' ∉ line) (a b c d : Int) (h : NodeLine a b c d (line ++ ['\n'])) :
    openNetwork (line ++ '\n' :: post) = (openNetwork post).map
      fun n => ((colourOfInt a, colourOfInt b), (colourOfInt c, colourOfInt d)) :: n := by
  obtain ⟨w, l, hw, hs, e⟩ := h
  unfold openNetwork
  rw [readLines_line _ _ hline, openLines_good _ _ a b c d w hw l hs e]
  cases openLines (readLines post) <;> rfl

/-- C36: a line that is neither blank nor a comment and has a number of fields other than four makes the file invalid. -/
theorem c36_rejects (pre line post : List Char) (hpre : pre = [] ∨ pre.getLast? = some '\n') (hline : '\n' ∉ line)
    (h : ¬ Skipped (line ++ ['\n'])) (hl : (splitWs line).length ≠ 4) :
    openNetwork (pre ++ line ++ '\n' :: post) = .error .valueError := by
  unfold openNetwork
  rw [List.append_assoc, readLines_append _ _ hpre, readLines_line _ _ hline, openLines_bad _ _ _ h]
  rwa [splitWs_trailing _ _ (by decide)]

/-- C36: nothing but a `ValueError` can happen. -/
theorem c36_errors (text : List Char) (e : PyErr) (h : openNetwork text = .error e) : e = .valueError := openLines_error h

example : openNetwork "0 0 1 1\n1 1 2\n".toList = .error .valueError := by decide +kernel

/-! ### C37 -/

/-- C37: flipping twice gives the network back. -/
theorem c37_involution (n : Network) : flipNetwork (flipNetwork n) = n := flip_flip n

/-- C37: flipping exchanges the input and output colours and counts, also with the list reversed as the command line does. -/
theorem c37_ends (n : Network) (a p b q : Int) :
    (getInputOutputColours (flipNetwork n) = .ok ((a, p), (b, q)) ↔ getInputOutputColours n = .ok ((b, q), (a, p))) ∧
    (getInputOutputColours (flipNetwork n).reverse = .ok ((a, p), (b, q)) ↔ getInputOutputColours n = .ok ((b, q), (a, p))) := by
  have h1 : Ends (flipNetwork n) a p b q ↔ Ends n b q a p :=
    ⟨fun h => by simpa [flip_flip] using h.flip, fun h => h.flip⟩
  rw [gio_iff, gio_iff, gio_iff, Ends.congr (fun c => surplus_perm (List.reverse_perm _) c)]
  exact ⟨h1, h1⟩

example : getInputOutputColours (flipNetwork [((some 0, some 0), (some 1, some 2)), ((some 0, none), (some 1, some 2)),
    ((some 1, some 1), (some 3, some 3)), ((some 2, some 2), (some 3, some 3))]) = .ok ((3, 4), (0, 3)) := by decide +kernel

/-! ### C38 -/

/-- C38: `fix_colours` renames the colours; different colours stay different; the new colours are exactly `0 .. total - 1`; colours
that are only inputs come before all those that are outputs, and colours that are only outputs after all those that are inputs. `None`
stays `None` (`rename`). -/
theorem c38_fix_colours (ord : List Colour → List Colour) (hord : SetOrder ord) (n : Network) :
    ∃ (f : Int → Int) (total : Nat), fixColours ord n = .ok (rename f n) ∧
      (∀ c d, some c ∈ insOf n ++ outsOf n → some d ∈ insOf n ++ outsOf n → f c = f d → c = d) ∧
      (∀ c, some c ∈ insOf n ++ outsOf n → 0 ≤ f c ∧ f c < total) ∧
      (∀ k : Int, 0 ≤ k → k < total → ∃ c, some c ∈ insOf n ++ outsOf n ∧ f c = k) ∧
      (∀ c d, some c ∈ insOf n → some c ∉ outsOf n → some d ∈ outsOf n → f c < f d) ∧
      (∀ c d, some c ∈ outsOf n → some c ∉ insOf n → some d ∈ insOf n → f d < f c) := fixColours_spec ord hord n

/-- C38: hence input and output counts are kept. -/
theorem c38_ends (ord : List Colour → List Colour) (hord : SetOrder ord) (n : Network) (a p b q : Int)
    (h : getInputOutputColours n = .ok ((a, p), (b, q))) :
    ∃ m a' b', fixColours ord n = .ok m ∧ getInputOutputColours m = .ok ((a', p), (b', q)) := by
  obtain ⟨f, total, e, hinj, -⟩ := fixColours_spec ord hord n
  exact ⟨_, f a, f b, e, (gio_iff _ _ _ _ _).2 (((gio_iff _ _ _ _ _).1 h).rename f hinj)⟩

example : fixColours List.reverse [((some 7, some 9), (some 5, some 5)), ((some 5, some 5), (none, some 2))] =
    .ok [((some 1, some 0), (some 2, some 2)), ((some 2, some 2), (none, some 3))] := by decide +kernel

/-! ### C39 -/

/-- C39: two splitters have the same key exactly when they agree up to the order of inputs and of outputs. -/
theorem c39_keys (x y : Node) : sortNode x = sortNode y ↔ SameNode x y := sortNode_iff x y

/-- C39: in a key the two connections of each side ascend, a missing one first. -/
theorem c39_ascending (n : Network) (k : Node) (m : Nat) (hk : (deduplicateNetwork n).get k = some m) (a b : Int) :
    (k.1 = (some a, some b) → a ≤ b) ∧ (k.2 = (some a, some b) → a ≤ b) ∧ k.1 ≠ (some a, none) ∧ k.2 ≠ (some a, none) := by
  unfold deduplicateNetwork at hk
  rw [counter_get] at hk
  split at hk
  case isFalse => cases hk
  rename_i hm
  obtain ⟨x, _, rfl⟩ := List.mem_map.1 hm
  have key : ∀ s : Colour × Colour, (sortSide s = (some a, some b) → a ≤ b) ∧ sortSide s ≠ (some a, none) := by
    rintro ⟨_ | p, _ | q⟩
    · simp [sortSide, colourLt]
    · simp [sortSide, colourLt]
    · simp [sortSide, colourLt]
    · by_cases h : q < p <;> simp [sortSide, colourLt, h] <;> omega
  exact ⟨(key _).1, (key _).1, (key _).2, (key _).2⟩

/-- C39: the count under the key of a splitter is the number of splitters in the network like it; other keys do not occur. -/
theorem c39_counts (n : Network) :
    (∀ x ∈ n, (deduplicateNetwork n).get (sortNode x) = some (n.countP fun y => decide (SameNode y x))) ∧
    (∀ k, (∀ x ∈ n, sortNode x ≠ k) → (deduplicateNetwork n).get k = none) ∧
    (((deduplicateNetwork n).map Prod.snd).sum = n.length) := by
  refine ⟨fun x hx => ?_, fun k hk => ?_, ?_⟩
  · unfold deduplicateNetwork
    rw [counter_get, if_pos (List.mem_map_of_mem hx), List.count_eq_countP, List.countP_map]
    congr 2
    funext y
    simp only [Function.comp_apply, ← sortNode_iff]
    exact beq_eq_decide _ _
  · unfold deduplicateNetwork
    rw [counter_get, if_neg]
    intro h
    obtain ⟨x, hx, e⟩ := List.mem_map.1 h
    exact hk x hx e
  · rw [← elements_length]
    unfold deduplicateNetwork
    rw [(elements_perm _).length_eq, List.length_map]

/-- C39: the splitters listed by the counter (`elements`) are those of the network, up to order. -/
theorem c39_elements (n : Network) : (elements (deduplicateNetwork n)).Perm (n.map sortNode) ∧ ∀ x ∈ n, SameNode (sortNode x) x :=
  ⟨elements_perm _, fun x _ => sortNode_same x⟩

/-- C39: input and output colours and counts are unchanged. -/
theorem c39_ends (n : Network) (a p b q : Int) :
    getInputOutputColours (elements (deduplicateNetwork n)) = .ok ((a, p), (b, q)) ↔
      getInputOutputColours n = .ok ((a, p), (b, q)) := by
  rw [gio_iff, gio_iff]
  apply Ends.congr
  intro c
  unfold deduplicateNetwork
  rw [surplus_perm (elements_perm (n.map sortNode)), surplus_sameNode _ sortNode_same]

example : deduplicateNetwork [((some 1, none), (some 3, some 2)), ((some 4, some 4), (some 1, some 1)),
    ((none, some 1), (some 2, some 3))] = [(((none, some 1), (some 2, some 3)), 2), (((some 4, some 4), (some 1, some 1)), 1)] := by
  decide +kernel

/-! ### C64 -/

/-- C64: `tidy_network` gives the same network with its colours renamed one to one, its splitters reordered, and the two sides of each
splitter in ascending order. The splitters are ordered by how many of their outputs leave and of their inputs enter the network, and then
by their first input. -/
theorem c64_tidy (ord : List Colour → List Colour) (hord : SetOrder ord) (n : Network) :
    ∃ (f : Int → Int) (m m' : Network), tidyNetwork ord n = .ok m ∧
      (∀ c d, some c ∈ insOf n ++ outsOf n → some d ∈ insOf n ++ outsOf n → f c = f d → c = d) ∧
      m'.Perm (rename f n) ∧ List.Forall₂ SameNode m m' ∧
      (∀ nd ∈ m, nd.1.1.getD (-1) ≤ nd.1.2.getD (-1) ∧ nd.2.1.getD (-1) ≤ nd.2.2.getD (-1)) ∧
      m.Pairwise (fun x y => rank m x < rank m y ∨ rank m x = rank m y ∧ x.1.1.getD (-1) ≤ y.1.1.getD (-1)) := by
  obtain ⟨f, total, e, hinj, -⟩ := fixColours_spec ord hord n
  set tidy : Node → Node := fun nd => (tidySide nd.1, tidySide nd.2) with htidy
  have hsame : ∀ nd, SameNode (tidy nd) nd := fun nd => ⟨tidySide_same _, tidySide_same _⟩
  have hperm : (sortBy (edgeKey (getExteriorColours (rename f n)).1 (getExteriorColours (rename f n)).2)
      (sortBy (fun nd => noneKey nd.1.1) ((rename f n).map tidy))).Perm ((rename f n).map tidy) :=
    (List.perm_insertionSort _ _).trans (List.perm_insertionSort _ _)
  set m := sortBy (edgeKey (getExteriorColours (rename f n)).1 (getExteriorColours (rename f n)).2)
      (sortBy (fun nd => noneKey nd.1.1) ((rename f n).map tidy)) with hm
  obtain ⟨m', hp, hmap⟩ : ∃ m' : Network, m'.Perm (rename f n) ∧ m'.map tidy = m := by
    have key : ∀ (l : List Node) (r : List Node), r.Perm (l.map tidy) → ∃ m' : List Node, m'.Perm l ∧ m'.map tidy = r := by
      intro l
      induction l with
      | nil => intro r hr; exact ⟨[], List.Perm.refl _, by simpa using hr.symm⟩
      | cons x l ih =>
        intro r hr
        have hx : tidy x ∈ r := hr.symm.subset (by simp)
        obtain ⟨s, t, rfl⟩ := List.append_of_mem hx
        have h2 : (s ++ t).Perm (l.map tidy) := by
          have := (List.perm_middle.symm.trans hr)
          simpa using this
        obtain ⟨m', hp, he⟩ := ih _ h2
        obtain ⟨s', t', rfl, rfl, rfl⟩ := List.map_eq_append_iff.1 he
        exact ⟨s' ++ x :: t', List.perm_middle.trans (List.Perm.cons _ hp), by simp⟩
    exact key _ _ hperm
  have hfa : List.Forall₂ SameNode m m' := by
    rw [← hmap, List.forall₂_map_left_iff]
    exact List.forall₂_same.2 fun x _ => hsame x
  refine ⟨f, m, m', ?_, hinj, hp, hfa, ?_, ?_⟩
  · unfold tidyNetwork
    rw [e]
  · intro nd hnd
    obtain ⟨x, -, rfl⟩ := List.mem_map.1 (hperm.subset hnd)
    exact ⟨tidySide_sorted _, tidySide_sorted _⟩
  · have hk : ∀ nd, edgeKey (getExteriorColours (rename f n)).1 (getExteriorColours (rename f n)).2 nd = rank m nd :=
      edgeKey_rank (fun c => ((hp.flatMap_right _).mem_iff.symm.trans (mem_sides_same hfa c).1))
        (fun c => ((hp.flatMap_right _).mem_iff.symm.trans (mem_sides_same hfa c).2))
    have h1 : (sortBy (fun nd => noneKey nd.1.1) ((rename f n).map tidy)).Pairwise
        fun x y => noneKey x.1.1 ≤ noneKey y.1.1 :=
      (sortBy_lex _ (fun _ _ => True) _ (List.pairwise_of_forall (fun _ _ => trivial))).imp (by intro x y h; omega)
    have h2 := sortBy_lex (edgeKey (getExteriorColours (rename f n)).1 (getExteriorColours (rename f n)).2) _ _ h1
    simp only [hk] at h2
    refine List.Pairwise.imp ?_ (hm ▸ h2)
    intro x y h
    exact h

/-- C64: input and output counts are kept. -/
theorem c64_ends (ord : List Colour → List Colour) (hord : SetOrder ord) (n : Network) (a p b q : Int)
    (h : getInputOutputColours n = .ok ((a, p), (b, q))) :
    ∃ m a' b', tidyNetwork ord n = .ok m ∧ getInputOutputColours m = .ok ((a', p), (b', q)) := by
  obtain ⟨f, total, e, hinj, -⟩ := fixColours_spec ord hord n
  refine ⟨_, f a, f b, by unfold tidyNetwork; rw [e], ?_⟩
  have h1 := ((gio_iff _ _ _ _ _).1 h).rename f hinj
  rw [gio_iff]
  refine (Ends.congr (fun c => ?_) _ _ _ _).2 h1
  unfold sortBy
  rw [surplus_perm ((List.perm_insertionSort _ _).trans (List.perm_insertionSort _ _)),
    surplus_sameNode _ fun nd => ⟨tidySide_same _, tidySide_same _⟩]

/-- C64: the colours of the normalised network are the numbers from 0 on, without gaps. -/
theorem c64_colours (ord : List Colour → List Colour) (hord : SetOrder ord) (n : Network) :
    ∃ (m : Network) (total : Nat), tidyNetwork ord n = .ok m ∧
      ∀ k : Int, some k ∈ insOf m ++ outsOf m ↔ 0 ≤ k ∧ k < total := by
  obtain ⟨f, total, e, -, h1, h2, -⟩ := fixColours_spec ord hord n
  refine ⟨_, total, by unfold tidyNetwork; rw [e], fun k => ?_⟩
  have hp := (List.perm_insertionSort (r := fun a b => edgeKey (getExteriorColours (rename f n)).1 (getExteriorColours (rename f n)).2 a ≤
      edgeKey (getExteriorColours (rename f n)).1 (getExteriorColours (rename f n)).2 b) _).trans
    (List.perm_insertionSort (r := fun a b => noneKey (Prod.fst (Prod.fst a)) ≤ noneKey (Prod.fst (Prod.fst b)))
      ((rename f n).map fun nd : Node => (tidySide nd.1, tidySide nd.2)))
  have hs : List.Forall₂ SameNode ((rename f n).map fun nd : Node => (tidySide nd.1, tidySide nd.2)) (rename f n) := by
    rw [List.forall₂_map_left_iff]
    exact List.forall₂_same.2 fun nd _ => ⟨tidySide_same _, tidySide_same _⟩
  have hm : some k ∈ insOf (rename f n) ++ outsOf (rename f n) ↔ 0 ≤ k ∧ k < total := by
    rw [insOf_rename, outsOf_rename, ← List.map_append, List.mem_map]
    constructor
    · rintro ⟨c, hc, e⟩
      cases c with
      | none => cases e
      | some c =>
        cases e
        exact h1 c hc
    · rintro ⟨h3, h4⟩
      obtain ⟨c, hc, rfl⟩ := h2 k h3 h4
      exact ⟨some c, hc, rfl⟩
  rw [← hm, List.mem_append, List.mem_append, (mem_sides_same hs _).1, (mem_sides_same hs _).2]
  exact or_congr (List.Perm.flatMap_right _ hp).mem_iff (List.Perm.flatMap_right _ hp).mem_iff

example : tidyNetwork id [((some 5, some 6), (none, some 2)), ((some 7, some 7), (some 6, some 5))] =
    .ok [((some 0, some 0), (some 1, some 2)), ((some 1, some 2), (none, some 3))] := by decide +kernel

end FSat
