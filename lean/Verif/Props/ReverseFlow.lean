import Verif.Model.NetworkMain
import Verif.Lemmas.ReverseFlow
import Verif.Props.Network
import Verif.Props.NetworkFlow
import Verif.Props.ShippedNetworks
/-!
# C95: reversing a balancer
-/

namespace FSat

open Finset

theorem AllFull.ofFn {k : Nat} {K : Fin k → Node} (h : AllFull (List.ofFn K)) (i : Fin k) :
    (K i).1.1 ≠ none ∧ (K i).1.2 ≠ none ∧ (K i).2.1 ≠ none ∧ (K i).2.2 ≠ none := h _ (List.mem_ofFn.2 ⟨i, rfl⟩)

theorem AllFull.flip {n : Network} (h : AllFull n) : AllFull (flipNetwork n) := by
  intro k hk
  obtain ⟨k', hk', rfl⟩ := List.mem_map.1 hk
  have := h k' hk'
  exact ⟨this.2.2.1, this.2.2.2, this.1, this.2.1⟩

theorem machineFlow_nodes {k p q : Nat} (K : Fin k → Node) (xo : (Fin k × Bool) ⊕ Fin p → ℚ) (xi : (Fin k × Bool) ⊕ Fin q → ℚ) :
    (machineFlow K xo xi).map Prod.fst = List.ofFn K := by
  unfold machineFlow
  rw [List.map_ofFn]
  rfl

theorem NetworkFlow.perm {n n' : Network} (h : n.Perm n') {a b : Int} {flow : List (Node × Amounts)} {I O : Multiset ℚ}
    (hf : NetworkFlow n a b flow I O) : NetworkFlow n' a b flow I O := ⟨hf.nodes.trans h, hf.shares, hf.connected⟩

theorem DividesEvenly.perm {n n' : Network} (h : n.Perm n') {a b : Int} {p q : Nat} (hd : DividesEvenly n a p b q) :
    DividesEvenly n' a p b q := fun flow I O hf => hd flow I O (hf.perm h.symm)

/-- The flow, seen from the other end. -/
def flipFlow (fl : List (Node × Amounts)) : List (Node × Amounts) := fl.map fun x => ((x.1.2, x.1.1), (x.2.2, x.2.1))

theorem leaving_flipFlow (fl : List (Node × Amounts)) (c : Colour) : leaving (flipFlow fl) c = arriving fl c := by
  unfold leaving arriving flipFlow
  rw [List.flatMap_map]

theorem arriving_flipFlow (fl : List (Node × Amounts)) (c : Colour) : arriving (flipFlow fl) c = leaving fl c := by
  unfold leaving arriving flipFlow
  rw [List.flatMap_map]

theorem count_colours (l : List Colour) (c : Colour) : Multiset.count c (l : Multiset Colour) = l.count c := by
  rw [Multiset.coe_count]
  unfold List.count
  exact List.countP_congr fun x _ => by simp only [beq_iff_eq]

/-- C95: for whatever arrives at the inputs of a network of splitters with two inputs and two outputs, there is a steady flow. -/
theorem c95_flow_exists (n : Network) (hn : AllFull n) (a : Int) (p : Nat) (b : Int) (q : Nat) (hio : getInputOutputColours n = .ok ((a, p), (b, q)))
    (inputs : Multiset ℚ) (hi : inputs.card = p) : ∃ flow outputs, NetworkFlow n a b flow inputs outputs := by
  have hE := (gio_iff _ _ _ _ _).1 hio
  obtain ⟨u, rfl⟩ : ∃ u : Fin p → ℚ, inputs = (univ : Finset (Fin p)).val.map u := by
    obtain ⟨l, rfl⟩ := Quot.exists_rep inputs
    have hl : l.length = p := hi
    subst hl
    refine ⟨l.get, ?_⟩
    rw [Fin.univ_val_map]
    exact (congrArg _ (List.ofFn_get l)).symm
  let K : Fin n.length → Node := n.get
  have hKn : List.ofFn K = n := List.ofFn_get n
  have hK : ∀ i, _ := (hKn.symm ▸ hn : AllFull (List.ofFn K)).ofFn
  obtain ⟨e, he⟩ := exists_equiv_of_map_eq (startColour K (p := p) a) (endColour' K (q := q) b) (by
    have h1 : ((List.finRange n.length).flatMap fun i => [(K i).2.1, (K i).2.2]) = outsOf n := by
      conv_rhs => rw [← hKn, List.ofFn_eq_map]
      unfold outsOf
      rw [List.flatMap_map]
    have h2 : ((List.finRange n.length).flatMap fun i => [(K i).1.1, (K i).1.2]) = insOf n := by
      conv_rhs => rw [← hKn, List.ofFn_eq_map]
      unfold insOf
      rw [List.flatMap_map]
    refine Multiset.ext.2 fun c => ?_
    rw [map_sum, map_sum, map_ports, map_ports, Multiset.count_add, Multiset.count_add]
    simp only [startColour, endColour', h1, h2]
    rw [Multiset.map_const', Multiset.map_const', Multiset.count_replicate, Multiset.count_replicate, count_colours, count_colours]
    have hp : Multiset.card (univ : Finset (Fin p)).val = p := by simp
    have hq : Multiset.card (univ : Finset (Fin q)).val = q := by simp
    rw [hp, hq]
    cases c with
    | none =>
      have k1 : (none : Colour) ∉ outsOf n := by
        intro hc
        obtain ⟨x, hx, hc⟩ := List.mem_flatMap.1 hc
        have := hn x hx
        simp only [List.mem_cons, List.not_mem_nil, or_false] at hc
        rcases hc with hc | hc
        · exact this.2.2.1 hc.symm
        · exact this.2.2.2 hc.symm
      have k2 : (none : Colour) ∉ insOf n := by
        intro hc
        obtain ⟨x, hx, hc⟩ := List.mem_flatMap.1 hc
        have := hn x hx
        simp only [List.mem_cons, List.not_mem_nil, or_false] at hc
        rcases hc with hc | hc
        · exact this.1 hc.symm
        · exact this.2.1 hc.symm
      rw [List.count_eq_zero_of_not_mem k1, List.count_eq_zero_of_not_mem k2]
      simp
    | some c =>
      simp only [Option.some.injEq]
      have hab := hE.ne
      by_cases hca : c = a
      · subst hca
        have := hE.input
        unfold surplus at this
        rw [if_pos rfl, if_neg (Ne.symm hab)]
        omega
      · by_cases hcb : c = b
        · subst hcb
          have := hE.output
          unfold surplus at this
          rw [if_pos rfl, if_neg hab]
          omega
        · have := hE.rest c hca hcb
          unfold surplus at this
          rw [if_neg (Ne.symm hca), if_neg (Ne.symm hcb)]
          omega)
  obtain ⟨x, hx, hu⟩ := exists_forth e u
  have := networkFlow_of_forth K hK he hx
  rw [hKn] at this
  simp only [hu] at this
  exact ⟨_, _, this⟩

/-- C95: a network of splitters with two inputs and two outputs that divides evenly also does so reversed.  Missing: networks with
splitters that have a single input or output, for which it is false. -/
theorem c95_reversed_partial (n : Network) (hn : AllFull n) (a : Int) (p : Nat) (b : Int) (q : Nat) (hd : DividesEvenly n a p b q) :
    DividesEvenly (flipNetwork n) b q a p := by
  intro flow I O hf
  obtain ⟨k, p', q', K, xo, xi, e1, rfl, rfl⟩ := exists_machineFlow (flipFlow flow) O I
  have hKp : (List.ofFn K).Perm n := by
    rw [← machineFlow_nodes K xo xi, ← e1]
    have := hf.nodes.map fun nd : Node => (nd.2, nd.1)
    have h2 : (flipNetwork n).map (fun nd : Node => (nd.2, nd.1)) = n := flip_flip n
    rw [h2] at this
    refine List.Perm.trans (.of_eq ?_) this
    unfold flipFlow
    rw [List.map_map, List.map_map]
    rfl
  have hfull : AllFull (List.ofFn K) := fun x hx => hn x (hKp.mem_iff.1 hx)
  have hK : ∀ i, _ := hfull.ofFn
  obtain ⟨e, he⟩ := exists_wiring K hK a b xo xi (fun c => by
    rw [← e1, leaving_flipFlow, arriving_flipFlow]
    exact (hf.connected c).symm)
  have hmem : ∀ i, ((K i), ((xi (.inl (i, false)), xi (.inl (i, true))), (xo (.inl (i, false)), xo (.inl (i, true))))) ∈ flipFlow flow := by
    intro i
    rw [e1]
    exact List.mem_ofFn.2 ⟨i, rfl⟩
  have hxi : ∀ s, xo (e.symm s) = xi s := by
    intro s
    have := (he (e.symm s)).2
    rw [Equiv.apply_symm_apply] at this
    exact this.symm
  have hback : Back e xo := by
    intro i c
    obtain ⟨y, hy, hyi⟩ := List.mem_map.1 (hmem i)
    have hs := hf.shares y hy
    obtain ⟨⟨⟨k1, k2⟩, ⟨k3, k4⟩⟩, ⟨⟨a1, a2⟩, ⟨a3, a4⟩⟩⟩ := y
    simp only [Prod.mk.injEq] at hyi
    obtain ⟨hk, ⟨rfl, rfl⟩, ⟨rfl, rfl⟩⟩ := hyi
    have h := hK i
    rw [← hk] at h
    have e2 : Node.outputs ((k1, k2), (k3, k4)) = 2 := by
      unfold Node.outputs
      rw [List.countP_cons, List.countP_cons, List.countP_nil, if_pos (Option.isSome_iff_ne_none.2 h.1),
        if_pos (Option.isSome_iff_ne_none.2 h.2.1)]
    have o1 := hs.out1
    have o2 := hs.out2
    simp only [if_neg h.1, if_neg h.2.1, e2] at o1 o2
    push_cast at o1 o2
    rw [hxi]
    cases c
    · linarith
    · linarith
  have hflow : ∀ u : Fin p' → ℚ, p' = p ∧ q' = q ∧ ∃ x, Forth e x ∧ (∀ j, x (.inr j) = u j) ∧ ∀ j, x (e.symm (.inr j)) * q = ∑ j, u j := by
    intro u
    obtain ⟨x, hx, hu⟩ := exists_forth e u
    obtain ⟨h1, h2, h3⟩ := hd _ _ _ ((networkFlow_of_forth K hK (fun s => (he s).1) hx).perm hKp)
    refine ⟨by simpa using h1, by simpa using h2, x, hx, hu, fun j => ?_⟩
    rw [h3 _ (Multiset.mem_map.2 ⟨j, Finset.mem_univ j, rfl⟩)]
    simp only [hu]
    rfl
  obtain ⟨rfl, rfl, -⟩ := hflow fun _ => 0
  have hpq : p' = q' := by
    have := Fintype.card_congr e
    simp only [Fintype.card_sum, Fintype.card_prod, Fintype.card_fin, Fintype.card_bool] at this
    omega
  subst hpq
  refine ⟨by simp, by simp, ?_⟩
  intro v hv
  obtain ⟨j, -, rfl⟩ := Multiset.mem_map.1 hv
  obtain ⟨-, -, x, hx, hu, hout⟩ := hflow (Pi.single j 1)
  have hrec := reciprocity e hx hback
  have h1 : ∑ k, x (.inr k) * xo (.inr k) = xo (.inr j) := by
    simp only [hu]
    rw [Finset.sum_eq_single j]
    · simp
    · intro i _ hi
      rw [Pi.single_eq_of_ne hi, zero_mul]
    · simp
  rw [h1] at hrec
  show xo (.inr j) * (p' : ℚ) = ∑ i, xi (.inr i)
  rw [hrec, Finset.sum_mul]
  refine Finset.sum_congr rfl fun i _ => ?_
  have := hout i
  rw [Finset.sum_pi_single' ] at this
  simp only [Finset.mem_univ, if_true] at this
  rw [hxi, mul_right_comm, this, one_mul]

/-- C95 is not vacuous: the shipped network for three belts is full, and divides evenly. -/
example : AllFull [((some 0, some 0), (some 1, some 1)), ((some 0, some 3), (some 2, some 2)), ((some 2, some 1), (some 3, some 3)),
    ((some 2, some 1), (some 3, some 3))] ∧
    DividesEvenly [((some 0, some 0), (some 1, some 1)), ((some 0, some 3), (some 2, some 2)), ((some 2, some 1), (some 3, some 3)),
    ((some 2, some 1), (some 3, some 3))] 0 3 3 3 := by
  obtain ⟨n, a, b, h1, -, h2, h3, -⟩ := c93_shipped net3x3 (by simp [shippedNetworks])
  have e1 : openNetwork net3x3.text.toList = .ok [((some 0, some 0), (some 1, some 1)), ((some 0, some 3), (some 2, some 2)),
    ((some 2, some 1), (some 3, some 3)), ((some 2, some 1), (some 3, some 3))] := by decide +kernel
  rw [h1] at e1
  obtain rfl := Except.ok.inj e1
  have e2 : getInputOutputColours [((some 0, some 0), (some 1, some 1)), ((some 0, some 3), (some 2, some 2)),
    ((some 2, some 1), (some 3, some 3)), ((some 2, some 1), (some 3, some 3))] = .ok ((0, 3), (3, 3)) := by decide +kernel
  rw [h2] at e2
  have e3 := Except.ok.inj e2
  simp only [Prod.mk.injEq] at e3
  obtain ⟨⟨rfl, -⟩, rfl, -⟩ := e3
  exact ⟨by unfold AllFull; decide, h3⟩

/-- C95 is false of networks with splitters that have a single output: this one takes three belts to one, and reversed it gives one of its
three outputs as much as the other two together. -/
theorem c95_reversed_refuted : ∃ (n : Network) (a b : Int), getInputOutputColours n = .ok ((a, 3), (b, 1)) ∧ DividesEvenly n a 3 b 1 ∧
    getInputOutputColours (flipNetwork n) = .ok ((b, 1), (a, 3)) ∧ ¬ DividesEvenly (flipNetwork n) b 1 a 3 := by
  have hio : getInputOutputColours [((some 0, some 0), (some 1, none)), ((some 1, some 0), (some 2, none))] = .ok ((0, 3), (2, 1)) := by
    decide +kernel
  refine ⟨[((some 0, some 0), (some 1, none)), ((some 1, some 0), (some 2, none))], 0, 2, hio, ?_, by decide +kernel, fun h => ?_⟩
  · exact divides_of_certified (stages := [([2], [])]) ((gio_iff _ _ _ _ _).1 hio) (by decide) (by decide +kernel)
  · have hf : NetworkFlow (flipNetwork [((some 0, some 0), (some 1, none)), ((some 1, some 0), (some 2, none))]) 2 0
        [(((some 1, none), (some 0, some 0)), ((2, 0), (1, 1))), (((some 2, none), (some 1, some 0)), ((4, 0), (2, 2)))] {4} {1, 1, 2} := by
      refine ⟨.refl _, ?_, ?_⟩
      · intro x hx
        simp only [List.mem_cons, List.not_mem_nil, or_false] at hx
        rcases hx with rfl | rfl <;> constructor <;> decide +kernel
      · intro c
        by_cases h0 : c = 0
        · subst h0; decide +kernel
        by_cases h1 : c = 1
        · subst h1; decide +kernel
        by_cases h2 : c = 2
        · subst h2; decide +kernel
        · have k0 := Ne.symm h0
          have k1 := Ne.symm h1
          have k2 := Ne.symm h2
          simp [leaving, arriving, h0, h2, k0, k1, k2]
    have := (h _ _ _ hf).2.2 1 (by simp)
    norm_num at this

/-- C95: a generated network divides evenly, and so does the reversed one. -/
theorem c95_generated (ord : Nat → List Colour → List Colour) (hord : ∀ k, SetOrder (ord k)) (size : Nat) (h : 2 ≤ size)
    (n : Network) (hn : createBenes ord size = .ok n) (a p b q : Int) (hio : getInputOutputColours n = .ok ((a, p), (b, q))) :
    AllFull n ∧ DividesEvenly n a size b size ∧ DividesEvenly (flipNetwork n) b size a size := by
  obtain ⟨n', a', b', e, -, e2, hfull⟩ := c35_benes_size ord hord size h
  rw [hn] at e
  obtain rfl := Except.ok.inj e
  have hd : DividesEvenly n a size b size := by
    intro flow I O hf
    obtain ⟨flow', hs⟩ := steady_of_networkFlow (.refl n) (fun c hc => by
      rcases List.mem_append.1 hc with hc | hc
      · obtain ⟨x, hx, hc⟩ := List.mem_flatMap.1 hc
        have := hfull x hx
        simp only [List.mem_cons, List.not_mem_nil, or_false] at hc
        rcases hc with rfl | rfl
        · exact this.1
        · exact this.2.1
      · obtain ⟨x, hx, hc⟩ := List.mem_flatMap.1 hc
        have := hfull x hx
        simp only [List.mem_cons, List.not_mem_nil, or_false] at hc
        rcases hc with rfl | rfl
        · exact this.2.2.1
        · exact this.2.2.2) hf
    obtain ⟨h1, h2, h3⟩ := c63_balances ord hord size h n hn a p b q hio flow' I O hs
    refine ⟨h1, h2, fun x hx => ?_⟩
    rw [h3 x hx]
    have : (size : ℚ) ≠ 0 := by
      have : 0 < size := by omega
      exact_mod_cast this.ne'
    exact div_mul_cancel₀ _ this
  exact ⟨hfull, hd, c95_reversed_partial n hfull a size b size hd⟩

/-! ### The commands -/

/-- No colour is negative. -/
def NonNegative (n : Network) : Prop := ∀ k ∈ n, ∀ c, (some c = k.1.1 ∨ some c = k.1.2 ∨ some c = k.2.1 ∨ some c = k.2.2) → 0 ≤ c

theorem replaceFirst_nonneg (a b : Int) (hb : 0 ≤ b) {n : Network} (h : NonNegative n) : NonNegative (replaceFirst a b n) := by
  induction n with
  | nil => exact h
  | cons nd n ih =>
    have h0 := h nd (by simp)
    have h1 : NonNegative n := fun k hk => h k (List.mem_cons_of_mem _ hk)
    rw [replaceFirst]
    split
    · intro k hk c hc
      rcases List.mem_cons.1 hk with rfl | hk
      · rcases hc with hc | hc | hc | hc
        · obtain rfl := Option.some.inj hc
          exact hb
        · exact h0 c (.inr (.inl hc))
        · exact h0 c (.inr (.inr (.inl hc)))
        · exact h0 c (.inr (.inr (.inr hc)))
      · exact h1 k hk c hc
    · split
      · intro k hk c hc
        rcases List.mem_cons.1 hk with rfl | hk
        · rcases hc with hc | hc | hc | hc
          · obtain rfl := Option.some.inj hc
            exact hb
          · exact h0 c (.inl hc)
          · exact h0 c (.inr (.inr (.inl hc)))
          · exact h0 c (.inr (.inr (.inr hc)))
        · exact h1 k hk c hc
      · intro k hk c hc
        rcases List.mem_cons.1 hk with rfl | hk
        · exact h0 c hc
        · exact ih h1 k hk c hc

/-- No colour of the dictionary is negative. -/
def NonNegativeMap (d : PyDict Colour Colour) : Prop := ∀ k c, d.get k = some (some c) → 0 ≤ c

theorem NonNegativeMap.set {d : PyDict Colour Colour} (h : NonNegativeMap d) (k : Colour) {z : Int} (hz : 0 ≤ z) :
    NonNegativeMap (d.set k (some z)) := by
  intro k' c hc
  rw [PyDict.get_set] at hc
  split at hc
  · obtain rfl := Option.some.inj (Option.some.inj hc)
    exact hz
  · exact h k' c hc

theorem innerMaps_nonneg (a b : Int) (rest : List Colour) :
    NonNegativeMap (innerMaps a b rest).1 ∧ NonNegativeMap (innerMaps a b rest).2 := by
  have key : ∀ (l : List Colour) (s : PyDict Colour Colour × PyDict Colour Colour × Int), NonNegativeMap s.1 → NonNegativeMap s.2.1 → 0 ≤ s.2.2 →
      let r := l.foldl (fun (s : PyDict Colour Colour × PyDict Colour Colour × Int) c =>
        (s.1.set c (some (s.2.2 + 0)), s.2.1.set c (some (s.2.2 + 1)), s.2.2 + 2)) s
      NonNegativeMap r.1 ∧ NonNegativeMap r.2.1 ∧ 0 ≤ r.2.2 := by
    intro l
    induction l with
    | nil => exact fun s h1 h2 h3 => ⟨h1, h2, h3⟩
    | cons c l ih => exact fun s h1 h2 h3 => ih _ (h1.set c (by omega)) (h2.set c (by omega)) (by simp only; omega)
  have one : ∀ z : Int, 0 ≤ z → NonNegativeMap [(some a, some z)] := fun z hz =>
    NonNegativeMap.set (d := []) (fun k c hc => by simp [PyDict.get] at hc) (some a) hz
  obtain ⟨h1, h2, h3⟩ := key rest ([(some a, some 1)], [(some a, some 2)], 3) (one 1 (by omega)) (one 2 (by omega)) (by simp only; omega)
  exact ⟨h1.set _ h3, h2.set _ h3⟩

theorem remap_nonneg {d : PyDict Colour Colour} (hd : NonNegativeMap d) {n m : Network} (hn : NonNegative n) (h : remapColours n d = .ok m) :
    NonNegative m := by
  unfold remapColours at h
  split at h
  · cases h
  · obtain rfl := Except.ok.inj h
    intro k hk c hc
    obtain ⟨k', hk', rfl⟩ := List.mem_map.1 hk
    have key : ∀ x, (∀ c, some c = x → 0 ≤ c) → ∀ c, some c = mapColour d x → 0 ≤ c := by
      intro x hx c hc
      unfold mapColour at hc
      cases e : d.get x with
      | none => rw [e] at hc; exact hx c hc
      | some y =>
        rw [e] at hc
        simp only [Option.getD_some] at hc
        subst hc
        exact hd x c e
    have h0 := hn k' hk'
    rcases hc with hc | hc | hc | hc
    · exact key _ (fun c hc => h0 c (.inl hc)) c hc
    · exact key _ (fun c hc => h0 c (.inr (.inl hc))) c hc
    · exact key _ (fun c hc => h0 c (.inr (.inr (.inl hc)))) c hc
    · exact key _ (fun c hc => h0 c (.inr (.inr (.inr hc)))) c hc

theorem createBenes_nonneg (ord : Nat → List Colour → List Colour) (size : Nat) : ∀ n, createBenes ord size = .ok n → NonNegative n := by
  induction size using benesCount.induct with
  | case1 size h =>
    intro n hn
    by_cases h2 : size < 2
    · rw [createBenes, if_pos h2] at hn
      cases hn
    · rw [createBenes, if_neg h2, if_pos (by omega)] at hn
      obtain rfl := Except.ok.inj hn
      intro k hk c hc
      simp only [List.mem_cons, List.not_mem_nil, or_false] at hk
      subst hk
      simp only [Option.some.injEq] at hc
      omega
  | case2 size h1 h3 ih =>
    intro n hn
    rw [createBenes, if_neg (by omega), if_neg (by omega), if_pos h3] at hn
    cases e : createBenes ord (size + 1) with
    | error x => rw [e] at hn; cases hn
    | ok inner =>
      rw [e] at hn
      have hi := ih inner e
      simp only [benesOdd] at hn
      split at hn
      · cases hn
      · rename_i a p b q hio
        obtain rfl := Except.ok.inj hn
        have hE := (gio_iff _ _ _ _ _).1 hio
        refine replaceFirst_nonneg a b ?_ hi
        have hb : some b ∈ outsOf inner := by
          by_contra hb
          have h1 := hE.output
          have h2 := hE.neg
          unfold surplus at h1
          rw [List.count_eq_zero_of_not_mem hb] at h1
          omega
        obtain ⟨x, hx, hc⟩ := List.mem_flatMap.1 hb
        simp only [List.mem_cons, List.not_mem_nil, or_false] at hc
        rcases hc with hc | hc
        · exact hi x hx b (.inr (.inr (.inl hc)))
        · exact hi x hx b (.inr (.inr (.inr hc)))
  | case3 size h1 h3 ih =>
    intro n hn
    rw [createBenes, if_neg (by omega), if_neg (by omega), if_neg h3] at hn
    cases e : createBenes ord (size / 2) with
    | error x => rw [e] at hn; cases hn
    | ok inner =>
      rw [e] at hn
      have hi := ih inner e
      simp only [benesEven] at hn
      split at hn
      · cases hn
      · rename_i a p b q hio
        split at hn
        · cases hn
        · rename_i ia hia
          split at hn
          · cases hn
          · rename_i ib hib
            obtain rfl := Except.ok.inj hn
            obtain ⟨m1, m2⟩ := innerMaps_nonneg a b (ord size
              ((insOf inner ++ outsOf inner).dedup.filter fun c => c ≠ some a ∧ c ≠ some b))
            intro k hk c hc
            rcases List.mem_append.1 hk with hk | hk
            · rcases List.mem_append.1 hk with hk | hk
              · obtain rfl := List.eq_of_mem_replicate hk
                simp only [Option.some.injEq] at hc
                omega
              · exact remap_nonneg m1 hi hia k hk c hc
            · exact remap_nonneg m2 hi hib k hk c hc

theorem NonNegative.no_minus {n : Network} (h : NonNegative n) : some (-1) ∉ insOf n ++ outsOf n := by
  intro hc
  have : (0 : Int) ≤ -1 := by
    rcases List.mem_append.1 hc with hc | hc
    · obtain ⟨x, hx, hc⟩ := List.mem_flatMap.1 hc
      simp only [List.mem_cons, List.not_mem_nil, or_false] at hc
      rcases hc with hc | hc
      · exact h x hx _ (.inl hc)
      · exact h x hx _ (.inr (.inl hc))
    · obtain ⟨x, hx, hc⟩ := List.mem_flatMap.1 hc
      simp only [List.mem_cons, List.not_mem_nil, or_false] at hc
      rcases hc with hc | hc
      · exact h x hx _ (.inr (.inr (.inl hc)))
      · exact h x hx _ (.inr (.inr (.inr hc)))
  omega

/-- C95: `network create` writes a file for every size from two up, and rejects smaller sizes; reading the file gives a network with that
many inputs and outputs that divides evenly. -/
theorem c95_create (ord : Nat → List Colour → List Colour) (hord : ∀ k, SetOrder (ord k)) (size : Int) :
    (size < 2 → networkCreate ord size = .error .runtimeError) ∧
    (2 ≤ size → ∃ text n a b, networkCreate ord size = .ok text ∧ openNetwork text = .ok n ∧
      getInputOutputColours n = .ok ((a, size), (b, size)) ∧ AllFull n ∧ DividesEvenly n a size.toNat b size.toNat) := by
  refine ⟨fun h => by rw [networkCreate, if_pos (by omega)], fun h => ?_⟩
  obtain ⟨n, a, b, e1, -, e2, -⟩ := c35_benes_size ord hord size.toNat (by omega)
  obtain ⟨h1, h2, -⟩ := c95_generated ord hord size.toNat (by omega) n e1 a _ b _ e2
  refine ⟨saveNetwork n, n, a, b, ?_, c36_round_trip n (createBenes_nonneg ord _ n e1).no_minus, ?_, h1, h2⟩
  · rw [networkCreate, if_neg (by omega), e1]
  · rw [e2]
    congr <;> omega

/-- Reading a number `-1` gives `None`, so no colour is `-1` in a network that was read. -/
theorem open_no_minus (lines : List (List Char)) : ∀ n, openLines lines = .ok n → some (-1) ∉ insOf n ++ outsOf n := by
  have hne : ∀ k : Int, some (-1) ≠ colourOfInt k := by
    intro k h
    unfold colourOfInt at h
    split at h
    · cases h
    · exact absurd (Option.some.inj h).symm (by assumption)
  induction lines with
  | nil =>
    intro n hn
    obtain rfl := Except.ok.inj hn
    simp
  | cons l lines ih =>
    intro n hn
    simp only [openLines] at hn
    repeat' split at hn
    all_goals first
      | exact ih n hn
      | cases hn
    all_goals
      simp only [insOf_cons, outsOf_cons, List.mem_append, List.mem_cons, not_or] at *
    all_goals
      rename_i m hm
      have := ih m hm
      exact ⟨⟨hne _, hne _, this.1⟩, hne _, hne _, this.2⟩

/-- C95: `network flip` writes a file for every file that can be read; reading it gives the reversed network, with inputs and outputs
exchanged, and flipping the result gives the network of the original file. -/
theorem c95_flip (text : List Char) (n : Network) (h : openNetwork text = .ok n) :
    ∃ text', networkFlip text = .ok text' ∧ openNetwork text' = .ok (flipNetwork n).reverse ∧ networkFlip text' = .ok (saveNetwork n) ∧
      (∀ a p b q, getInputOutputColours n = .ok ((a, p), (b, q)) → getInputOutputColours (flipNetwork n).reverse = .ok ((b, q), (a, p))) ∧
      ∀ a p b q, AllFull n → DividesEvenly n a p b q → DividesEvenly (flipNetwork n).reverse b q a p := by
  have hno := open_no_minus _ n h
  have hno' : some (-1) ∉ insOf (flipNetwork n).reverse ++ outsOf (flipNetwork n).reverse := by
    intro hc
    apply hno
    rw [List.mem_append] at hc ⊢
    have k1 : some (-1) ∈ insOf (flipNetwork n).reverse → some (-1) ∈ outsOf n := by
      intro hc
      obtain ⟨x, hx, hc⟩ := List.mem_flatMap.1 hc
      obtain ⟨y, hy, rfl⟩ := List.mem_map.1 (List.mem_reverse.1 hx)
      exact List.mem_flatMap.2 ⟨y, hy, hc⟩
    have k2 : some (-1) ∈ outsOf (flipNetwork n).reverse → some (-1) ∈ insOf n := by
      intro hc
      obtain ⟨x, hx, hc⟩ := List.mem_flatMap.1 hc
      obtain ⟨y, hy, rfl⟩ := List.mem_map.1 (List.mem_reverse.1 hx)
      exact List.mem_flatMap.2 ⟨y, hy, hc⟩
    exact hc.elim (fun h => .inr (k1 h)) fun h => .inl (k2 h)
  refine ⟨_, by rw [networkFlip, h], c36_round_trip _ hno', ?_, fun a p b q hio => ((c37_ends n b q a p).2).2 hio,
    fun a p b q hf hd => (c95_reversed_partial n hf a p b q hd).perm (List.reverse_perm _).symm⟩
  rw [networkFlip, c36_round_trip _ hno']
  simp only [flipNetwork, List.map_reverse, List.reverse_reverse]
  have := flip_flip n
  simp only [flipNetwork] at this
  rw [this]

example : networkCreate (fun _ => id) 2 = .ok "0 0 1 1\n".toList ∧ networkFlip "0 0 1 1\n1 -1 2 3\n".toList = .ok "2 3 1 -1\n1 1 0 0\n".toList := by
  refine ⟨?_, by decide +kernel⟩
  rw [networkCreate, createBenes]
  decide +kernel

end FSat
