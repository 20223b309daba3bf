import Verif.Lemmas.RecolourProblem
/-!
# C107: `calculate_cost` and `optimise_colours`

`optimise_colours` should number the colours of a network again, without gaps, such that the binary numbers of the belts that meet at a
splitter differ in as few digits as possible.
-/

namespace FSat

/-- C107. `calculate_cost` is the number of binary digits in which the counted pairs differ; it fails if such a pair is of one colour. -/
theorem c107_cost {n : Network} (hn : ∀ c, UsesColour n c → 0 ≤ c) :
    calculateCost n = if ∀ p ∈ innerPairs n, p.1 ≠ p.2 then .ok (NumberingCost n) else .error .assertion := calculateCost_eq hn

/-- C107. `pop_count` counts the ones of a positive number, and fails for others. -/
theorem c107_pop_count (k : Int) :
    popCount k = if 0 < k then .ok {i : Nat | Int.testBit k i = true}.ncard else .error .assertion := by
  unfold popCount
  by_cases hk : 0 < k
  · rw [if_pos hk, if_pos hk, popLoop_eq _ _ _ le_rfl, Nat.zero_add]
    obtain ⟨x, rfl⟩ := Int.eq_ofNat_of_zero_le hk.le
    unfold natApart
    congr 2
    ext i
    simp [Int.testBit]
  · rw [if_neg hk, if_neg hk]

theorem optimise_cases {ord : List Colour → List Colour} (ho : SetOrder ord) {solver : Oracle} (hs : CorrectSolver solver) {n : Network}
    (hn : Countable n) (h2 : 2 ≤ Nat.clog 2 (numColours n) * (innerPairs n).length)
    (hw : NumberingCost n ≤ 2 ^ Nat.clog 2 (Nat.clog 2 (numColours n) * (innerPairs n).length + 1)) :
    ((∀ f, Renumbers n f → NumberingCost n ≤ NumberingCost (rename f n)) ∧ optimiseColours ord solver n = .ok n) ∨
    ∃ f, Renumbers n f ∧ NumberingCost (rename f n) < NumberingCost n ∧
      (∀ f', Renumbers n f' → NumberingCost (rename f n) ≤ NumberingCost (rename f' n)) ∧
      optimiseColours ord solver n = if NumberingCost (rename f n) = 1 then .error .assertion else .ok (rename f n) := by
  obtain ⟨labels, result, cs, hp, P⟩ := colourProblem_spec ho hn.apart h2 (NumberingCost n)
  have hlen : 0 < (innerPairs n).length := by
    by_contra h
    rw [show (innerPairs n).length = 0 by omega] at h2
    omega
  unfold optimiseColours
  rw [calculateCost_eq hn.nonneg, if_pos hn.apart]
  dsimp only
  rw [hp]
  dsimp only
  by_cases hex : ∃ m v, Sat v cs ∧ value v result = m
  · right
    classical
    have hm := Nat.find_spec hex
    have hmin : ∀ v, Sat v cs → Nat.find hex ≤ value v result := fun v hv => Nat.find_min' hex ⟨v, hv, rfl⟩
    generalize Nat.find hex = m at hm hmin
    have hm0 : 0 < m := by
      obtain ⟨v, h1, h2⟩ := hm
      obtain ⟨r, e, -⟩ := P.sound v h1
      have := cost_pos hn.apart r
      omega
    have hmk : m < NumberingCost n := by
      obtain ⟨v, h1, h2⟩ := hm
      rw [← h2]
      exact (P.sound v h1).2.2
    obtain ⟨x, e1, e2, e3, e4, e5⟩ := costSearch_min hs hm0 hm hmin (NumberingCost n - 1) 0 [] none (by omega)
      (by rw [P.width]; omega) (fun v => by
        rw [List.append_nil]
        refine ⟨fun h => ⟨h, ?_⟩, fun h => h.1⟩
        have := (P.sound v h).2.2
        omega)
    rw [List.append_nil] at e1
    obtain ⟨r1, r2, r3⟩ := P.sound _ e3
    have hcost : NumberingCost (rename (fun c => value (asgOf x) (colourLabel labels c)) n) = m := by rw [← r2, e4]
    refine ⟨_, r1, by rw [hcost]; exact hmk, fun f' hf' => ?_, ?_⟩
    · rw [hcost]
      by_contra hlt
      obtain ⟨v, h1, h2⟩ := P.complete f' hf' (by omega)
      have := hmin v h1
      omega
    · rw [e1]
      dsimp only
      rw [readColours_eq e2 labels P.pos fun e he l hl => by
        obtain ⟨c, hc, l', hl', hv⟩ := P.covers e he l hl
        obtain ⟨l2, hl2, hv2⟩ := e5 c hc l' hl'
        exact ⟨l2, hl2, by rw [hv2, hv]⟩]
      dsimp only
      rw [remap_labels P.keys]
      dsimp only
      rw [calculateCost_eq, if_pos, hcost]
      · dsimp only
        by_cases h1 : m = 1
        · rw [if_neg (by omega), if_pos h1]
        · rw [if_pos (by omega), if_neg h1]
      · rw [innerPairs_rename r1.inj]
        intro p hp
        obtain ⟨q, hq, rfl⟩ := List.mem_map.1 hp
        obtain ⟨u1, u2⟩ := pair_uses hq
        exact fun e => hn.apart q hq (r1.inj _ _ u1 u2 e)
      · intro c hc
        obtain ⟨d, -, rfl⟩ := uses_rename.1 hc
        omega
  · left
    have hex' : ¬ ∃ v, Sat v cs := fun ⟨v, hv⟩ => hex ⟨_, v, hv, rfl⟩
    refine ⟨fun f hf => ?_, ?_⟩
    · by_contra h
      obtain ⟨v, hv, -⟩ := P.complete f hf (by omega)
      exact hex' ⟨v, hv⟩
    · rw [costSearch_none hs _ _ _ _ hex']

/-- A numbering of the colours that has a given injection into `0 .. k - 1`. -/
theorem exists_renumbers (n : Network) : ∃ f, Renumbers n f := by
  refine ⟨fun c => (colourSet (insOf n ++ outsOf n)).idxOf (some c), fun c d hc hd e => ?_, fun c hc => ⟨by omega, ?_⟩⟩
  · have mem : ∀ c, UsesColour n c → (some c : Colour) ∈ colourSet (insOf n ++ outsOf n) := fun c hc => by
      simpa [mem_colourSet, UsesColour] using hc
    have e : (colourSet (insOf n ++ outsOf n)).idxOf (some c) = (colourSet (insOf n ++ outsOf n)).idxOf (some d) := by exact_mod_cast e
    have h1 := List.getElem_idxOf (List.idxOf_lt_length_of_mem (mem c hc))
    have h2 := List.getElem_idxOf (List.idxOf_lt_length_of_mem (mem d hd))
    rw [← Option.some.injEq, ← h1, ← h2]
    simp only [e]
  · have : (some c : Colour) ∈ colourSet (insOf n ++ outsOf n) := by simpa [mem_colourSet, UsesColour] using hc
    have := List.idxOf_lt_length_of_mem this
    unfold numColours
    omega

/-- The cost of a numbering without gaps. -/
theorem cost_le {n : Network} {f : Int → Int} (hf : Renumbers n f) :
    NumberingCost (rename f n) ≤ Nat.clog 2 (numColours n) * (innerPairs n).length := by
  rw [cost_rename hf.inj]
  have hb : ∀ p ∈ innerPairs n, bitsApart (f p.1) (f p.2) ≤ Nat.clog 2 (numColours n) := by
    intro p hp
    obtain ⟨u1, u2⟩ := pair_uses hp
    have hle : numColours n ≤ 2 ^ Nat.clog 2 (numColours n) := Nat.le_pow_clog (by omega) _
    have h1 := hf.range _ u1
    have h2 := hf.range _ u2
    obtain ⟨x, hx⟩ := Int.eq_ofNat_of_zero_le h1.1
    obtain ⟨y, hy⟩ := Int.eq_ofNat_of_zero_le h2.1
    rw [hx] at h1 ⊢
    rw [hy] at h2 ⊢
    rw [bitsApart_nat]
    obtain ⟨as, ha, hav⟩ := exists_bits (Nat.clog 2 (numColours n)) x (by omega)
    obtain ⟨bs, hb, hbv⟩ := exists_bits (Nat.clog 2 (numColours n)) y (by omega)
    rw [← hav, ← hbv, natApart_binVal as bs (by omega)]
    exact List.count_le_length.trans (by simp [ha, hb])
  generalize innerPairs n = l at hb
  induction l with
  | nil => simp
  | cons p l ih =>
    have h1 := ih fun q hq => hb q (by simp [hq])
    have h2 := hb p (by simp)
    simp only [List.map_cons, List.sum_cons, List.length_cons, Nat.mul_add]
    omega

theorem clog_pos {n : Network} (hn : ∀ p ∈ innerPairs n, p.1 ≠ p.2) (h : 0 < (innerPairs n).length) : 1 ≤ Nat.clog 2 (numColours n) := by
  obtain ⟨p, hp⟩ := List.exists_mem_of_length_pos h
  obtain ⟨u1, u2⟩ := pair_uses hp
  have hne := hn p hp
  refine Nat.clog_pos (by omega) ?_
  obtain ⟨f, hf⟩ := exists_renumbers n
  have h1 := hf.range _ u1
  have h2 := hf.range _ u2
  have h3 : f p.1 ≠ f p.2 := fun e => hne (hf.inj _ _ u1 u2 e)
  omega

/-- C107. With two or more counted pairs, and colours that are numbered without gaps (as `fix_colours` does it), `optimise_colours` returns
the network with its colours renumbered one to one and without gaps, and no such numbering has a lower cost. -/
theorem c107_cheapest_partial {ord : List Colour → List Colour} (ho : SetOrder ord) {solver : Oracle} (hs : CorrectSolver solver) {n : Network}
    (hr : ∀ c, UsesColour n c → 0 ≤ c ∧ c < numColours n) (hn : ∀ p ∈ innerPairs n, p.1 ≠ p.2) (h2 : 2 ≤ (innerPairs n).length) :
    ∃ f, Renumbers n f ∧ optimiseColours ord solver n = .ok (rename f n) ∧
      ∀ f', Renumbers n f' → NumberingCost (rename f n) ≤ NumberingCost (rename f' n) := by
  have hid : Renumbers n id := ⟨fun c d _ _ h => h, hr⟩
  have eid : rename id n = n := by simp [rename]
  have h1 := clog_pos hn (by omega)
  have hbits : 2 ≤ Nat.clog 2 (numColours n) * (innerPairs n).length := by nlinarith
  have hw : NumberingCost n ≤ 2 ^ Nat.clog 2 (Nat.clog 2 (numColours n) * (innerPairs n).length + 1) := by
    have h3 := cost_le hid
    rw [eid] at h3
    have h4 : Nat.clog 2 (numColours n) * (innerPairs n).length + 1 ≤ 2 ^ Nat.clog 2 (Nat.clog 2 (numColours n) * (innerPairs n).length + 1) :=
      Nat.le_pow_clog (by omega) _
    omega
  rcases optimise_cases ho hs ⟨fun c hc => (hr c hc).1, hn⟩ hbits hw with ⟨hmin, e⟩ | ⟨f, hf, -, hmin, e⟩
  · exact ⟨id, hid, by rw [eid]; exact e, by rw [eid]; exact hmin⟩
  · refine ⟨f, hf, ?_, hmin⟩
    rw [e, if_neg]
    have := cost_pos hn hf
    omega

/-- C107, other colours: with two or more counted pairs and a cost that fits, the result is the network itself if no numbering without gaps
is cheaper, and otherwise a cheapest one. -/
theorem c107_any_partial {ord : List Colour → List Colour} (ho : SetOrder ord) {solver : Oracle} (hs : CorrectSolver solver) {n : Network}
    (hn : Countable n) (h2 : 2 ≤ (innerPairs n).length)
    (hw : NumberingCost n ≤ 2 ^ Nat.clog 2 (Nat.clog 2 (numColours n) * (innerPairs n).length + 1)) :
    ∃ m, optimiseColours ord solver n = .ok m ∧ (m = n ∨ ∃ f, Renumbers n f ∧ m = rename f n) ∧ NumberingCost m ≤ NumberingCost n ∧
      ∀ f, Renumbers n f → NumberingCost m ≤ NumberingCost (rename f n) := by
  have h1 := clog_pos hn.apart (by omega)
  rcases optimise_cases ho hs hn (by nlinarith) hw with ⟨hmin, e⟩ | ⟨f, hf, hlt, hmin, e⟩
  · exact ⟨n, e, .inl rfl, le_rfl, hmin⟩
  · refine ⟨rename f n, ?_, .inr ⟨f, hf, rfl⟩, hlt.le, hmin⟩
    rw [e, if_neg]
    have := cost_pos hn.apart hf
    omega

/-- C107 is false of the code for networks without a counted pair: an assertion fails. -/
theorem c107_nothing_refuted {ord : List Colour → List Colour} (ho : SetOrder ord) (solver : Oracle) {n : Network}
    (hn : ∀ c, UsesColour n c → 0 ≤ c) (h0 : numColours n ≠ 0) (h : innerPairs n = []) : optimiseColours ord solver n = .error .assertion := by
  unfold optimiseColours
  rw [calculateCost_eq hn, if_pos (by simp [h])]
  dsimp only
  rw [colourProblem_small ho (by simp [h]) h0 (by simp [h])]

/-- C107 is false of the code for colours with large numbers: the cost does not fit the digits of the sum, and an assertion fails. -/
theorem c107_large_refuted {ord : List Colour → List Colour} (ho : SetOrder ord) {solver : Oracle} (hs : CorrectSolver solver) {n : Network}
    (hn : Countable n) (hw : 2 ^ Nat.clog 2 (Nat.clog 2 (numColours n) * (innerPairs n).length + 1) < NumberingCost n) :
    optimiseColours ord solver n = .error .assertion := by
  unfold optimiseColours
  rw [calculateCost_eq hn.nonneg, if_pos hn.apart]
  dsimp only
  have hlen : 0 < (innerPairs n).length := by
    by_contra h
    have : innerPairs n = [] := List.length_eq_zero_iff.1 (by omega)
    simp [NumberingCost, this] at hw
  have hpos := clog_pos hn.apart hlen
  by_cases h2 : 2 ≤ Nat.clog 2 (numColours n) * (innerPairs n).length
  · obtain ⟨labels, result, cs, hp, P⟩ := colourProblem_spec ho hn.apart h2 (NumberingCost n)
    rw [hp]
    dsimp only
    obtain ⟨f, hf⟩ := exists_renumbers n
    have h3 := cost_le hf
    have h4 : Nat.clog 2 (numColours n) * (innerPairs n).length + 1 ≤ 2 ^ Nat.clog 2 (Nat.clog 2 (numColours n) * (innerPairs n).length + 1) :=
      Nat.le_pow_clog (by omega) _
    obtain ⟨v, hv, -⟩ := P.complete f hf (by omega)
    rw [costSearch_wide hs (by rw [P.width]; omega) ⟨v, hv⟩]
  · rw [colourProblem_small ho hn.apart (fun e => by rw [e] at hpos; simp at hpos) (by omega)]

/-- The two colours of a single counted pair can be numbered 0 and 1. -/
theorem exists_next {n : Network} {p : Int × Int} (hp : p ∈ innerPairs n) (h : innerPairs n = [p]) (hne : p.1 ≠ p.2) :
    ∃ f, Renumbers n f ∧ NumberingCost (rename f n) = 1 := by
  obtain ⟨u1, u2⟩ := pair_uses hp
  have ho : SetOrder id := fun l => List.Perm.refl l
  have hperm : (p.1 :: p.2 :: ((visited id n).erase p.1).erase p.2).Perm (visited id n) := by
    have m1 : p.1 ∈ visited id n := (mem_visited ho _).2 u1
    have m2 : p.2 ∈ (visited id n).erase p.1 := (List.mem_erase_of_ne (Ne.symm hne)).2 ((mem_visited ho _).2 u2)
    exact ((List.perm_cons_erase m2).symm.cons _).trans (List.perm_cons_erase m1).symm
  generalize ((visited id n).erase p.1).erase p.2 = l at hperm
  have hmem : ∀ c, UsesColour n c → c ∈ p.1 :: p.2 :: l := fun c hc => hperm.mem_iff.2 ((mem_visited ho c).2 hc)
  have hf : Renumbers n fun c => ((p.1 :: p.2 :: l).idxOf c : Nat) := by
    refine ⟨fun c d hc hd e => ?_, fun c hc => ⟨by omega, ?_⟩⟩
    · have e : (p.1 :: p.2 :: l).idxOf c = (p.1 :: p.2 :: l).idxOf d := by exact_mod_cast e
      have h1 := List.getElem_idxOf (List.idxOf_lt_length_of_mem (hmem c hc))
      have h2 := List.getElem_idxOf (List.idxOf_lt_length_of_mem (hmem d hd))
      rw [← h1, ← h2]
      simp only [e]
    · have := List.idxOf_lt_length_of_mem (hmem c hc)
      rw [hperm.length_eq, visited_length ho] at this
      exact_mod_cast this
  refine ⟨_, hf, ?_⟩
  rw [cost_rename hf.inj, h]
  have e1 : (p.1 :: p.2 :: l).idxOf p.1 = 0 := List.idxOf_cons_self
  have e2 : (p.1 :: p.2 :: l).idxOf p.2 = 1 := by rw [List.idxOf_cons_ne _ hne, List.idxOf_cons_self]
  simp only [List.map_cons, List.map_nil, List.sum_cons, List.sum_nil, e1, e2, bitsApart_nat]
  rw [natApart_step]
  simp [natApart_self]

/-- C107 is false of the code for networks with a single counted pair, unless its numbers already differ in one digit only: the loop
ends without a failed attempt, the cost it assumes is too high by one, and the assertion at the end fails. -/
theorem c107_single_refuted {ord : List Colour → List Colour} (ho : SetOrder ord) {solver : Oracle} (hs : CorrectSolver solver) {n : Network}
    (hn : Countable n) (h1 : (innerPairs n).length = 1) (hc : 2 ≤ NumberingCost n) :
    optimiseColours ord solver n = .error .assertion := by
  have hpos := clog_pos hn.apart (by omega)
  by_cases h2 : 2 ≤ Nat.clog 2 (numColours n) * (innerPairs n).length
  · by_cases hw : NumberingCost n ≤ 2 ^ Nat.clog 2 (Nat.clog 2 (numColours n) * (innerPairs n).length + 1)
    · obtain ⟨p, hp⟩ := List.length_eq_one_iff.1 h1
      have hmem : p ∈ innerPairs n := by simp [hp]
      obtain ⟨f, hf, hf1⟩ : ∃ f, Renumbers n f ∧ NumberingCost (rename f n) = 1 := by
        exact exists_next hmem hp (hn.apart p hmem)
      rcases optimise_cases ho hs hn h2 hw with ⟨hmin, -⟩ | ⟨f', hf', -, hmin, e⟩
      · have := hmin f hf
        omega
      · have h3 := hmin f hf
        have h4 := cost_pos hn.apart hf'
        rw [e, if_pos (by omega)]
    · exact c107_large_refuted ho hs hn (by omega)
  · unfold optimiseColours
    rw [calculateCost_eq hn.nonneg, if_pos hn.apart]
    dsimp only
    rw [colourProblem_small ho hn.apart (fun e => by rw [e] at hpos; simp at hpos) (by omega)]

/-! ### Cases -/

/-- Two splitters in a row, the belts between them numbered 2 and 5. -/
def rowOfTwo : Network := [((some 0, some 1), (some 2, some 5)), ((some 2, some 5), (some 3, some 4))]

theorem uses_list {n : Network} {c : Int} (h : UsesColour n c) : c ∈ (insOf n ++ outsOf n).filterMap id := by
  simp only [List.mem_filterMap, List.mem_append, id_eq, exists_eq_right]
  exact h

/-- The two belts differ in three digits at both splitters; in the result they differ in one. -/
example : ∃ solver : Oracle, CorrectSolver solver ∧ NumberingCost rowOfTwo = 6 ∧
    ∃ f, Renumbers rowOfTwo f ∧ optimiseColours id solver rowOfTwo = .ok (rename f rowOfTwo) ∧ NumberingCost (rename f rowOfTwo) = 2 := by
  obtain ⟨solver, hs⟩ := exists_solver
  have hin : innerPairs rowOfTwo = [(2, 5), (2, 5)] := by decide
  have hk : numColours rowOfTwo = 6 := by decide
  have hr : ∀ c, UsesColour rowOfTwo c → 0 ≤ c ∧ c < numColours rowOfTwo := by
    intro c hc
    have := uses_list hc
    simp [rowOfTwo, insOf, outsOf] at this
    rw [hk]
    omega
  have hn : ∀ p ∈ innerPairs rowOfTwo, p.1 ≠ p.2 := by decide
  have h6 : natApart 2 5 = 3 := by
    rw [natApart_step, natApart_step, natApart_step]
    simp [natApart_self]
  refine ⟨solver, hs, ?_, ?_⟩
  · unfold NumberingCost
    rw [hin]
    show natApart 2 5 + (natApart 2 5 + 0) = 6
    rw [h6]
  · obtain ⟨f, hf, e, hmin⟩ := c107_cheapest_partial (ord := id) (fun l => List.Perm.refl l) hs hr hn (by rw [hin]; decide)
    refine ⟨f, hf, e, le_antisymm ?_ ?_⟩
    · have hg : Renumbers rowOfTwo fun c => if c = 5 then 3 else if c = 3 then 5 else c := by
        refine ⟨fun c d hc hd e => ?_, fun c hc => ?_⟩
        · split at e <;> split at e <;> (try split at e) <;> (try split at e) <;> omega
        · have := hr c hc
          rw [hk] at this ⊢
          split
          · omega
          · split <;> omega
      have := hmin _ hg
      rw [cost_rename hg.inj, hin] at this
      refine this.trans ?_
      show natApart 2 3 + (natApart 2 3 + 0) ≤ 2
      rw [natApart_step]
      simp [natApart_self]
    · have := cost_pos hn hf
      rw [hin] at this
      exact this

/-- Two splitters of which only one belt of the first goes on to the second. -/
def oneGoesOn : Network := [((some 0, none), (some 1, some 2)), ((some 1, none), (some 3, none))]

/-- A network that meets the conditions of `c107_single_refuted`: `optimise_colours` fails although 1 and 2 could be numbered 0 and 1. -/
example : ∃ solver : Oracle, CorrectSolver solver ∧ optimiseColours id solver oneGoesOn = .error .assertion := by
  obtain ⟨solver, hs⟩ := exists_solver
  have hin : innerPairs oneGoesOn = [(1, 2)] := by decide
  refine ⟨solver, hs, c107_single_refuted (fun l => List.Perm.refl l) hs ⟨fun c hc => ?_, by decide⟩ (by rw [hin]; rfl) ?_⟩
  · have := uses_list hc
    simp [oneGoesOn, insOf, outsOf] at this
    omega
  · unfold NumberingCost
    rw [hin]
    show 2 ≤ natApart 1 2 + 0
    rw [natApart_step, natApart_step]
    simp [natApart_self]

/-- A single splitter meets the conditions of `c107_nothing_refuted`. -/
example (solver : Oracle) : optimiseColours id solver [((some 0, some 1), (some 2, some 3))] = .error .assertion :=
  c107_nothing_refuted (fun l => List.Perm.refl l) solver (fun c hc => by
    have := uses_list hc
    simp [insOf, outsOf] at this
    omega) (by decide) (by decide)

/-- Numbers that are too large: the conditions of `c107_large_refuted`. -/
example : ∃ solver : Oracle, CorrectSolver solver ∧
    optimiseColours id solver [((some 0, none), (some 0, some 31)), ((some 0, none), (some 3, none))] = .error .assertion := by
  obtain ⟨solver, hs⟩ := exists_solver
  have hin : innerPairs [((some 0, none), (some 0, some 31)), ((some 0, none), (some 3, none))] = [(0, 31)] := by decide
  have hk : numColours [((some 0, none), (some 0, some 31)), ((some 0, none), (some 3, none))] = 3 := by decide
  refine ⟨solver, hs, c107_large_refuted (fun l => List.Perm.refl l) hs ⟨fun c hc => ?_, by decide⟩ ?_⟩
  · have := uses_list hc
    simp [insOf, outsOf] at this
    omega
  · unfold NumberingCost
    rw [hin, hk, show Nat.clog 2 3 = 2 by decide]
    show 2 ^ Nat.clog 2 3 < natApart 0 31 + 0
    rw [show Nat.clog 2 3 = 2 by decide, natApart_step, natApart_step, natApart_step, natApart_step, natApart_step]
    simp [natApart_self]

end FSat
