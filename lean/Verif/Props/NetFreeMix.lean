import Verif.Lemmas.Reverse
import Verif.Props.NetFree
import Mathlib.Tactic.IntervalCases
/-!
# C30: balancers without a network whose numbers of inputs and outputs differ
-/

set_option linter.unusedSimpArgs false

namespace FSat

open Finset

/-- C30, the constants: with `M` the maximum of a belt, the flows computed by integer division are exact.  The totals that enter and
leave are equal in both directions, no input or output belt gets more than `M` - on an output belt all `m` forward parts together, on
an input belt all `n` backward parts together - and every flow is positive. -/
theorem c30_constants {m n : Nat} (hm : 0 < m) (hn : 0 < n) :
    let M := maxBeltFlow m n
    let fIn := (nToMFlows m n).1; let fOut := (nToMFlows m n).2.1; let bIn := (nToMFlows m n).2.2.1; let bOut := (nToMFlows m n).2.2.2
    0 < fOut ∧ 0 < bOut ∧ m * fIn = M * min m n ∧ n * bIn = M * min m n ∧ n * fOut = fIn ∧ m * bOut = bIn ∧
      m * fIn = n * (m * fOut) ∧ n * bIn = m * (n * bOut) ∧ fIn ≤ M ∧ bIn ≤ M ∧ m * fOut ≤ M ∧ n * bOut ≤ M := by
  have h := nToMFlows_exact hm hn
  generalize nToMFlows m n = fl at h
  obtain ⟨fIn, fOut, bIn, bOut⟩ := fl
  simp only at h ⊢
  obtain ⟨h1, h2, h3, h4, h5, h6⟩ := h
  have e1 : fIn ≤ maxBeltFlow m n := by
    refine Nat.le_of_mul_le_mul_left ?_ hm
    rw [h1, Nat.mul_comm m]
    exact Nat.mul_le_mul_left _ (Nat.min_le_left _ _)
  have e2 : bIn ≤ maxBeltFlow m n := by
    refine Nat.le_of_mul_le_mul_left ?_ hn
    rw [h3, Nat.mul_comm n]
    exact Nat.mul_le_mul_left _ (Nat.min_le_right _ _)
  have e3 : m * fOut = bIn := by
    refine Nat.eq_of_mul_eq_mul_left hn ?_
    rw [h3, ← h1, ← h2, Nat.mul_left_comm]
  have e4 : n * bOut = fIn := by
    refine Nat.eq_of_mul_eq_mul_left hm ?_
    rw [h1, ← h3, ← h4, Nat.mul_left_comm]
  exact ⟨h5, h6, h1, h3, h2, h4, by rw [e3, h1, h3], by rw [e4, h1, h3], e1, e2, e3 ▸ e2, e4 ▸ e1⟩

example : maxBeltFlow 6 4 = 12 ∧ nToMFlows 6 4 = (8, 2, 12, 2) := by decide +kernel

theorem createNToM_eq {width height m n : Nat} {ugLen : Option Nat} (hw : 0 < width) (hh : 0 < height) (hm : 0 < m) (hn : 0 < n) (hne : m ≠ n) :
    ∃ cs, createNToM width height ugLen m n = .ok (mkGrid width height ⟨false, false⟩ none ugLen (nToMFields m n (maxBeltFlow m n).size) 0, cs,
        height * width * (gridFields none (nToMFields m n (maxBeltFlow m n).size)).variableCount) ∧
      nToMClauses (mkGrid width height ⟨false, false⟩ none ugLen (nToMFields m n (maxBeltFlow m n).size) 0)
        (fun p => (nToMLits width m n (maxBeltFlow m n).size p).1) (fun p => (nToMLits width m n (maxBeltFlow m n).size p).2) m n = .ok cs := by
  obtain ⟨cs, e⟩ := nToM_total (g := mkGrid width height ⟨false, false⟩ none ugLen (nToMFields m n (maxBeltFlow m n).size) 0)
    (mkGrid_wf hw hh _ none _ (by intro n h; cases h) _ _)
    (F := fun p => (nToMLits width m n (maxBeltFlow m n).size p).1) (B := fun p => (nToMLits width m n (maxBeltFlow m n).size p).2) hm hn
    (fun p => (nToMLits_shape _ _ _ _ p).1) (fun p => (nToMLits_shape _ _ _ _ p).2)
  exact ⟨cs, by unfold createNToM; rw [if_pos ⟨hw, hh, hm, hn⟩, if_neg hne]; simp only [e], e⟩

/-- C30: the generator never fails on a grid with at least one row and column and positive numbers of inputs and outputs. -/
theorem c30_builds {width height m n : Nat} {ugLen : Option Nat} (hw : 0 < width) (hh : 0 < height) (hm : 0 < m) (hn : 0 < n)
    (hL : ∀ l, ugLen = some l → 1 ≤ l) (aligned : Bool) : ∃ g cs s, freeBalancer width height ugLen m n aligned = .ok (g, cs, s) := by
  by_cases hne : m = n
  · subst hne; exact c29_builds hw hh hm hL aligned
  · obtain ⟨cs, e, _⟩ := createNToM_eq (ugLen := ugLen) hw hh hm hn hne
    obtain ⟨cs', s', e'⟩ := freeBalancer_total hL aligned e (mkGrid_wf hw hh _ none _ (by intro n h; cases h) _ _)
      (by simpa using (mkGrid_lits width height ⟨false, false⟩ none ugLen (nToMFields m n (maxBeltFlow m n).size) 0).1) rfl
    exact ⟨_, cs', s', e'⟩

/-- Everything known of a satisfying assignment. -/
theorem nToM_all {width height m n : Nat} {ugLen : Option Nat} {aligned : Bool} {g : Grid} {cs : Cnf} {s : Nat} (hne : m ≠ n)
    (hL : ∀ l, ugLen = some l → 1 ≤ l) (h : freeBalancer width height ugLen m n aligned = .ok (g, cs, s)) {v : Asg} (hv : Sat v cs) :
    0 < m ∧ 0 < n ∧ g.WF ∧ g.edge = ⟨false, false⟩ ∧ g.width = width ∧ g.height = height ∧ g.ugLen = ugLen ∧
      NToMSem g (fun p => (nToMLits width m n (maxBeltFlow m n).size p).1) (fun p => (nToMLits width m n (maxBeltFlow m n).size p).2) m n v ∧
      FreeSem g m n aligned v := by
  obtain ⟨cs0, s0, e, h2⟩ := free_sem hL h
  have hpos : width > 0 ∧ height > 0 ∧ m > 0 ∧ n > 0 := by
    unfold createNToM at e
    split at e
    · rename_i hc; exact hc
    · cases e
  obtain ⟨hw, hh, hm, hn⟩ := hpos
  obtain ⟨cs1, e1, e2⟩ := createNToM_eq (ugLen := ugLen) hw hh hm hn hne
  rw [e1] at e
  simp only [Except.ok.injEq, Prod.mk.injEq] at e
  obtain ⟨rfl, rfl, rfl⟩ := e
  have hg := mkGrid_wf hw hh ⟨false, false⟩ none ugLen (by intro n h; cases h) (nToMFields m n (maxBeltFlow m n).size) 0
  obtain ⟨k1, k2⟩ := h2 v hg
    (by simpa using (mkGrid_lits width height ⟨false, false⟩ none ugLen (nToMFields m n (maxBeltFlow m n).size) 0).1) rfl hv
  exact ⟨hm, hn, hg, rfl, rfl, rfl, rfl, nToM_sem hg (fun p => (nToMLits_shape _ _ _ _ p).1) (fun p => (nToMLits_shape _ _ _ _ p).2) e2 k1, k2⟩

theorem NToMSem.choice {g : Grid} {F B : Nat × Nat → FlowLits} {m n : Nat} {v : Asg} {T : Nat × Nat → Tile} (hg : g.WF)
    (hs : NToMSem g F B m n v) (hi : IntersectionSem g (g.vals v)) (hl : Lays g (g.vals v) T) (hin : InnerSplitters g T) :
    SplitterChoice g.In g.nb T (g.linked (g.vals v)) ∧ AlmostFull g.In g.nb T (g.linked (g.vals v)) := by
  refine ⟨⟨fun p q d hp hc => ⟨hc.1, (hl p hp).out_emits hc.2, (hl q (Grid.nb_in hg hc.1)).inp_takes ((hi d p q hp hc.1).1 ▸ hc.2)⟩,
    fun p q d hp ⟨h1, h2, h3⟩ hns => ⟨h1, ?_⟩⟩, fun p q d hp hq hpair => ?_⟩
  · by_cases hsp : (T p).IsSplitter
    · have hq := Grid.nb_in hg h1
      rw [(hi d p q hp h1).1]
      exact ((hl q hq).takes_iff ((hl q hq).isSplitter_false fun h => hns ⟨hsp, h⟩) d).2 h3
    · exact ((hl p hp).emits_iff ((hl p hp).isSplitter_false hsp) d).2 h2
  · obtain ⟨a1, a2⟩ := hin p _ _ hp hpair.1
    obtain ⟨b1, b2⟩ := hin q _ _ hq hpair.2.2
    obtain ⟨p', hp'⟩ := Option.ne_none_iff_exists'.1 a1
    obtain ⟨p0, hp0⟩ := Option.ne_none_iff_exists'.1 a2
    obtain ⟨q', hq'⟩ := Option.ne_none_iff_exists'.1 b1
    obtain ⟨q0, hq0⟩ := Option.ne_none_iff_exists'.1 b2
    obtain ⟨hm, f1, f2⟩ := hs.ends_of hl hp hq hpair hp' hq'
    rw [inlets_eq hg hi hp hp0, inlets_eq hg hi hq hq0, outlets_eq hp', outlets_eq hq']
    have h1 := hm.three
    generalize (g.vals v p).inp d = ip at *
    generalize (g.vals v q).inp d = iq at *
    generalize (g.vals v p).out d = op at *
    generalize (g.vals v q).out d = oq at *
    cases ip <;> cases iq <;> cases op <;> cases oq <;> simp at f1 f2 h1 <;> norm_num [gate]

/-- C30, the flows: `m` and `n` differ.  Every layout `T` found obeys the basic rules, has its input and output belts in two blocks of
rows, and at most one end of each of its splitters is not connected.  For every input there is a steady flow that is `fIn` on this
input, zero on the others and `fOut` on every output, and for every output one, seen backwards, that is `bIn` on this output, zero on
the others and `bOut` on every input.  These flows are the numbers of the assignment, none of them exceeds the maximum of a belt. -/
theorem c30_flow {width height m n : Nat} {ugLen : Option Nat} {aligned : Bool} {g : Grid} {cs : Cnf} {s : Nat} (hne : m ≠ n)
    (hL : ∀ l, ugLen = some l → 1 ≤ l) (h : freeBalancer width height ugLen m n aligned = .ok (g, cs, s)) {v : Asg} (hv : Sat v cs)
    {T : Nat × Nat → Tile} (hT : Decodes g v T) :
    let bits := Nat.size (maxBeltFlow m n)
    let fwd := fun k p => value v ((nToMLits width m n bits p).1.flow.getD k [])
    let bwd := fun k p => value v ((nToMLits width m n bits p).2.flow.getD k [])
    BasicRules g.In g.nb T (g.shut (.ofPair false true)) (g.shut (.ofBool true)) ugLen ∧
    ∃ conn, SplitterChoice g.In g.nb T conn ∧ AlmostFull g.In g.nb T conn ∧
    ∃ i j, BlockAt height i m (fun y => T (0, y) = .belt .right .right) (fun y => T (0, y) = .empty) ∧
      BlockAt height j n (fun y => T (width - 1, y) = .belt .right .right) (fun y => T (width - 1, y) = .empty) ∧
      (aligned = true → RowsNested i m j n) ∧
      (∀ k < m, Steady g.In g.nb T conn (fun p => (fwd k p : Rat)) ∧ (∀ p, g.In p → fwd k p ≤ maxBeltFlow m n) ∧
        (∀ y, i ≤ y → y < i + m → fwd k (0, y) = if y % m = k then (nToMFlows m n).1 else 0) ∧
        ∀ y, j ≤ y → y < j + n → fwd k (width - 1, y) = (nToMFlows m n).2.1) ∧
      ∀ k < n, Drawn g.In g.nb T conn (fun p => (bwd k p : Rat)) ∧ (∀ p, g.In p → bwd k p ≤ maxBeltFlow m n) ∧
        (∀ y, j ≤ y → y < j + n → bwd k (width - 1, y) = if y % n = k then (nToMFlows m n).2.2.1 else 0) ∧
        ∀ y, i ≤ y → y < i + m → bwd k (0, y) = (nToMFlows m n).2.2.2 := by
  obtain ⟨hm, hn, hg, he, rfl, rfl, rfl, hs, hf⟩ := nToM_all hne hL h hv
  obtain ⟨i, j, hlay, hal⟩ := free_layout hg hs.init hs.shut hs.under (fun y hy => (hs.first y hy).1) (fun y hy => (hs.last y hy).1) hf hT
  have hl := lays_of_decodes hs.init hT
  have hin := hlay.inner hg he
  obtain ⟨hc1, hc2⟩ := hs.choice hg hf.inter hl hin
  have hy1 : ∀ {y}, y < i + m → y < g.height := fun h => Nat.lt_of_lt_of_le h hlay.inputs.1
  have hy2 : ∀ {y}, y < j + n → y < g.height := fun h => Nat.lt_of_lt_of_le h hlay.outputs.1
  refine ⟨hlay.rules, _, hc1, hc2, i, j, hlay.inputs, hlay.outputs, hal, fun k hk => ⟨?_, fun p hp => hs.leF p hp k hk,
    fun y _ h2 => (hs.first y (hy1 h2)).2.1 k hk, fun y _ h2 => (hs.last y (hy2 h2)).2.1 k hk⟩, fun k hk => ⟨?_, fun p hp => hs.leB p hp k hk,
    fun y _ h2 => (hs.last y (hy2 h2)).2.2 k hk, fun y _ h2 => (hs.first y (hy1 h2)).2.2 k hk⟩⟩
  · exact hs.steady hg (fun p => (nToMLits_shape _ _ _ _ p).1) hf.inter hl hin hk
  · exact hs.drawn hg (fun p => (nToMLits_shape _ _ _ _ p).2) hf.inter hl hin hk

/-- C30, without the connections between splitters that touch (see `c30_game_refuted`): every layout found for `m` inputs and `n` outputs, `m` and `n` different, balances both ways.  In every steady flow each output
belt carries the `n`-th part of the sum of the inputs, and seen backwards each input belt gives the `m`-th part of the sum of what is
drawn from the outputs; and there is such a flow whatever the inputs, or what is drawn, are. -/
theorem c30_balances_partial {width height m n : Nat} {ugLen : Option Nat} {aligned : Bool} {g : Grid} {cs : Cnf} {s : Nat} (hne : m ≠ n)
    (hL : ∀ l, ugLen = some l → 1 ≤ l) (h : freeBalancer width height ugLen m n aligned = .ok (g, cs, s)) {v : Asg} (hv : Sat v cs)
    {T : Nat × Nat → Tile} (hT : Decodes g v T) :
    ∃ conn, SplitterChoice g.In g.nb T conn ∧ AlmostFull g.In g.nb T conn ∧
    ∃ i j, BlockAt height i m (fun y => T (0, y) = .belt .right .right) (fun y => T (0, y) = .empty) ∧
      BlockAt height j n (fun y => T (width - 1, y) = .belt .right .right) (fun y => T (width - 1, y) = .empty) ∧
      (∀ F, Steady g.In g.nb T conn F → ∀ y, j ≤ y → y < j + n → F (width - 1, y) = (∑ k ∈ range m, F (0, i + k)) / n) ∧
      (∀ x : Nat → Rat, ∃ F, Steady g.In g.nb T conn F ∧ ∀ k < m, F (0, i + k) = x k) ∧
      (∀ F, Drawn g.In g.nb T conn F → ∀ y, i ≤ y → y < i + m → F (0, y) = (∑ k ∈ range n, F (width - 1, j + k)) / m) ∧
      ∀ x : Nat → Rat, ∃ F, Drawn g.In g.nb T conn F ∧ ∀ k < n, F (width - 1, j + k) = x k := by
  obtain ⟨hm, hn, hg, he, rfl, rfl, rfl, hs, hf⟩ := nToM_all hne hL h hv
  obtain ⟨i, j, hlay, hal⟩ := free_layout hg hs.init hs.shut hs.under (fun y hy => (hs.first y hy).1) (fun y hy => (hs.last y hy).1) hf hT
  have hl := lays_of_decodes hs.init hT
  have hin := hlay.inner hg he
  obtain ⟨hc1, hc2⟩ := hs.choice hg hf.inter hl hin
  have hy1 : ∀ {y}, y < i + m → y < g.height := fun h => Nat.lt_of_lt_of_le h hlay.inputs.1
  have hy2 : ∀ {y}, y < j + n → y < g.height := fun h => Nat.lt_of_lt_of_le h hlay.outputs.1
  have hst : ∀ k < m, _ := fun k hk => hs.steady hg (fun p => (nToMLits_shape _ _ _ _ p).1) hf.inter hl hin hk
  have hdr : ∀ k < n, _ := fun k hk => hs.drawn hg (fun p => (nToMLits_shape _ _ _ _ p).2) hf.inter hl hin hk
  have hconst := nToMFlows_exact hm hn
  have hf0 := fun k (hk : k < m) y (_ : i ≤ y) (h2 : y < i + m) => (hs.first y (hy1 h2)).2.1 k hk
  have hb0 := fun k (hk : k < n) y (_ : i ≤ y) (h2 : y < i + m) => (hs.first y (hy1 h2)).2.2 k hk
  have hf1 := fun k (hk : k < m) y (_ : j ≤ y) (h2 : y < j + n) => (hs.last y (hy2 h2)).2.1 k hk
  have hb1 := fun k (hk : k < n) y (_ : j ≤ y) (h2 : y < j + n) => (hs.last y (hy2 h2)).2.2 k hk
  generalize nToMFlows m n = fl at *
  obtain ⟨fIn, fOut, bIn, bOut⟩ := fl
  simp only at hconst hf0 hb0 hf1 hb1
  obtain ⟨_, e1, _, e2, p1, p2⟩ := hconst
  have q1 : (fOut : Rat) ≠ 0 := by exact_mod_cast p1.ne'
  have q2 : (bOut : Rat) ≠ 0 := by exact_mod_cast p2.ne'
  have q3 : (n : Rat) ≠ 0 := by exact_mod_cast hn.ne'
  have q4 : (m : Rat) ≠ 0 := by exact_mod_cast hm.ne'
  have r1 : (fIn : Rat) = n * fOut := by exact_mod_cast e1.symm
  have r2 : (bIn : Rat) = m * bOut := by exact_mod_cast e2.symm
  have a1 : (fIn : Rat) ≠ 0 := by rw [r1]; exact mul_ne_zero q3 q1
  have a2 : (bIn : Rat) ≠ 0 := by rw [r2]; exact mul_ne_zero q4 q2
  have hcast : ∀ (c : Prop) [Decidable c] (x : Nat), (((if c then x else 0 : Nat)) : Rat) = if c then (x : Rat) else 0 := by
    intro c _ x; split <;> simp
  refine ⟨_, hc1, hc2, i, j, hlay.inputs, hlay.outputs, fun F hF y h1 h2 => ?_, fun x => ?_, fun F hF y h1 h2 => ?_, fun x => ?_⟩
  · rw [hlay.balance hg he hl hf.inter hst a1 (fun k hk y h1 h2 => by rw [hf0 k hk y h1 h2, hcast])
      (fun k hk y h1 h2 => by rw [hf1 k hk y h1 h2]) F hF h1 h2, r1]
    field_simp
  · have hmod : ∀ k, (i + k) % m < m := fun k => Nat.mod_lt _ hm
    refine ⟨_, Steady.sum (range m) (fun k => x k / (fIn : Rat)) _ fun k _ => hst ((i + k) % m) (hmod k), fun k hk => ?_⟩
    rw [sum_eq_single_of_mem k (mem_range.2 hk)]
    · rw [hf0 _ (hmod k) _ (by omega) (by omega), if_pos rfl, div_mul_cancel₀ _ a1]
    · intro k' hk' hne
      rw [hf0 _ (hmod k') _ (by omega) (by omega), if_neg, Nat.cast_zero, mul_zero]
      intro hm
      have := block_mod hm (mem_range.1 hk') hk
      omega
  · rw [hlay.balanceBack hg he hl hf.inter hdr a2 (fun k hk y h1 h2 => by rw [hb1 k hk y h1 h2, hcast])
      (fun k hk y h1 h2 => by rw [hb0 k hk y h1 h2]) F hF h1 h2, r2]
    field_simp
  · have hmod : ∀ k, (j + k) % n < n := fun k => Nat.mod_lt _ hn
    refine ⟨_, Drawn.sum (range n) (fun k => x k / (bIn : Rat)) _ fun k _ => hdr ((j + k) % n) (hmod k), fun k hk => ?_⟩
    rw [sum_eq_single_of_mem k (mem_range.2 hk)]
    · rw [hb1 _ (hmod k) _ (by omega) (by omega), if_pos rfl, div_mul_cancel₀ _ a2]
    · intro k' hk' hne
      rw [hb1 _ (hmod k') _ (by omega) (by omega), if_neg, Nat.cast_zero, mul_zero]
      intro hm
      have := block_mod hm (mem_range.1 hk') hk
      omega

theorem Drawn.congr {P : Type} {In : P → Prop} {nb : P → Dir → Option P} {T : P → Tile} {conn conn' : P → P → Dir → Prop} {F : P → Rat}
    (h : Drawn In nb T conn F) (hc : ∀ p q d, In p → (conn p q d ↔ conn' p q d)) : Drawn In nb T conn' F := by
  have e1 : ∀ p d, inlets In conn p d = inlets In conn' p d := by
    intro p d
    unfold inlets
    have : (∃ r, In r ∧ conn r p d) ↔ ∃ r, In r ∧ conn' r p d :=
      ⟨fun ⟨r, a, b⟩ => ⟨r, a, (hc r p d a).1 b⟩, fun ⟨r, a, b⟩ => ⟨r, a, (hc r p d a).2 b⟩⟩
    by_cases h : ∃ r, In r ∧ conn r p d
    · rw [if_pos h, if_pos (this.1 h)]
    · rw [if_neg h, if_neg fun h' => h (this.2 h')]
  have e2 : ∀ p q d, In p → departs conn F p q d = departs conn' F p q d := by
    intro p q d hp
    unfold departs
    by_cases h : conn p q d
    · rw [if_pos h, if_pos ((hc p q d hp).1 h)]
    · rw [if_neg h, if_neg fun h' => h ((hc p q d hp).2 h')]
  refine ⟨fun p q d hp hcn => h.surface p q d hp ((hc p q d hp).2 hcn), h.under, fun p q d p' q' hp hq hpair hp' hq' r hr ⟨t, ht, hcn⟩ => ?_⟩
  rw [← e1, ← e1, ← e2 p p' d hp, ← e2 q q' d hq]
  exact h.splitter p q d p' q' hp hq hpair hp' hq' r hr ⟨t, ht, (hc t r d ht).2 hcn⟩

/-- No splitter passes items directly on to another. -/
def SplittersApart {P : Type} (In : P → Prop) (nb : P → Dir → Option P) (T : P → Tile) : Prop :=
  ∀ p q d, In p → Connected nb T p q d → ¬ ((T p).IsSplitter ∧ (T q).IsSplitter)

/-- C30: every layout found in which no splitter passes items directly on to another balances both ways in the game. -/
theorem c30_balances_apart {width height m n : Nat} {ugLen : Option Nat} {aligned : Bool} {g : Grid} {cs : Cnf} {s : Nat} (hne : m ≠ n)
    (hL : ∀ l, ugLen = some l → 1 ≤ l) (h : freeBalancer width height ugLen m n aligned = .ok (g, cs, s)) {v : Asg} (hv : Sat v cs)
    {T : Nat × Nat → Tile} (hT : Decodes g v T) (ha : SplittersApart g.In g.nb T) :
    ∃ i j, BlockAt height i m (fun y => T (0, y) = .belt .right .right) (fun y => T (0, y) = .empty) ∧
      BlockAt height j n (fun y => T (width - 1, y) = .belt .right .right) (fun y => T (width - 1, y) = .empty) ∧
      (∀ F, Steady g.In g.nb T (Connected g.nb T) F → ∀ y, j ≤ y → y < j + n → F (width - 1, y) = (∑ k ∈ range m, F (0, i + k)) / n) ∧
      (∀ x : Nat → Rat, ∃ F, Steady g.In g.nb T (Connected g.nb T) F ∧ ∀ k < m, F (0, i + k) = x k) ∧
      (∀ F, Drawn g.In g.nb T (Connected g.nb T) F → ∀ y, i ≤ y → y < i + m → F (0, y) = (∑ k ∈ range n, F (width - 1, j + k)) / m) ∧
      ∀ x : Nat → Rat, ∃ F, Drawn g.In g.nb T (Connected g.nb T) F ∧ ∀ k < n, F (width - 1, j + k) = x k := by
  obtain ⟨conn, h1, _, i, j, h2, h3, h4, h5, h6, h7⟩ := c30_balances_partial hne hL h hv hT
  have hc : ∀ p q d, g.In p → (conn p q d ↔ Connected g.nb T p q d) := fun p q d hp =>
    ⟨h1.1 p q d hp, fun hh => h1.2 p q d hp hh (ha p q d hp hh)⟩
  have hc' : ∀ p q d, g.In p → (Connected g.nb T p q d ↔ conn p q d) := fun p q d hp => (hc p q d hp).symm
  refine ⟨i, j, h2, h3, fun F hF => h4 F (hF.congr hc'), fun x => ?_, fun F hF => h6 F (hF.congr hc'), fun x => ?_⟩
  · obtain ⟨F, a, b⟩ := h5 x; exact ⟨F, a.congr hc, b⟩
  · obtain ⟨F, a, b⟩ := h7 x; exact ⟨F, a.congr hc, b⟩

/-! ### An example: one input, two outputs, one splitter -/

/-- An assignment. -/
def forkAsg : Asg := fun x => Nat.testBit 0xbfffe9fe808c0ff87affa02049fffebff000017fff8ffa02303fffebff008827fffaffc02282 x

/-- The grid of the example. -/
def forkGrid : Grid := mkGrid 3 2 ⟨false, false⟩ none (some 4) (nToMFields 1 2 2) 0

/-- The layout of the example. -/
def forkLayout (p : Nat × Nat) : Tile :=
  if p.1 = 1 then .splitter .right (p.2 == 1) else if p = (0, 1) then .empty else .belt .right .right

theorem fork_sat : okSat forkAsg (freeCnf (freeBalancer 3 2 (some 4) 1 2 true)) = true := by decide +kernel

theorem fork_ok : ∃ cs s, freeBalancer 3 2 (some 4) 1 2 true = .ok (forkGrid, cs, s) ∧ Sat forkAsg cs := by
  obtain ⟨cs, h1, h2⟩ := okSat_iff.1 fork_sat
  unfold freeCnf at h1
  split at h1
  · cases h1
  · rename_i g cs' s' h
    cases h1
    obtain ⟨_, _, h3⟩ := freeBalancer_grid h
    obtain ⟨_, h4, _⟩ := createNToM_eq (width := 3) (height := 2) (m := 1) (n := 2) (ugLen := some 4) (by decide) (by decide) (by decide)
      (by decide) (by decide)
    rw [h4] at h3
    simp only [Except.ok.injEq, Prod.mk.injEq] at h3
    have : g = forkGrid := h3.1.symm.trans (by
      have : (maxBeltFlow 1 2).size = 2 := by decide +kernel
      rw [this]
      rfl)
    subst this
    exact ⟨_, s', h, h2⟩

theorem fork_decodes : Decodes forkGrid forkAsg forkLayout := by
  have key : ∀ x < 3, ∀ y < 2, (decodeCell forkGrid forkAsg (x, y)).toOption = some (forkLayout (x, y)) := by decide +kernel
  intro p hp
  have := key p.1 hp.1 p.2 hp.2
  cases h : decodeCell forkGrid forkAsg p with
  | error e => rw [show (p.1, p.2) = p from rfl, h] at this; cases this
  | ok t => rw [show (p.1, p.2) = p from rfl, h] at this; exact congrArg _ (Option.some.inj this)

theorem fork_apart : SplittersApart forkGrid.In forkGrid.nb forkLayout := by
  have hsp : ∀ p, (forkLayout p).IsSplitter → p.1 = 1 ∧ ∃ b, forkLayout p = .splitter .right b := by
    intro p h
    unfold forkLayout at h ⊢
    split
    · exact ⟨by assumption, _, rfl⟩
    · rename_i hp
      rw [if_neg hp] at h
      split at h <;> obtain ⟨_, _, h⟩ := h <;> cases h
  rintro p q d hp hc ⟨h1, h2⟩
  obtain ⟨a, b, e⟩ := hsp p h1
  obtain ⟨a', _⟩ := hsp q h2
  have hd : Dir.right = d := by have := hc.2.1; rw [e] at this; exact this
  subst hd
  obtain ⟨x, y⟩ := p
  obtain ⟨x', y'⟩ := q
  simp only at a a'
  subst a a'
  have hy : y < 2 := hp.2
  have := hc.1
  interval_cases y
  · have e2 : forkGrid.nb (1, 0) .right = some (2, 0) := by decide +kernel
    rw [e2] at this; cases this
  · have e2 : forkGrid.nb (1, 1) .right = some (2, 1) := by decide +kernel
    rw [e2] at this; cases this

example : (∀ l, some 4 = some l → 1 ≤ l) ∧ ∃ cs s, freeBalancer 3 2 (some 4) 1 2 true = .ok (forkGrid, cs, s) ∧ Sat forkAsg cs ∧
    Decodes forkGrid forkAsg forkLayout ∧ SplittersApart forkGrid.In forkGrid.nb forkLayout := by
  obtain ⟨cs, s, h1, h2⟩ := fork_ok
  exact ⟨by intro l h; cases h; decide, cs, s, h1, h2, fork_decodes, fork_apart⟩

end FSat
