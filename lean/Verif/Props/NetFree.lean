import Verif.Lemmas.NetFree
import Mathlib.Tactic.FieldSimp
/-!
# C29, C30: balancers without a network
-/

set_option linter.unusedSimpArgs false

namespace FSat

open Finset

theorem createNToN_eq {width height size : Nat} {ugLen : Option Nat} (hw : 0 < width) (hh : 0 < height) (hn : 0 < size) :
    ∃ cs, createNToM width height ugLen size size = .ok (mkGrid width height ⟨false, false⟩ none ugLen
        (nToNFields (size - 1) (size * nToNDenominator size).size) 0, cs,
      height * width * (gridFields none (nToNFields (size - 1) (size * nToNDenominator size).size)).variableCount) ∧
      nToNClauses (mkGrid width height ⟨false, false⟩ none ugLen (nToNFields (size - 1) (size * nToNDenominator size).size) 0)
        (nToNLits width (size - 1) (size * nToNDenominator size).size) size = .ok cs := by
  obtain ⟨cs, e⟩ := nToN_total (g := mkGrid width height ⟨false, false⟩ none ugLen
      (nToNFields (size - 1) (size * nToNDenominator size).size) 0) (mkGrid_wf hw hh _ none _ (by intro n h; cases h) _ _)
    (F := nToNLits width (size - 1) (size * nToNDenominator size).size) hn fun p => nToNLits_shape _ _ _ p
  exact ⟨cs, by unfold createNToM; rw [if_pos ⟨hw, hh, hn, hn⟩, if_pos rfl, createNToN, if_pos ⟨hw, hh, hn⟩]; simp only [e], e⟩

/-- The part of `main` after the grid is created never fails. -/
theorem freeBalancer_total {width height m n : Nat} {ugLen : Option Nat} {g : Grid} {cs : Cnf} {s : Nat} (hL : ∀ l, ugLen = some l → 1 ≤ l)
    (aligned : Bool) (h : createNToM width height ugLen m n = .ok (g, cs, s)) (hg : g.WF) (hl : g.LitsLe s) (hug : g.ugLen = ugLen) :
    ∃ cs' s', freeBalancer width height ugLen m n aligned = .ok (g, cs', s') := by
  obtain ⟨ci, hci, _⟩ := init_iff hg
  obtain ⟨c1, s1, e1, _⟩ := c28_free (m := m) (n := n) hg hl hci aligned
  have hlen : ∃ cl, enforceMaximumUndergroundLength g = .ok cl := by
    cases hul : ugLen with
    | none => exact ⟨[], (c21_no_limit g).1 (hug.trans hul)⟩
    | some l =>
      obtain ⟨cl, h1, _⟩ := length_iff hg l (hug.trans hul) (hL l hul)
      exact ⟨cl, h1⟩
  obtain ⟨cl, el⟩ := hlen
  unfold freeBalancer
  rw [h]
  simp only [Gen.all, e1, Gen.pure, el]
  exact ⟨_, _, rfl⟩

/-- C29: the generator never fails on a grid with at least one row and column and a positive number of inputs. -/
theorem c29_builds {width height size : Nat} {ugLen : Option Nat} (hw : 0 < width) (hh : 0 < height) (hn : 0 < size)
    (hL : ∀ l, ugLen = some l → 1 ≤ l) (aligned : Bool) : ∃ g cs s, freeBalancer width height ugLen size size aligned = .ok (g, cs, s) := by
  obtain ⟨cs, e, _⟩ := createNToN_eq (ugLen := ugLen) hw hh hn
  obtain ⟨cs', s', e'⟩ := freeBalancer_total hL aligned e (mkGrid_wf hw hh _ none _ (by intro n h; cases h) _ _)
    (by simpa using (mkGrid_lits width height ⟨false, false⟩ none ugLen (nToNFields (size - 1) (size * nToNDenominator size).size) 0).1) rfl
  exact ⟨_, cs', s', e'⟩

/-- Everything known of a satisfying assignment. -/
theorem nToN_all {width height size : Nat} {ugLen : Option Nat} {aligned : Bool} {g : Grid} {cs : Cnf} {s : Nat}
    (hL : ∀ l, ugLen = some l → 1 ≤ l) (h : freeBalancer width height ugLen size size aligned = .ok (g, cs, s)) {v : Asg} (hv : Sat v cs) :
    0 < size ∧ g.WF ∧ g.edge = ⟨false, false⟩ ∧ g.width = width ∧ g.height = height ∧ g.ugLen = ugLen ∧
      NToNSem g (nToNLits width (size - 1) (size * nToNDenominator size).size) size v ∧ FreeSem g size size aligned v := by
  obtain ⟨cs0, s0, e, h2⟩ := free_sem hL h
  have hpos : width > 0 ∧ height > 0 ∧ size > 0 := by
    unfold createNToM at e
    split at e
    · rename_i hc; exact ⟨hc.1, hc.2.1, hc.2.2.1⟩
    · cases e
  obtain ⟨hw, hh, hn⟩ := hpos
  obtain ⟨cs1, e1, e2⟩ := createNToN_eq (ugLen := ugLen) hw hh hn
  rw [e1] at e
  simp only [Except.ok.injEq, Prod.mk.injEq] at e
  obtain ⟨rfl, rfl, rfl⟩ := e
  have hg := mkGrid_wf hw hh ⟨false, false⟩ none ugLen (by intro n h; cases h) (nToNFields (size - 1) (size * nToNDenominator size).size) 0
  obtain ⟨k1, k2⟩ := h2 v hg
    (by simpa using (mkGrid_lits width height ⟨false, false⟩ none ugLen (nToNFields (size - 1) (size * nToNDenominator size).size) 0).1) rfl hv
  exact ⟨hn, hg, rfl, rfl, rfl, rfl, nToN_sem hg (fun p => nToNLits_shape _ _ _ p) e2 k1, k2⟩

/-- The flow of the items that enter through the inputs of the rows `y` with `y % size = k`: for all `k` but the last the numbers of
the assignment, for the last one what is missing to `full`. -/
def freeFlow (F : Nat × Nat → FlowLits) (size : Nat) (v : Asg) (k : Nat) (p : Nat × Nat) : Rat :=
  if k < size - 1 then (value v (comp (F p).flow k) : Nat)
  else (size * nToNDenominator size : Nat) - ∑ k ∈ range (size - 1), ((value v (comp (F p).flow k) : Nat) : Rat)

theorem freeFlow_steady {g : Grid} {F : Nat × Nat → FlowLits} {size bits cb : Nat} {v : Asg} {T : Nat × Nat → Tile} (hg : g.WF)
    (hF : ∀ p, (F p).Shape (size - 1) bits cb) (hs : NToNSem g F size v)
    (hi : IntersectionSem g (g.vals v)) (hl : Lays g (g.vals v) T) (hin : InnerSplitters g T) (k : Nat) :
    Steady g.In g.nb T (g.linked (g.vals v)) (freeFlow F size v k) := by
  unfold freeFlow
  by_cases hk : k < size - 1
  · simp only [hk, if_true]
    exact hs.steady hg hF hi hl hin hk
  · simp only [hk, if_false]
    have h1 := Steady.sum (range (size - 1)) (fun _ => (-1 : Rat)) (fun k p => ((value v (comp (F p).flow k) : Nat) : Rat))
      fun k hk => hs.steady hg hF hi hl hin (mem_range.1 hk)
    have h2 := Steady.const (In := g.In) (nb := g.nb) (T := T) (conn := g.linked (g.vals v)) ((size * nToNDenominator size : Nat) : Rat)
      (hs.fullSplitters hg hi hl hin)
    have h3 := Steady.sum (range 2) (fun _ => (1 : Rat))
      (fun k p => if k = 0 then ((size * nToNDenominator size : Nat) : Rat) else
        ∑ k ∈ range (size - 1), (-1 : Rat) * ((value v (comp (F p).flow k) : Nat) : Rat)) (by
        intro k _
        by_cases hk : k = 0
        · simp only [hk, if_true]; exact h2
        · simp only [hk, if_false]; exact h1)
    have e : ∀ p, ((size * nToNDenominator size : Nat) : Rat) - ∑ k ∈ range (size - 1), ((value v (comp (F p).flow k) : Nat) : Rat) =
        ∑ i ∈ range 2, (1 : Rat) * (if i = 0 then ((size * nToNDenominator size : Nat) : Rat) else
        ∑ k ∈ range (size - 1), (-1 : Rat) * ((value v (comp (F p).flow k) : Nat) : Rat)) := by
      intro p
      rw [sum_range_succ, sum_range_succ, sum_range_zero, ← mul_sum]
      simp
      ring
    simp only [e]
    exact h3

theorem freeFlow_first {g : Grid} {F : Nat × Nat → FlowLits} {size : Nat} {v : Asg} (hs : NToNSem g F size v) {k y : Nat} (hk : k < size)
    (hy : y < g.height) : freeFlow F size v k (0, y) = if y % size = k then ((size * nToNDenominator size : Nat) : Rat) else 0 := by
  have h0 := (hs.first y hy).2
  unfold freeFlow
  by_cases hk' : k < size - 1
  · simp only [hk', if_true, h0 k hk']
    split <;> simp
  · have hkk : k = size - 1 := by omega
    have e : ∑ k ∈ range (size - 1), ((value v (comp (F (0, y)).flow k) : Nat) : Rat) =
        ∑ k ∈ range (size - 1), if y % size = k then ((size * nToNDenominator size : Nat) : Rat) else 0 :=
      sum_congr rfl fun k hk => by rw [h0 k (mem_range.1 hk)]; split <;> simp
    rw [if_neg hk', e, sum_ite_eq]
    have hmod := Nat.mod_lt y (by omega : size > 0)
    simp only [mem_range]
    by_cases hm : y % size < size - 1
    · rw [if_pos hm, if_neg (by omega)]; ring
    · rw [if_neg hm, if_pos (by omega)]; ring

theorem freeFlow_last {g : Grid} {F : Nat × Nat → FlowLits} {size : Nat} {v : Asg} (hs : NToNSem g F size v) {k y : Nat} (hk : k < size)
    (hy : y < g.height) : freeFlow F size v k (g.width - 1, y) = (nToNDenominator size : Nat) := by
  have h0 := (hs.last y hy).2
  unfold freeFlow
  by_cases hk' : k < size - 1
  · rw [if_pos hk', h0 k hk']
  · have e : ∑ k ∈ range (size - 1), ((value v (comp (F (g.width - 1, y)).flow k) : Nat) : Rat) =
        ∑ k ∈ range (size - 1), ((nToNDenominator size : Nat) : Rat) := sum_congr rfl fun k hk => by rw [h0 k (mem_range.1 hk)]
    rw [if_neg hk', e, sum_const, card_range, nsmul_eq_mul]
    have : ((size - 1 : Nat) : Rat) = (size : Rat) - 1 := by
      rw [Nat.cast_sub (by omega)]; simp
    rw [this]
    push_cast
    ring

/-- C29, the flow: for every layout `T` found there are as many steady flows as inputs, one for each input.  Each is `full` on its own
input belt and zero on the others, and `full / size` - a natural number - on every output belt.  The layout obeys the basic rules, its
splitters are connected on all four ends, so each splitter output carries half of the sum of the inputs (`Steady.halves`), and the
flows are the numbers of the assignment (except the last, which is what is missing to `full`). -/
theorem c29_flow {width height size : Nat} {ugLen : Option Nat} {aligned : Bool} {g : Grid} {cs : Cnf} {s : Nat}
    (hL : ∀ l, ugLen = some l → 1 ≤ l) (h : freeBalancer width height ugLen size size aligned = .ok (g, cs, s)) {v : Asg} (hv : Sat v cs)
    {T : Nat × Nat → Tile} (hT : Decodes g v T) :
    BasicRules g.In g.nb T (g.shut (.ofPair false true)) (g.shut (.ofBool true)) ugLen ∧
    FullSplitters g.In T (Connected g.nb T) ∧
    ∃ i j, BlockAt height i size (fun y => T (0, y) = .belt .right .right) (fun y => T (0, y) = .empty) ∧
      BlockAt height j size (fun y => T (width - 1, y) = .belt .right .right) (fun y => T (width - 1, y) = .empty) ∧
      (aligned = true → i = j) ∧
      ∃ (φ : Nat → Nat × Nat → Rat) (full den : Nat), 0 < den ∧ full = size * den ∧ ∀ k < size,
        Steady g.In g.nb T (Connected g.nb T) (φ k) ∧
        (∀ y, i ≤ y → y < i + size → φ k (0, y) = if y % size = k then (full : Rat) else 0) ∧
        (∀ y, j ≤ y → y < j + size → φ k (width - 1, y) = den) ∧
        (k < size - 1 → ∀ p, φ k p = (value v ((nToNLits width (size - 1) (Nat.size full) p).flow.getD k []) : Nat)) := by
  obtain ⟨hn, hg, he, rfl, rfl, rfl, hs, hf⟩ := nToN_all hL h hv
  obtain ⟨i, j, hlay, hal⟩ := free_layout hg hs.init hs.shut hs.under (fun y hy => (hs.first y hy).1) (fun y hy => (hs.last y hy).1) hf hT
  have hl := lays_of_decodes hs.init hT
  have hc := hs.linked_iff hg hf.inter hl
  have hin := hlay.inner hg he
  refine ⟨hlay.rules, ?_, i, j, hlay.inputs, hlay.outputs, ?_,
    freeFlow (nToNLits g.width (size - 1) (size * nToNDenominator size).size) size v, _, _, nToNDenominator_pos (n := size), rfl, ?_⟩
  · intro p d b hp ht
    obtain ⟨⟨q, h1⟩, r, hr, h2⟩ := hs.fullSplitters hg hf.inter hl hin p d b hp ht
    exact ⟨⟨q, (hc p q d hp).1 h1⟩, r, hr, (hc r p d hr).1 h2⟩
  · intro ha
    have := hal ha
    unfold RowsNested at this
    rw [if_pos (Nat.le_refl _)] at this
    omega
  · intro k hk
    refine ⟨(freeFlow_steady hg (fun p => nToNLits_shape _ _ _ p) hs hf.inter hl hin k).congr hc, fun y h1 h2 => ?_, fun y h1 h2 => ?_,
      fun hk' p => ?_⟩
    · have hy : y < g.height := by have := hlay.inputs.1; omega
      exact freeFlow_first hs hk hy
    · have hy : y < g.height := by have := hlay.outputs.1; omega
      exact freeFlow_last hs hk hy
    · unfold freeFlow
      rw [if_pos hk']
      rfl

/-- C29: every layout found balances.  Whatever comes in on its input belts, in every steady flow each output belt carries the same
amount, the `size`-th part of the sum of the inputs. -/
theorem c29_balances {width height size : Nat} {ugLen : Option Nat} {aligned : Bool} {g : Grid} {cs : Cnf} {s : Nat}
    (hL : ∀ l, ugLen = some l → 1 ≤ l) (h : freeBalancer width height ugLen size size aligned = .ok (g, cs, s)) {v : Asg} (hv : Sat v cs)
    {T : Nat × Nat → Tile} (hT : Decodes g v T) :
    ∃ i j, BlockAt height i size (fun y => T (0, y) = .belt .right .right) (fun y => T (0, y) = .empty) ∧
      BlockAt height j size (fun y => T (width - 1, y) = .belt .right .right) (fun y => T (width - 1, y) = .empty) ∧
      (∀ F, Steady g.In g.nb T (Connected g.nb T) F → ∀ y, j ≤ y → y < j + size →
        F (width - 1, y) = (∑ k ∈ range size, F (0, i + k)) / size) ∧
      ∀ x : Nat → Rat, ∃ F, Steady g.In g.nb T (Connected g.nb T) F ∧ ∀ k < size, F (0, i + k) = x k := by
  obtain ⟨hn, hg, he, rfl, rfl, rfl, hs, hf⟩ := nToN_all hL h hv
  obtain ⟨i, j, hlay, _⟩ := free_layout hg hs.init hs.shut hs.under (fun y hy => (hs.first y hy).1) (fun y hy => (hs.last y hy).1) hf hT
  have hl := lays_of_decodes hs.init hT
  have hc := hs.linked_iff hg hf.inter hl
  have hin := hlay.inner hg he
  have hpos : (0 : Rat) < ((size * nToNDenominator size : Nat) : Rat) := by
    exact_mod_cast Nat.mul_pos hn nToNDenominator_pos
  have hst := fun k => freeFlow_steady hg (fun p => nToNLits_shape _ _ _ p) hs hf.inter hl hin k
  have hfirst : ∀ k < size, ∀ y, i ≤ y → y < i + size → freeFlow (nToNLits g.width (size - 1) (size * nToNDenominator size).size) size v k (0, y) =
      if y % size = k then ((size * nToNDenominator size : Nat) : Rat) else 0 := fun k hk y h1 h2 =>
    freeFlow_first hs hk (by have := hlay.inputs.1; omega)
  refine ⟨i, j, hlay.inputs, hlay.outputs, fun F hF y h1 h2 => ?_, fun x => ?_⟩
  · have hF' : Steady g.In g.nb T (g.linked (g.vals v)) F := hF.congr fun p q d hp => (hc p q d hp).symm
    rw [hlay.balance hg he hl hf.inter (fun k _ => hst k) (a := ((size * nToNDenominator size : Nat) : Rat))
      (b := ((nToNDenominator size : Nat) : Rat)) hpos.ne' hfirst
      (fun k hk y h1 h2 => freeFlow_last hs hk (by have := hlay.outputs.1; omega)) F hF' h1 h2]
    have hd : ((nToNDenominator size : Nat) : Rat) ≠ 0 := by exact_mod_cast nToNDenominator_pos.ne'
    have hs' : (size : Rat) ≠ 0 := by exact_mod_cast hn.ne'
    push_cast
    field_simp
  · refine ⟨_, (Steady.sum (range size) (fun k => x k / ((size * nToNDenominator size : Nat) : Rat))
      (fun k => freeFlow (nToNLits g.width (size - 1) (size * nToNDenominator size).size) size v ((i + k) % size)) fun k _ => hst _).congr hc,
      fun k hk => ?_⟩
    have hmod : ∀ k, (i + k) % size < size := fun k => Nat.mod_lt _ hn
    rw [sum_eq_single_of_mem k (mem_range.2 hk)]
    · rw [hfirst _ (hmod k) _ (by omega) (by omega), if_pos rfl, div_mul_cancel₀ _ hpos.ne']
    · intro k' hk' hne
      rw [hfirst _ (hmod k') _ (by omega) (by omega), if_neg, mul_zero]
      intro hm
      have := block_mod hm (mem_range.1 hk') hk
      omega

/-! ### An example: two inputs, two outputs, one splitter -/

/-- An assignment. -/
def pairAsg : Asg := fun x => [1, 7, 9, 13, 22, 32, 38, 42, 51, 59, 66, 67, 71, 79, 88, 94, 96, 100, 119, 122, 125, 129, 140, 146, 153,
  154, 158, 166, 175, 176].contains x

/-- The clauses of a balancer. -/
def freeCnf (e : Except PyErr (Grid × Cnf × Nat)) : Except PyErr Cnf :=
  match e with
  | .error e => .error e
  | .ok (_, cs, _) => .ok cs

/-- The grid of the example. -/
def pairGrid : Grid := mkGrid 3 2 ⟨false, false⟩ none (some 4) (nToNFields 1 2) 0

/-- The layout of the example. -/
def pairLayout (p : Nat × Nat) : Tile := if p.1 = 1 then .splitter .right (p.2 == 1) else .belt .right .right

theorem pair_sat : okSat pairAsg (freeCnf (freeBalancer 3 2 (some 4) 2 2 true)) = true := by decide +kernel

theorem freeBalancer_grid {width height m n : Nat} {ugLen : Option Nat} {aligned : Bool} {g : Grid} {cs : Cnf} {s : Nat}
    (h : freeBalancer width height ugLen m n aligned = .ok (g, cs, s)) : ∃ cs' s', createNToM width height ugLen m n = .ok (g, cs', s') := by
  unfold freeBalancer at h
  split at h
  · cases h
  · rename_i g' cs' s' e
    split at h
    · cases h
    · cases h; exact ⟨_, _, e⟩

theorem pair_ok : ∃ cs s, freeBalancer 3 2 (some 4) 2 2 true = .ok (pairGrid, cs, s) ∧ Sat pairAsg cs := by
  obtain ⟨cs, h1, h2⟩ := okSat_iff.1 pair_sat
  unfold freeCnf at h1
  split at h1
  · cases h1
  · rename_i g cs' s' h
    cases h1
    obtain ⟨_, _, h3⟩ := freeBalancer_grid h
    obtain ⟨_, h4, _⟩ := createNToN_eq (width := 3) (height := 2) (size := 2) (ugLen := some 4) (by decide) (by decide) (by decide)
    rw [h4] at h3
    simp only [Except.ok.injEq, Prod.mk.injEq] at h3
    have : g = pairGrid := h3.1.symm.trans (by
      have : nToNDenominator 2 = 1 := by decide +kernel
      rw [this]
      have : Nat.size (2 * 1) = 2 := by decide +kernel
      rw [this]
      rfl)
    subst this
    exact ⟨_, s', h, h2⟩

theorem pair_decodes : Decodes pairGrid pairAsg pairLayout := by
  have key : ∀ x < 3, ∀ y < 2, (decodeCell pairGrid pairAsg (x, y)).toOption = some (pairLayout (x, y)) := by decide +kernel
  intro p hp
  have := key p.1 hp.1 p.2 hp.2
  cases h : decodeCell pairGrid pairAsg p with
  | error e => rw [show (p.1, p.2) = p from rfl, h] at this; cases this
  | ok t => rw [show (p.1, p.2) = p from rfl, h] at this; exact congrArg _ (Option.some.inj this)

example : (∀ l, some 4 = some l → 1 ≤ l) ∧ ∃ cs s, freeBalancer 3 2 (some 4) 2 2 true = .ok (pairGrid, cs, s) ∧ Sat pairAsg cs ∧
    Decodes pairGrid pairAsg pairLayout := by
  obtain ⟨cs, s, h1, h2⟩ := pair_ok
  exact ⟨by intro l h; cases h; decide, cs, s, h1, h2, pair_decodes⟩

end FSat
