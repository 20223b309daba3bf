import Verif.Model.NetFreeMain
import Verif.Props.Optimisations
import Verif.Props.NetFreeMix
/-!
# C59 and C30: the rest of the program for balancers without a network
-/

namespace FSat

theorem concatE_all {α : Type} (f : α → Except PyErr Cnf) (c : α → Cnf) (xs : List α) (h : ∀ x ∈ xs, f x = .ok (c x)) :
    concatE f xs = .ok (xs.flatMap c) := by
  induction xs with
  | nil => rfl
  | cons x xs ih =>
    simp only [concatE, h x List.mem_cons_self, ih fun y hy => h y (List.mem_cons_of_mem _ hy), List.flatMap_cons]

/-- C59: `prevent_double_edge_belts`, on a grid of at least two columns, rejects exactly the layouts with two straight belts to the
right, one above the other, in the second or the last but one column (in a grid of two columns: in the second). -/
theorem c59_double_edge {g : Grid} (hw : 2 ≤ g.width) : ∃ cs, preventDoubleEdgeBelts g = .ok cs ∧ ∀ v T, Solved g v T →
    (Sat v cs ↔ ∀ x y, (x = 1 ∨ x = max (g.width - 2) 1) → y + 1 < g.height →
      ¬ (T (x, y) = .belt .right .right ∧ T (x, y + 1) = .belt .right .right)) := by
  have hx : ∀ x ∈ [1, max (g.width - 2) 1], x < g.width := by
    intro x h
    simp only [List.mem_cons, List.not_mem_nil, or_false] at h
    omega
  refine ⟨_, concatE_all _ (fun x => (List.range (g.height - 1)).flatMap fun y =>
    [doubleEdgeClause (g.at' (x, y)) (g.at' (x, y + 1))]) _ fun x h => concatE_all _ _ _ fun y _ => if_pos (hx x h), fun v T h => ?_⟩
  simp only [Sat_flatMap, List.mem_cons, List.not_mem_nil, or_false, List.mem_range] at hx ⊢
  have key : ∀ x y, x < g.width → y + 1 < g.height → (Sat v [doubleEdgeClause (g.at' (x, y)) (g.at' (x, y + 1))] ↔
      ¬ (T (x, y) = .belt .right .right ∧ T (x, y + 1) = .belt .right .right)) := by
    intro x y h1 h2
    have a := (h.base.lays (x, y) ⟨h1, by simp only; omega⟩)
    have b := (h.base.lays (x, y + 1) ⟨h1, h2⟩)
    rw [a.through_iff, b.through_iff]
    simp only [Sat_cons, Sat_nil, and_true, SatC_iff_not, doubleEdgeClause, List.mem_cons, List.not_mem_nil, or_false,
      forall_eq_or_imp, forall_eq, ev_neg, Bool.not_eq_false', and_assoc]
    rfl
  constructor
  · intro hh x y hx' hy
    exact (key x y (hx x hx') hy).1 (hh x hx' y (by omega))
  · intro hh x hx' y hy
    exact (key x y (hx x hx') (by omega)).2 (hh x y hx' (by omega))

example : ∃ cs, preventDoubleEdgeBelts glueSample.grid = .ok cs ∧ Sat glueSample.asg cs := by
  obtain ⟨cs, h1, h2⟩ := c59_double_edge (g := glueSample.grid) (by decide)
  refine ⟨cs, h1, (h2 _ _ glueSample_solved).2 ?_⟩
  rintro x y (rfl | rfl) hy ⟨h3, _⟩ <;> (match y, hy, h3 with | 0, _, h3 => cases h3)

/-- C30: the whole program only adds clauses to those of `c29_flow`, `c29_balances`, `c30_flow` and `c30_balances_apart`, so these
theorems hold of its solutions. -/
theorem c30_main {width height m n : Nat} {ugLen : Option Nat} {aligned : Bool} {g : Grid} {cs : Cnf} {s : Nat}
    (h : freeBalancerMain width height ugLen m n aligned = .ok (g, cs, s)) :
    ∃ cs0, freeBalancer width height ugLen m n aligned = .ok (g, cs0, s) ∧ ∀ v, Sat v cs → Sat v cs0 := by
  unfold freeBalancerMain at h
  split at h
  · cases h
  · rename_i g0 cs0 s0 h0
    split at h
    · cases h
    · simp only [Except.ok.injEq, Prod.mk.injEq] at h
      obtain ⟨rfl, rfl, rfl⟩ := h
      exact ⟨cs0, h0, fun v hv => ((Sat_append v _ _).1 hv).1⟩

/-- C30: the whole program builds its clauses for every grid of at least two columns. -/
theorem c30_main_builds {width height m n : Nat} {ugLen : Option Nat} (hw : 2 ≤ width) (hh : 0 < height) (hm : 0 < m) (hn : 0 < n)
    (hL : ∀ l, ugLen = some l → 1 ≤ l) (aligned : Bool) : ∃ g cs s, freeBalancerMain width height ugLen m n aligned = .ok (g, cs, s) := by
  have key : ∃ g cs s, freeBalancer width height ugLen m n aligned = .ok (g, cs, s) ∧ g.WF ∧ g.width = width := by
    by_cases hne : m = n
    · subst hne
      obtain ⟨cs, e, _⟩ := createNToN_eq (ugLen := ugLen) (by omega : 0 < width) hh hm
      have wf := mkGrid_wf (by omega : 0 < width) hh ⟨false, false⟩ none ugLen (by intro n h; cases h)
        (nToNFields (m - 1) (m * nToNDenominator m).size) 0
      obtain ⟨cs', s', e'⟩ := freeBalancer_total hL aligned e wf
        (by simpa using (mkGrid_lits width height ⟨false, false⟩ none ugLen (nToNFields (m - 1) (m * nToNDenominator m).size) 0).1) rfl
      exact ⟨_, cs', s', e', wf, rfl⟩
    · obtain ⟨cs, e, _⟩ := createNToM_eq (ugLen := ugLen) (by omega : 0 < width) hh hm hn hne
      have wf := mkGrid_wf (by omega : 0 < width) hh ⟨false, false⟩ none ugLen (by intro n h; cases h)
        (nToMFields m n (maxBeltFlow m n).size) 0
      obtain ⟨cs', s', e'⟩ := freeBalancer_total hL aligned e wf
        (by simpa using (mkGrid_lits width height ⟨false, false⟩ none ugLen (nToMFields m n (maxBeltFlow m n).size) 0).1) rfl
      exact ⟨_, cs', s', e', wf, rfl⟩
  obtain ⟨g, cs, s, h, wf, rfl⟩ := key
  have hin : Window.Inside { minX := 1, maxX := some ((g.width : Int) - 2) } g := by
    refine ⟨Int.zero_le_ofNat 1, Int.le_refl 0, ?_, ?_⟩ <;> simp only [Window.hiX, Window.hiY, Option.getD_some, Option.getD_none] <;> omega
  have h1 : ∃ c, expandUnderground g { minX := 1, maxX := some ((g.width : Int) - 2) } = .ok c := by
    cases hu : g.ugLen with
    | none => obtain ⟨c, hc, _⟩ := c59_expand_unlimited wf _ hin hu; exact ⟨c, hc⟩
    | some l => obtain ⟨c, hc, _⟩ := c59_expand wf _ hin l hu; exact ⟨c, hc⟩
  obtain ⟨c2, h2, _⟩ := c59_generic wf
  obtain ⟨c3, h3, _⟩ := c59_double_edge hw
  obtain ⟨c, hc⟩ := joinE_total (l := [expandUnderground g { minX := 1, maxX := some ((g.width : Int) - 2) },
    applyGenericOptimisations g, preventDoubleEdgeBelts g]) (by
      intro e he
      simp only [List.mem_cons, List.not_mem_nil, or_false] at he
      rcases he with rfl | rfl | rfl
      exacts [h1, ⟨_, h2⟩, ⟨_, h3⟩])
  refine ⟨g, cs ++ c, s, ?_⟩
  unfold freeBalancerMain
  simp only [h, hc]

example : ∃ g cs s, freeBalancerMain 6 4 (some 4) 2 4 false = .ok (g, cs, s) :=
  c30_main_builds (by decide) (by decide) (by decide) (by decide) (by intro l h; cases h; decide) _

end FSat
