import Verif.Model.Interchange
import Mathlib.Algebra.Order.Group.Unbundled.Int
import Mathlib.Algebra.Order.Ring.Int
import Mathlib.Tactic.Linarith
/-!
# C32: interchanges
-/

namespace FSat

theorem everySecond_length {α : Type} (l : List α) : (everySecond l).length = (l.length + 1) / 2 := by
  match l with
  | [] => simp [everySecond]
  | [a] => simp [everySecond]
  | a :: b :: l => simp only [everySecond, List.length_cons, everySecond_length l]; omega

theorem everySecond_get {α : Type} (l : List α) (k : Nat) : (everySecond l)[k]? = l[2 * k]? := by
  match l with
  | [] => simp [everySecond]
  | [a] =>
    cases k with
    | zero => rfl
    | succ k => simp [everySecond]
  | a :: b :: l =>
    cases k with
    | zero => rfl
    | succ k =>
      rw [show 2 * (k + 1) = 2 * k + 1 + 1 by omega]
      simp only [everySecond, List.getElem?_cons_succ, everySecond_get l]

/-- How many of the first `r` rows have a property. -/
def rowsWith (r : Nat) (f : Nat → Bool) : Nat := (List.range r).countP f

/-- The rows of an interchange of height `2 * n` that take the lower colour. -/
def lowerIn (n y : Nat) : Bool := decide (n ≤ y)

theorem rowsWith_succ (r : Nat) (f : Nat → Bool) : rowsWith (r + 1) f = rowsWith r f + (if f r then 1 else 0) := by
  unfold rowsWith
  rw [List.range_succ, List.countP_append, List.countP_singleton]

theorem rowsWith_lower (n r : Nat) : rowsWith r (lowerIn n) = r - n := by
  induction r with
  | zero => simp [rowsWith]
  | succ r ih =>
    rw [rowsWith_succ, ih]
    unfold lowerIn
    split <;> rename_i h <;> simp at h <;> omega

theorem rowsWith_upper (n r : Nat) : rowsWith r (fun y => !lowerIn n y) = min r n := by
  induction r with
  | zero => simp [rowsWith]
  | succ r ih =>
    rw [rowsWith_succ, ih]
    unfold lowerIn
    split <;> rename_i h <;> simp at h <;> omega

theorem rowsWith_pairs (out : Nat → Bool) (k : Nat) (h : ∀ i < k, out (2 * i) ≠ out (2 * i + 1)) :
    rowsWith (2 * k) out = k ∧ rowsWith (2 * k) (fun y => !out y) = k := by
  induction k with
  | zero => simp [rowsWith]
  | succ k ih =>
    obtain ⟨h1, h2⟩ := ih fun i hi => h i (by omega)
    rw [show 2 * (k + 1) = 2 * k + 1 + 1 by omega, rowsWith_succ, rowsWith_succ, rowsWith_succ, rowsWith_succ, h1, h2]
    have := h k (by omega)
    cases h3 : out (2 * k) <;> cases h4 : out (2 * k + 1) <;> simp_all

theorem flowCounts_length (n : Nat) : (flowCounts n).length = n - 1 := by
  unfold flowCounts
  simp only [everySecond_length, List.length_drop, List.length_map, List.length_range]
  omega

theorem flowCounts_get (n k : Nat) (hk : k < n - 1) : (flowCounts n)[k]? = some ((min (2 * k + 2) n : Nat) - ((k : Int) + 1)) := by
  unfold flowCounts
  rw [everySecond_get, List.getElem?_drop, List.getElem?_map, List.getElem?_range (by omega)]
  simp only [Option.map_some]
  congr 1
  have e : |((1 + 2 * k : Nat) : Int) - ((n : Int) - 1)| = if 2 * k + 2 ≤ n then (n : Int) - (2 * k + 2) else (2 * k + 2 : Int) - n := by
    split
    · rw [abs_of_nonpos (by omega)]; omega
    · rw [abs_of_nonneg (by omega)]; omega
  rw [e]
  split <;> split <;> omega

/-- C32: an interchange of height `2 * n` takes the upper colour in its upper `n` rows and the lower colour in the other rows, and
puts out one of each in every pair of rows.  `flow_counts(n)` lists, for the cut below the first `k + 1` pairs of rows, how many more
belts of the lower colour come out above the cut than go in above it, which is also how many more belts of the upper colour go in
above the cut than come out above it. -/
theorem c32_flow_counts (n : Nat) (out : Nat → Bool) (hout : ∀ i < n, out (2 * i) ≠ out (2 * i + 1)) :
    (flowCounts n).length = n - 1 ∧ ∀ k, k < n - 1 → ∃ c, (flowCounts n)[k]? = some c ∧
      c = (rowsWith (2 * k + 2) out : Int) - rowsWith (2 * k + 2) (lowerIn n) ∧
      c = (rowsWith (2 * k + 2) (fun y => !lowerIn n y) : Int) - rowsWith (2 * k + 2) (fun y => !out y) := by
  refine ⟨flowCounts_length n, fun k hk => ⟨_, flowCounts_get n k hk, ?_⟩⟩
  obtain ⟨h1, h2⟩ := rowsWith_pairs out (k + 1) fun i hi => hout i (by omega)
  rw [show 2 * (k + 1) = 2 * k + 2 by omega] at h1 h2
  rw [h1, h2, rowsWith_lower, rowsWith_upper]
  omega

/-- C32: the counts are used for the cuts below rows 1, 3, ..., height - 3, in this order. -/
theorem c32_cuts (n : Nat) : (flowCuts (2 * n)).length = n - 1 ∧
    ∀ k, k < n - 1 → ∃ c, (flowCuts (2 * n))[k]? = some (2 * k + 1, c) ∧ (flowCounts n)[k]? = some c := by
  unfold flowCuts
  rw [show 2 * n / 2 = n by omega]
  refine ⟨by simp [flowCounts_length], fun k hk => ⟨_, ?_, flowCounts_get n k hk⟩⟩
  rw [List.getElem?_zip_eq_some]
  refine ⟨?_, flowCounts_get n k hk⟩
  rw [List.getElem?_map, List.getElem?_range (by omega)]
  simp only [Option.map_some]
  congr 1; omega

example : flowCounts 5 = [1, 2, 2, 1] ∧ flowCuts 10 = [(1, 1), (3, 2), (5, 2), (7, 1)] := by decide
example : ∀ i < 5, (fun y : Nat => decide (y % 2 = 1)) (2 * i) ≠ (fun y : Nat => decide (y % 2 = 1)) (2 * i + 1) := by decide

end FSat
