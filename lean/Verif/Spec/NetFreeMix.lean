import Verif.Spec.NetFree
/-!
# Balancers with different numbers of inputs and outputs, described by shares

`φ k p` is how much of what enters through input `k` arrives at the cell `p`, `β k p` how much of what is drawn from output `k` is drawn
through the cell `p`, both in whole units.  A belt carries at most `full` units.  Nothing here mentions clauses or the solver.
-/

namespace FSat

/-- The shares of the `m` inputs, in the first column from row `i` on, and of the `n` outputs, in the last column from row `j` on; on the
connections `conn`. -/
structure MixShares (In : Nat × Nat → Prop) (nb : Nat × Nat → Dir → Option (Nat × Nat)) (T : Nat × Nat → Tile)
    (conn : Nat × Nat → Nat × Nat → Dir → Prop) (w m n i j full : Nat) (φ β : Nat → Nat × Nat → Nat) : Prop where
  /-- What enters through an input is a steady flow. -/
  steady : ∀ k < m, Steady In nb T conn fun p => (φ k p : Rat)
  /-- What leaves through an output is drawn steadily. -/
  drawn : ∀ k < n, Drawn In nb T conn fun p => (β k p : Rat)
  /-- No share is more than a belt carries. -/
  le : ∀ p, In p → (∀ k < m, φ k p ≤ full) ∧ ∀ k < n, β k p ≤ full
  /-- On no belt have two shares the highest bit of `full`. -/
  top : ∀ p, In p → (∀ k < m, ∀ l < m, k ≠ l → ¬ (2 ^ Nat.log 2 full ≤ φ k p ∧ 2 ^ Nat.log 2 full ≤ φ l p)) ∧
    ∀ k < n, ∀ l < n, k ≠ l → ¬ (2 ^ Nat.log 2 full ≤ β k p ∧ 2 ^ Nat.log 2 full ≤ β l p)
  /-- As much enters as the smaller of the two numbers of belts can carry, evenly, every input on its own belt only; every input belt gives
  the same part of every output. -/
  inputs : ∀ y, i ≤ y → y < i + m → (∀ k < m, φ k (0, y) * m = if y % m = k then full * min m n else 0) ∧
    ∀ k < n, β k (0, y) * (m * n) = full * min m n
  /-- The same at the outputs. -/
  outputs : ∀ y, j ≤ y → y < j + n → (∀ k < m, φ k (w - 1, y) * (m * n) = full * min m n) ∧
    ∀ k < n, β k (w - 1, y) * n = if y % n = k then full * min m n else 0

/-- No splitter all of whose four ends are connected is idle: what its two halves get differs. -/
def NoIdleFull (In : Nat × Nat → Prop) (nb : Nat × Nat → Dir → Option (Nat × Nat)) (T : Nat × Nat → Tile)
    (conn : Nat × Nat → Nat × Nat → Dir → Prop) (m : Nat) (φ : Nat → Nat × Nat → Nat) : Prop :=
  ∀ p q d, In p → SplitterPair nb T p q d → (∃ r, In r ∧ conn r p d) → (∃ r, In r ∧ conn r q d) → (∃ r, conn p r d) → (∃ r, conn q r d) →
    ∃ k < m, φ k p ≠ φ k q

/-- The cell takes something from the direction `d`. -/
def EntryUsed (nb : Nat × Nat → Dir → Option (Nat × Nat)) (T : Nat × Nat → Tile) (conn : Nat × Nat → Nat × Nat → Dir → Prop)
    (p : Nat × Nat) (d : Dir) : Prop := (T p).Takes d ∧ ∀ r, nb p d.opp = some r → conn r p d

/-- The cell gives something in the direction `d`. -/
def ExitUsed (nb : Nat × Nat → Dir → Option (Nat × Nat)) (T : Nat × Nat → Tile) (conn : Nat × Nat → Nat × Nat → Dir → Prop)
    (p : Nat × Nat) (d : Dir) : Prop := (T p).Emits d ∧ ∀ q, nb p d = some q → conn p q d

end FSat
