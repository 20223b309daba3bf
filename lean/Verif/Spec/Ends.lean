/-!
# Blocks of rows
-/

namespace FSat

/-- The `m` positions from `a` on, within a line of `h` positions, are as `inside` says and all others as `outside` says. -/
def BlockAt (h a m : Nat) (inside outside : Nat → Prop) : Prop :=
  a + m ≤ h ∧ ∀ y < h, if a ≤ y ∧ y < a + m then inside y else outside y

/-- The rows of the smaller block are among those of the other one. -/
def RowsNested (a m b n : Nat) : Prop := if n ≤ m then a ≤ b ∧ b + n ≤ a + m else b ≤ a ∧ a + m ≤ b + n

end FSat
