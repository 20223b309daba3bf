import Verif.Model.RenderText
/-!
# What the text over the tiles should be
-/

namespace FSat

/-- The value to which a name leads: its pieces are the names of members, one inside the other; a last piece that names no member leads to
`None`. -/
inductive Reached : Json → List (List Char) → Json → Prop
  | here (v : Json) : Reached v [] v
  | step {fields : List (List Char × Json)} {k : List Char} {v r : Json} {rest : List (List Char)} :
      (k, v) ∈ fields → Reached v rest r → Reached (.obj fields) (k :: rest) r
  | missing {fields : List (List Char × Json)} {k : List Char} : (∀ v, (k, v) ∉ fields) → Reached (.obj fields) [k] .null

/-- A box inside a cell. -/
def Box.InCell (b : Box) (c : Nat × Nat) : Prop :=
  0 ≤ b.width ∧ 0 ≤ b.height ∧ (c.1 : Rat) ≤ b.x ∧ b.x + b.width ≤ c.1 + 1 ∧ (c.2 : Rat) ≤ b.y ∧ b.y + b.height ≤ c.2 + 1

end FSat
