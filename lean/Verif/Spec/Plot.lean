import Verif.Model.Plot
/-!
# What a picture of a network shows
-/

namespace FSat

/-- An output of the splitter number `i` has the colour. -/
def GivesColour (n : Network) (i : Nat) (c : Int) : Prop := ∃ nd, n[i]? = some nd ∧ (nd.2.1 = some c ∨ nd.2.2 = some c)

/-- An input of the splitter number `i` has the colour. -/
def TakesColour (n : Network) (i : Nat) (c : Int) : Prop := ∃ nd, n[i]? = some nd ∧ (nd.1.1 = some c ∨ nd.1.2 = some c)

/-- One splitter gives the colour and one takes it. -/
def OneToOne (n : Network) (c : Int) : Prop := (∃! i, GivesColour n i c) ∧ ∃! j, TakesColour n j c

/-- There is an arrow from `x` to `y`. -/
def NetPicture.Arrow (pic : NetPicture) (x y : List Char) : Prop := ∃ e ∈ pic.arrows, e.tail = x ∧ e.head = y

/-- The picture shows a belt of colour `c` from splitter `i` to splitter `j`: an arrow with this label, or arrows to and from the dot of
this colour. -/
def NetPicture.ShowsBelt (pic : NetPicture) (i : Nat) (c : Int) (j : Nat) : Prop :=
  (∃ e ∈ pic.arrows, e.tail = splitterName i ∧ e.head = splitterName j ∧ e.label = some (showInt c)) ∨
    (pic.Arrow (splitterName i) (colourName c) ∧ pic.Arrow (colourName c) (splitterName j))

/-- The picture shows a belt from outside to splitter `j`. -/
def NetPicture.ShowsInput (pic : NetPicture) (j : Nat) : Prop := ∃ x, pic.Arrow startName x ∧ pic.Arrow x (splitterName j)

/-- The picture shows a belt from splitter `i` to the outside. -/
def NetPicture.ShowsOutput (pic : NetPicture) (i : Nat) : Prop := ∃ x, pic.Arrow (splitterName i) x ∧ pic.Arrow x endName

end FSat
