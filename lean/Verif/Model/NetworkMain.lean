import Verif.Model.Network
/-!
# `network create` and `network flip`

network.py:692-754 `main`, modes `create` and `flip`.  Files are their texts; opening them is not modelled.  The mode `parse` is in
`Model/Commands`, and the mode `render` is not modelled.
-/

namespace FSat

/-- network.py:718-725: what is written to the file, or the exception. -/
def networkCreate (ord : Nat → List Colour → List Colour) (size : Int) : Except PyErr (List Char) :=
  if size ≤ 1 then .error .runtimeError
  else
    match createBenes ord size.toNat with
    | .error e => .error e
    | .ok n => .ok (saveNetwork n)

/-- network.py:741-751: what is written to the output file, given the text of the input file. -/
def networkFlip (text : List Char) : Except PyErr (List Char) :=
  match openNetwork text with
  | .error e => .error e
  | .ok n => .ok (saveNetwork (flipNetwork n).reverse)

end FSat
