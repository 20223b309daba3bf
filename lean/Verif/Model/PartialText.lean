import Verif.Model.Commands
import Verif.Model.BalancerMain
/-!
# Model of `factorio_sat/blueprint.py`: `convert_to_tiles`, and of `--partial` in `belt_balancer`
-/

namespace FSat

/-- blueprint.py:259-271 `convert_to_tiles`.  Cells of older formats are an error here (`Model/OldFormats`). -/
def convertToTiles (c : Codec) (text : List Char) : Except PyErr (Arr Tile) :=
  match decodeBlueprint c text with
  | .ok data => importBlueprint data
  | .error _ =>
    match Json.loads text with
    | .error _ => .error .runtimeError
    | .ok v =>
      match gridOf v with
      | .error e => .error e
      | .ok g => vectorize cellTile g

/-- An array as the list of its rows. -/
def rowsOf {α : Type} (a : Arr α) : List (List α) := List.ofFn fun y => List.ofFn fun x => a.get y x

/-- belt_balancer.py:328-380 with `--partial`: `args.partial.read()` is `text`.  (The file is read after the other clauses are made; which
exception is raised when both fail is not modelled.) -/
def balancerPartial (c : Codec) (lib : CardLib) (net : PyDict Node Nat) (width height : Nat) (ugLen : Option Nat) (o : BalancerOptions)
    (text : List Char) : Except PyErr (Grid × (Nat × Nat → List Lit) × Cnf × Nat) :=
  match convertToTiles c text with
  | .error e => .error e
  | .ok a => balancerMain lib net width height ugLen { o with partialLayout := some (rowsOf a) }

end FSat
