import Verif.Model.Tile
/-!
# Model of the main loop of `factorio_sat/render.py`

The loop is modelled for any way of drawing: `draw g i` is frame `i` of grid `g` (render.py:607-619 with the projection, the lines of the
grid, `render_solution` and `render_attributes`), `len g` the number of frames (`get_animation_length`), and `encode g` the blueprint
string of line 601.  Standard input is a list of lines, each already parsed by `json.loads`, or failed.  The window, the clock and ffmpeg are
not modelled: a saved file is its frames.
-/

namespace FSat

/-- The events of pygame that the loop looks at (render.py:586-596). -/
inductive ViewEvent where
  | quit
  | keyI
  | keyK
  | keyS
  | keyE
  | other
deriving DecidableEq, Repr

/-- What the loop is given. -/
structure ViewCfg (α β γ : Type) where
  len : α → Nat
  draw : α → Nat → Except PyErr β
  encode : α → Except PyErr γ
  exportAll : Bool

/-- The variables of `main` (render.py:548, 575-584), the rest of standard input, the files written by `export_video` with the number in
their name, what was printed by `K_e`, and the picture on the screen with the number in the caption (line 602). -/
structure Viewer (α β γ : Type) where
  t : Nat
  index : Nat
  solutions : List α
  input : List (Except PyErr α)
  closed : Bool
  frames : Nat → Option β
  waiting : Bool
  running : Bool
  saved : List (Nat × List β)
  printed : List γ
  shown : Option (Nat × β)

variable {α β γ : Type}

/-- render.py:523-528: reads lines until there is a solution number `index` or the input ends. -/
def readUntil (index : Int) : List α → List (Except PyErr α) → Except PyErr (List α × List (Except PyErr α) × Bool)
  | sols, [] => .ok (sols, [], decide (index ≥ sols.length))
  | sols, line :: rest =>
    if index ≥ sols.length then
      match line with
      | .error e => .error e
      | .ok g => readUntil index (sols ++ [g]) rest
    else .ok (sols, line :: rest, false)

/-- render.py:518-536 `increment_solution`; the modulus of Python is not negative for a positive divisor. -/
def incrementSolution (v : Viewer α β γ) (amount : Int) : Except PyErr (Viewer α β γ) :=
  let index : Int := v.index + amount
  match (if v.closed then .ok (v.solutions, v.input, true) else readUntil index v.solutions v.input) with
  | .error e => .error e
  | .ok (sols, rest, closed) =>
    .ok { v with index := (index % sols.length).toNat, solutions := sols, input := rest, closed := closed, frames := fun _ => none }

/-- render.py:587-601: one event. -/
def viewEvent (cfg : ViewCfg α β γ) (v : Viewer α β γ) (e : ViewEvent) : Except PyErr (Viewer α β γ) :=
  if e = .quit then .ok { v with running := false }
  else if cfg.exportAll then .ok v
  else
    match e with
    | .keyI => incrementSolution v 1
    | .keyK => incrementSolution v (-1)
    | .keyS => .ok { v with waiting := true }
    | .keyE =>
      match v.solutions[v.index]? with
      | none => .error .indexError
      | some g =>
        match cfg.encode g with
        | .error e => .error e
        | .ok s => .ok { v with printed := v.printed ++ [s] }
    | _ => .ok v

/-- render.py:586: the events of one round. -/
def viewEvents (cfg : ViewCfg α β γ) : Viewer α β γ → List ViewEvent → Except PyErr (Viewer α β γ)
  | v, [] => .ok v
  | v, e :: es =>
    match viewEvent cfg v e with
    | .error e => .error e
    | .ok v => viewEvents cfg v es

/-- render.py:634-670: saves the animation if it is asked for and complete. -/
def maybeSave (cfg : ViewCfg α β γ) (v : Viewer α β γ) (n : Nat) : Except PyErr (Viewer α β γ) :=
  if (v.waiting || cfg.exportAll) && (List.range n).all fun i => (v.frames i).isSome then
    let v' := { v with waiting := false, saved := v.saved ++ [(v.index, (List.range n).filterMap v.frames)] }
    if cfg.exportAll then
      match incrementSolution v' 1 with
      | .error e => .error e
      | .ok v' => .ok (if v'.index = 0 then { v' with running := false } else v')
    else .ok v'
  else .ok v

/-- render.py:606-623: the frame that was kept, or a new one. -/
def frameOf (cfg : ViewCfg α β γ) (v : Viewer α β γ) (g : α) (animation : Nat) : Except PyErr β :=
  match v.frames animation with
  | some b => .ok b
  | none => cfg.draw g animation

/-- render.py:586-676: one round of the loop, with the events that arrived. -/
def viewStep (cfg : ViewCfg α β γ) (v : Viewer α β γ) (events : List ViewEvent) : Except PyErr (Viewer α β γ) :=
  match viewEvents cfg v events with
  | .error e => .error e
  | .ok v =>
    match v.solutions[v.index]? with
    | none => .error .indexError
    | some g =>
      let animation := v.t / 2 % cfg.len g
      match frameOf cfg v g animation with
      | .error e => .error e
      | .ok b =>
        match maybeSave cfg { v with frames := fun i => if i = animation then some b else v.frames i, shown := some (v.index, b) }
          (cfg.len g) with
        | .error e => .error e
        | .ok v => .ok { v with t := v.t + 1 }

/-- render.py:585: the loop, with the events of its rounds. -/
def viewLoop (cfg : ViewCfg α β γ) : Viewer α β γ → List (List ViewEvent) → Except PyErr (Viewer α β γ)
  | v, [] => .ok v
  | v, es :: rest =>
    if v.running then
      match viewStep cfg v es with
      | .error e => .error e
      | .ok v => viewLoop cfg v rest
    else .ok v

/-- render.py:539-584: before the loop; `none` if there is no solution. -/
def viewStart (input : List (Except PyErr α)) : Except PyErr (Option (Viewer α β γ)) :=
  match input with
  | [] => .ok none
  | .error e :: _ => .error e
  | .ok g :: rest =>
    .ok (some ⟨0, 0, [g], rest, false, fun _ => none, false, true, [], [], none⟩)

end FSat
