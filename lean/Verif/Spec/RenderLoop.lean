import Verif.Model.RenderLoop
/-!
# What the main loop of the renderer should keep
-/

namespace FSat

variable {α β γ : Type}

/-- The whole animation of a grid. -/
def Animation (cfg : ViewCfg α β γ) (g : α) (fs : List β) : Prop :=
  (List.range (cfg.len g)).map (cfg.draw g) = fs.map Except.ok

/-- What holds between two rounds, for the lines `all` of standard input: the grids read are the first lines, in order; the number in use is
one of them; the frames kept are frames of the grid in use; a file has the whole animation of the grid with its number. -/
structure ViewInv (cfg : ViewCfg α β γ) (all : List (Except PyErr α)) (v : Viewer α β γ) : Prop where
  index : v.index < v.solutions.length
  lines : v.solutions.map Except.ok ++ v.input = all
  closed : v.closed = true → v.input = []
  frames : ∀ i b, v.frames i = some b → ∃ g, v.solutions[v.index]? = some g ∧ cfg.draw g i = .ok b
  saved : ∀ e ∈ v.saved, ∃ g, v.solutions[e.1]? = some g ∧ Animation cfg g e.2

/-- The events do nothing at all. -/
def Idle (cfg : ViewCfg α β γ) (es : List ViewEvent) : Prop :=
  ViewEvent.quit ∉ es ∧ (cfg.exportAll = false → ∀ e ∈ es, e = .other)

end FSat
