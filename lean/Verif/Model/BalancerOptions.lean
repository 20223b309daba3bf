import Verif.Spec.Layout
/-!
# The command line options of `belt_balancer`
-/

namespace FSat

/-- The options of the program, belt_balancer.py:299-318 and 321. -/
structure BalancerOptions where
  turn90 : Bool := false
  turn180 : Bool := false
  custom : Bool := false
  edgeSplitters : Bool := false
  edgeBelts : Bool := false
  glueSplitters : Bool := false
  expandUnderground : Bool := false
  preventMergeable : Bool := false
  preventBadPatterns : Bool := false
  breakSymmetry : Bool := false
  useEnds : Bool := false
  fast : Bool := false
  aligned : Bool := false
  partialLayout : Option (List (List Tile)) := none

end FSat
