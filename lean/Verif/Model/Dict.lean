import Verif.Model.Sat
/-!
# Insertion-ordered dictionaries

Python dictionaries (and `collections.Counter`, `defaultdict`) keep their keys in insertion order.  They are modelled as association
lists without duplicate keys.
-/

namespace FSat

/-- A Python `dict`: keys in insertion order. -/
abbrev PyDict (κ β : Type) := List (κ × β)

namespace PyDict

variable {κ β : Type} [DecidableEq κ]

/-- `d.get(k)`; also `d[k]`, where `none` is the `KeyError`. -/
def get (d : PyDict κ β) (k : κ) : Option β :=
  match d with
  | [] => none
  | (k', v) :: d => if k' = k then some v else PyDict.get d k

/-- `d[k] = v`: an existing key keeps its place, a new one goes to the end. -/
def set (d : PyDict κ β) (k : κ) (v : β) : PyDict κ β :=
  match d with
  | [] => [(k, v)]
  | (k', v') :: d => if k' = k then (k, v) :: d else (k', v') :: PyDict.set d k v

/-- `del d[k]` for a key that is there, `d.pop(k, None)` for any. -/
def erase (d : PyDict κ β) (k : κ) : PyDict κ β := d.filter fun e => e.1 ≠ k

/-- `dict(pairs)`, or a loop of assignments. -/
def ofPairs (ps : List (κ × β)) : PyDict κ β := ps.foldl (fun d p => PyDict.set d p.1 p.2) []

/-- The keys are pairwise different. -/
def Valid (d : PyDict κ β) : Prop := (d.map Prod.fst).Nodup

end PyDict

end FSat
