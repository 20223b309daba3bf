import Verif.Model.Json
/-!
# Which values are Python objects

A Python dictionary has no two members of the same name; `Json.obj` is a list of members.
-/

namespace FSat.Json

mutual
/-- No object has two members of the same name. -/
def Ok : Json → Prop
  | .arr l => OkElems l
  | .obj o => (o.map Prod.fst).Nodup ∧ OkPairs o
  | _ => True
def OkElems : List Json → Prop
  | [] => True
  | x :: xs => Ok x ∧ OkElems xs
def OkPairs : List (List Char × Json) → Prop
  | [] => True
  | x :: xs => OkPair x ∧ OkPairs xs
def OkPair : List Char × Json → Prop
  | (_, v) => Ok v
end

end FSat.Json
