import Verif.Model.Util
/-!
# Model of `factorio_sat/cardinality.py`
-/

namespace FSat

/-- The double loop cardinality.py:13-15; `pre` is `literals[:i]`. -/
def quadraticLoop : List Lit → List Lit → Cnf
  | _, [] => []
  | pre, l :: ls => pre.map (fun b => [-l, -b]) ++ quadraticLoop (pre ++ [l]) ls

/-- cardinality.py:11-16. -/
def quadraticAmo (ls : List Lit) : Cnf := quadraticLoop [] ls

/-- The loop cardinality.py:22-23. -/
def logarithmicLoop (locs : List Lit) : Nat → List Lit → Except PyErr Cnf
  | _, [] => .ok []
  | i, l :: ls =>
    match setNumber i locs with
    | .error e => .error e
    | .ok cs =>
      match logarithmicLoop locs (i + 1) ls with
      | .error e => .error e
      | .ok rest => .ok (implies [l] cs ++ rest)

/-- cardinality.py:19-24. `bin_length(0)` raises `ValueError`. -/
def logarithmicAmo {σ : Type} (al : Alloc σ) (ls : List Lit) (s : σ) : Except PyErr (Cnf × σ) :=
  if ls.length = 0 then .error .valueError
  else
    match allocMany al (binLength ls.length) s with
    | .error e => .error e
    | .ok (locs, s1) =>
      match logarithmicLoop locs 0 ls with
      | .error e => .error e
      | .ok cs => .ok (ls :: cs, s1)

/-- cardinality.py:27-35. -/
def heuleAmo {σ : Type} (al : Alloc σ) (ls : List Lit) (cutoff : Nat) (s : σ) : Except PyErr (Cnf × σ) :=
  if _h : cutoff < 3 then .error .assertion
  else if _h2 : ls.length ≤ cutoff then .ok (quadraticAmo ls, s)
  else
    match al s with
    | .error e => .error e
    | .ok (aux, s1) =>
      match heuleAmo al (ls.take (ls.length / 2) ++ [aux]) cutoff s1 with
      | .error e => .error e
      | .ok (c1, s2) =>
        match heuleAmo al (ls.drop (ls.length / 2) ++ [-aux]) cutoff s2 with
        | .error e => .error e
        | .ok (c2, s3) => .ok (c1 ++ c2, s3)
termination_by ls.length
decreasing_by
  all_goals simp only [List.length_append, List.length_take, List.length_drop, List.length_cons, List.length_nil]; omega

/-- cardinality.py:38-39. -/
def quadraticOne (ls : List Lit) : Cnf := quadraticAmo ls ++ [ls]

/-- cardinality.py:42-43. -/
def logarithmicOne {σ : Type} (al : Alloc σ) (ls : List Lit) (s : σ) : Except PyErr (Cnf × σ) :=
  match logarithmicAmo al ls s with
  | .error e => .error e
  | .ok (cs, s1) => .ok (cs ++ [ls], s1)

/-- cardinality.py:46-47. -/
def heuleOne {σ : Type} (al : Alloc σ) (ls : List Lit) (cutoff : Nat) (s : σ) : Except PyErr (Cnf × σ) :=
  match heuleAmo al ls cutoff s with
  | .error e => .error e
  | .ok (cs, s1) => .ok (cs ++ [ls], s1)

end FSat
