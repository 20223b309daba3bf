import Verif.Model.Dict
import Verif.Spec.Search
/-!
# JSON texts

`json.dumps`, `json.dump` and `json.loads` of the Python standard library, for the values the programs store: no float other than
the halves in blueprints, no `NaN`, and strings of Unicode scalar values.  The library is not part of /repo; this is a model of what
calculate_optimal.py:280,293, blueprint.py:43,48 and the solution lines between the commands rely on.
-/

namespace FSat

/-- A JSON value, as Python reads it. `half t` is the float `t / 2`. -/
inductive Json where
  | null
  | bool (b : Bool)
  | int (n : Int)
  | half (t : Int)
  | str (s : List Char)
  | arr (l : List Json)
  | obj (o : List (List Char × Json))

namespace Json

/-! ### Writing -/

/-- A lower case hexadecimal digit. -/
def hexDigit (n : Nat) : Char := if n < 10 then Char.ofNat (48 + n) else Char.ofNat (87 + n)

/-- `'\\u{0:04x}'`. -/
def hex4 (n : Nat) : List Char := '\\' :: 'u' :: [n / 4096 % 16, n / 256 % 16, n / 16 % 16, n % 16].map hexDigit

/-- One character of a string with `ensure_ascii`. -/
def escape (c : Char) : List Char :=
  if c = '"' then ['\\', '"']
  else if c = '\\' then ['\\', '\\']
  else if c = '\n' then ['\\', 'n']
  else if c = '\r' then ['\\', 'r']
  else if c = '\t' then ['\\', 't']
  else if c = Char.ofNat 8 then ['\\', 'b']
  else if c = Char.ofNat 12 then ['\\', 'f']
  else if 32 ≤ c.toNat ∧ c.toNat ≤ 126 then [c]
  else if c.toNat < 65536 then hex4 c.toNat
  else hex4 (55296 + (c.toNat - 65536) / 1024) ++ hex4 (56320 + (c.toNat - 65536) % 1024)

/-- A quoted string. -/
def quote (s : List Char) : List Char := '"' :: s.flatMap escape ++ ['"']

/-- `repr` of the float `t / 2` (of moderate size). -/
def showHalf (t : Int) : List Char :=
  (if t < 0 then ['-'] else []) ++ showNat (t.natAbs / 2) ++ ['.', if t.natAbs % 2 = 0 then '0' else '5']

mutual
/-- `json.dumps(value)`. -/
def dumps : Json → List Char
  | .null => ['n', 'u', 'l', 'l']
  | .bool true => ['t', 'r', 'u', 'e']
  | .bool false => ['f', 'a', 'l', 's', 'e']
  | .int n => showInt n
  | .half t => showHalf t
  | .str s => quote s
  | .arr [] => ['[', ']']
  | .arr (x :: xs) => '[' :: (dumps x ++ dumpsElems xs)
  | .obj [] => ['{', '}']
  | .obj (x :: xs) => '{' :: (dumpsPair x ++ dumpsPairs xs)
/-- The remaining elements of an array. -/
def dumpsElems : List Json → List Char
  | [] => [']']
  | x :: xs => ',' :: ' ' :: (dumps x ++ dumpsElems xs)
/-- The remaining members of an object. -/
def dumpsPairs : List (List Char × Json) → List Char
  | [] => ['}']
  | x :: xs => ',' :: ' ' :: (dumpsPair x ++ dumpsPairs xs)
/-- A member of an object. -/
def dumpsPair : List Char × Json → List Char
  | (k, v) => quote k ++ ':' :: ' ' :: dumps v
end

/-! ### Reading -/

/-- JSON white space. -/
def isWs (c : Char) : Bool := c = ' ' || c = '\n' || c = '\r' || c = '\t'

def skipWs (cs : List Char) : List Char := cs.dropWhile isWs

/-- A hexadecimal digit. -/
def hexVal (c : Char) : Option Nat :=
  if 48 ≤ c.toNat ∧ c.toNat ≤ 57 then some (c.toNat - 48)
  else if 97 ≤ c.toNat ∧ c.toNat ≤ 102 then some (c.toNat - 87)
  else if 65 ≤ c.toNat ∧ c.toNat ≤ 70 then some (c.toNat - 55)
  else none

/-- The four digits after `\\u`. -/
def readHex4 : List Char → Option (Nat × List Char)
  | a :: b :: c :: d :: rest =>
    match hexVal a, hexVal b, hexVal c, hexVal d with
    | some a, some b, some c, some d => some (4096 * a + 256 * b + 16 * c + d, rest)
    | _, _, _, _ => none
  | _ => none

/-- The second half of a surrogate pair. A lone surrogate, which Python accepts, is an error here. -/
def readLow (hi : Nat) : List Char → Option (Char × List Char)
  | '\\' :: 'u' :: rest =>
    match readHex4 rest with
    | some (lo, rest) =>
      if 56320 ≤ lo ∧ lo ≤ 57343 then some (Char.ofNat (65536 + 1024 * (hi - 55296) + (lo - 56320)), rest) else none
    | none => none
  | _ => none

/-- What follows a backslash. -/
def readEscape : List Char → Option (Char × List Char)
  | '"' :: rest => some ('"', rest)
  | '\\' :: rest => some ('\\', rest)
  | '/' :: rest => some ('/', rest)
  | 'n' :: rest => some ('\n', rest)
  | 'r' :: rest => some ('\r', rest)
  | 't' :: rest => some ('\t', rest)
  | 'b' :: rest => some (Char.ofNat 8, rest)
  | 'f' :: rest => some (Char.ofNat 12, rest)
  | 'u' :: rest =>
    match readHex4 rest with
    | some (n, rest) =>
      if 55296 ≤ n ∧ n ≤ 56319 then readLow n rest
      else if 56320 ≤ n ∧ n ≤ 57343 then none
      else some (Char.ofNat n, rest)
    | none => none
  | _ => none

/-- The rest of a string after the opening quote. -/
def readStr : Nat → List Char → Option (List Char × List Char)
  | 0, _ => none
  | _ + 1, [] => none
  | fuel + 1, c :: cs =>
    if c = '"' then some ([], cs)
    else if c = '\\' then
      match readEscape cs with
      | some (d, rest) => (readStr fuel rest).map fun p => (d :: p.1, p.2)
      | none => none
    else if c.toNat < 32 then none
    else (readStr fuel cs).map fun p => (c :: p.1, p.2)

/-- A decimal digit. -/
def isDig (c : Char) : Bool := 48 ≤ c.toNat && c.toNat ≤ 57

/-- `0|[1-9]\\d*`. -/
def readDigits : List Char → Option (Nat × List Char)
  | [] => none
  | c :: cs =>
    if c = '0' then some (0, cs)
    else if isDig c then
      (natOf 0 (c :: cs.takeWhile isDig)).map fun n => (n, cs.dropWhile isDig)
    else none

/-- What follows the integer part of a number. Only the fractions `.0` and `.5` and no exponents are supported. -/
def readFraction (neg : Bool) (n : Nat) : List Char → Option (Json × List Char)
  | '.' :: d :: rest =>
    if isDig d then
      let ds := d :: rest.takeWhile isDig
      let rest := rest.dropWhile isDig
      if rest.head? = some 'e' ∨ rest.head? = some 'E' then none
      else if ds = ['0'] then some (.half (if neg then -(2 * n : Int) else 2 * n), rest)
      else if ds = ['5'] then some (.half (if neg then -(2 * n + 1 : Int) else 2 * n + 1), rest)
      else none
    else some (.int (if neg then -(n : Int) else n), '.' :: d :: rest)
  | cs => if cs.head? = some 'e' ∨ cs.head? = some 'E' then none else some (.int (if neg then -(n : Int) else n), cs)

/-- A number. -/
def readNumber : List Char → Option (Json × List Char)
  | '-' :: cs =>
    match readDigits cs with
    | some (n, rest) => readFraction true n rest
    | none => none
  | cs =>
    match readDigits cs with
    | some (n, rest) => readFraction false n rest
    | none => none

mutual
/-- A value. -/
def readValue : Nat → List Char → Option (Json × List Char)
  | 0, _ => none
  | fuel + 1, cs =>
    match cs with
    | '"' :: cs => (readStr (cs.length + 1) cs).map fun p => (.str p.1, p.2)
    | 'n' :: 'u' :: 'l' :: 'l' :: cs => some (.null, cs)
    | 't' :: 'r' :: 'u' :: 'e' :: cs => some (.bool true, cs)
    | 'f' :: 'a' :: 'l' :: 's' :: 'e' :: cs => some (.bool false, cs)
    | '[' :: cs =>
      match skipWs cs with
      | ']' :: rest => some (.arr [], rest)
      | cs =>
        match readValue fuel cs with
        | some (v, rest) => (readElems fuel rest).map fun p => (.arr (v :: p.1), p.2)
        | none => none
    | '{' :: cs =>
      match skipWs cs with
      | '}' :: rest => some (.obj [], rest)
      | cs =>
        match readPair fuel cs with
        | some (v, rest) => (readPairs fuel rest).map fun p => (.obj (PyDict.ofPairs (v :: p.1)), p.2)
        | none => none
    | cs => Json.readNumber cs
/-- The elements of an array after the first. -/
def readElems : Nat → List Char → Option (List Json × List Char)
  | 0, _ => none
  | fuel + 1, cs =>
    match skipWs cs with
    | ']' :: rest => some ([], rest)
    | ',' :: rest =>
      match readValue fuel (skipWs rest) with
      | some (v, rest) => (readElems fuel rest).map fun p => (v :: p.1, p.2)
      | none => none
    | _ => none
/-- The members of an object after the first. -/
def readPairs : Nat → List Char → Option (List (List Char × Json) × List Char)
  | 0, _ => none
  | fuel + 1, cs =>
    match skipWs cs with
    | '}' :: rest => some ([], rest)
    | ',' :: rest =>
      match readPair fuel (skipWs rest) with
      | some (v, rest) => (readPairs fuel rest).map fun p => (v :: p.1, p.2)
      | none => none
    | _ => none
/-- A member of an object. -/
def readPair : Nat → List Char → Option ((List Char × Json) × List Char)
  | 0, _ => none
  | fuel + 1, cs =>
    match cs with
    | '"' :: cs =>
      match readStr (cs.length + 1) cs with
      | some (k, rest) =>
        match skipWs rest with
        | ':' :: rest => (readValue fuel (skipWs rest)).map fun p => ((k, p.1), p.2)
        | _ => none
      | none => none
    | _ => none
end

/-- `json.loads(text)`. The fuel is never used up: every step consumes a character. -/
def loads (text : List Char) : Except PyErr Json :=
  match readValue (text.length + 1) (skipWs text) with
  | some (v, rest) => if skipWs rest = [] then .ok v else .error .jsonDecode
  | none => .error .jsonDecode

end Json

end FSat
