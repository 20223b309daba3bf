import Verif.Model.Sat
/-!
# What bit lists mean

Independent of any clause generator.
-/

namespace FSat

/-- The natural number written by a little-endian list of bits. -/
def binVal : List Bool → Nat
  | [] => 0
  | b :: bs => (if b then 1 else 0) + 2 * binVal bs

/-- Two's complement reading of a little-endian list of bits. -/
def signedVal (bs : List Bool) : Int :=
  if bs.getLast? = some true then (binVal bs : Int) - 2 ^ bs.length else binVal bs

/-- Number of `true` entries. -/
def trues (bs : List Bool) : Nat := bs.count true

/-- Lexicographic order with `false < true`. -/
def LexLe : List Bool → List Bool → Prop
  | a :: as, b :: bs => (a = false ∧ b = true) ∨ (a = b ∧ LexLe as bs)
  | _, _ => True

/-- The number a list of literals denotes under an assignment (least significant literal first). -/
def value (v : Asg) (ls : List Lit) : Nat := binVal (ls.map (ev v))

/-- The signed number a list of literals denotes under an assignment. -/
def svalue (v : Asg) (ls : List Lit) : Int := signedVal (ls.map (ev v))

/-- How many of the literals are true. -/
def countTrue (v : Asg) (ls : List Lit) : Nat := trues (ls.map (ev v))

/-- Value of an optional carry literal. -/
def carryVal (v : Asg) : Option Lit → Nat
  | none => 0
  | some l => if ev v l then 1 else 0

end FSat
