import Verif.Model.Template
import Verif.Spec.Bits
import Mathlib.Data.List.Forall2
/-!
# What an instance of a template describes under an assignment
-/

namespace FSat

/-- `x` is the index of the first true literal, `none` if there is none. -/
def FirstTrue (v : Asg) (ls : List Lit) (x : Option Nat) : Prop :=
  match x with
  | none => ∀ l ∈ ls, ev v l = false
  | some k => (∃ l, ls[k]? = some l ∧ ev v l = true) ∧ ∀ j l, j < k → ls[j]? = some l → ev v l = false

/-- `xs` lists the indices of the true literals in increasing order. -/
def TrueIndices (v : Asg) (ls : List Lit) (xs : List Nat) : Prop :=
  xs.Pairwise (· < ·) ∧ ∀ k, k ∈ xs ↔ ∃ l, ls[k]? = some l ∧ ev v l = true

/-- Entrywise relation between nested lists of the same shape. -/
def NestedRel {α β : Type} (R : α → β → Prop) : (shape : List Nat) → Nested α shape → Nested β shape → Prop
  | [], a, b => R a b
  | _ :: shape, as, bs => List.Forall₂ (NestedRel R shape) as bs

mutual
/-- The value a template instance describes under an assignment. -/
def Tmpl.Means (v : Asg) : (t : Tmpl) → t.Inst → t.Val → Prop
  | .bool, i, x => x = ev v i
  | .array c shape, i, x => NestedRel (c.Means v) shape i x
  | .manyHot _, i, x => TrueIndices v i x
  | .oneHot _, i, x => FirstTrue v i x
  | .number _ signed, i, x => (x : Int) = if signed then svalue v i else (value v i : Int)
  | .composite fs, i, x => fs.Means v i x
/-- Members mean what they mean on their own. -/
def TFields.Means (v : Asg) : (fs : TFields) → fs.Inst → fs.Val → Prop
  | .nil, _, _ => True
  | .cons _ t rest, i, x => t.Means v i.1 x.1 ∧ rest.Means v i.2 x.2
end

mutual
/-- Signed numbers have at least two bits (Python asserts this when reading them). -/
def Tmpl.Proper : Tmpl → Prop
  | .number n true => 2 ≤ n
  | .array c _ => c.Proper
  | .composite fs => fs.Proper
  | _ => True
/-- All members are proper. -/
def TFields.Proper : TFields → Prop
  | .nil => True
  | .cons _ t rest => t.Proper ∧ rest.Proper
end

end FSat
