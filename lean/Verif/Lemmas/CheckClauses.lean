import Verif.Model.NetFree
import Verif.Lemmas.LayoutFlow
/-!
# Checking many clauses
-/

namespace FSat

/-- A clause list is satisfied. -/
def satB (v : Asg) (cs : Cnf) : Bool := cs.all fun c => c.any fun l => ev v l

/-- It could be generated and is satisfied. -/
def okB (v : Asg) : Except PyErr Cnf → Bool
  | .ok cs => satB v cs
  | .error _ => false

theorem satB_iff {v : Asg} {cs : Cnf} : satB v cs = true ↔ Sat v cs := by
  simp [satB, Sat, SatC]

theorem okB_iff {v : Asg} {e : Except PyErr Cnf} : okB v e = true ↔ ∃ cs, e = .ok cs ∧ Sat v cs := by
  cases e <;> simp [okB, satB_iff]

theorem okB_concat {α : Type} {v : Asg} {f : α → Except PyErr Cnf} {l : List α} (h : (l.all fun x => okB v (f x)) = true) :
    okB v (concatE f l) = true := by
  induction l with
  | nil => rfl
  | cons a as ih =>
    rw [List.all_cons, Bool.and_eq_true] at h
    obtain ⟨c, hc, hs⟩ := okB_iff.1 h.1
    obtain ⟨cs, hcs, hss⟩ := okB_iff.1 (ih h.2)
    exact okB_iff.2 ⟨c ++ cs, by simp only [concatE, hc, hcs], (Sat_append _ _ _).2 ⟨hs, hss⟩⟩

theorem okB_join {v : Asg} {l : List (Except PyErr Cnf)} (h : ∀ e ∈ l, okB v e = true) : okB v (joinE l) = true :=
  okB_concat (List.all_eq_true.2 h)

end FSat
