import Verif.Model.Dict
import Mathlib.Data.List.Nodup
/-!
# Lemmas about dictionaries
-/

namespace FSat.PyDict

variable {κ β : Type} [DecidableEq κ]

theorem get_set (d : PyDict κ β) (k k' : κ) (v : β) : (d.set k v).get k' = if k = k' then some v else d.get k' := by
  induction d with
  | nil => simp [PyDict.set, PyDict.get]
  | cons e d ih =>
    obtain ⟨x, w⟩ := e
    by_cases hx : x = k
    · subst hx
      simp only [PyDict.set, if_true, PyDict.get]
      split <;> rfl
    · simp only [PyDict.set, hx, if_false, PyDict.get, ih]
      by_cases hxk : x = k'
      · subst hxk
        simp [Ne.symm hx]
      · simp [hxk]

theorem keys_set (d : PyDict κ β) (k : κ) (v : β) :
    (d.set k v).map Prod.fst = if k ∈ d.map Prod.fst then d.map Prod.fst else d.map Prod.fst ++ [k] := by
  induction d with
  | nil => simp [PyDict.set]
  | cons e d ih =>
    obtain ⟨x, w⟩ := e
    by_cases hx : x = k
    · subst hx
      simp [PyDict.set]
    · simp only [PyDict.set, hx, if_false, List.map_cons, ih, List.mem_cons, Ne.symm hx, false_or]
      split <;> simp

theorem Valid.set {d : PyDict κ β} (h : d.Valid) (k : κ) (v : β) : (d.set k v).Valid := by
  unfold Valid at *
  rw [keys_set]
  split
  · exact h
  · rename_i hk
    rw [List.nodup_append]
    refine ⟨h, by simp, ?_⟩
    intro a ha b hb
    simp only [List.mem_singleton] at hb
    subst hb
    exact fun e => hk (e ▸ ha)

theorem mem_of_get {d : PyDict κ β} {k : κ} {v : β} (h : d.get k = some v) : (k, v) ∈ d := by
  induction d with
  | nil => simp [PyDict.get] at h
  | cons e d ih =>
    obtain ⟨x, w⟩ := e
    simp only [PyDict.get] at h
    split at h
    · rename_i hx
      simp only [Option.some.injEq] at h
      subst hx h
      simp
    · exact List.mem_cons_of_mem _ (ih h)

theorem get_of_mem {d : PyDict κ β} (hd : d.Valid) {k : κ} {v : β} (h : (k, v) ∈ d) : d.get k = some v := by
  induction d with
  | nil => simp at h
  | cons e d ih =>
    obtain ⟨x, w⟩ := e
    unfold Valid at hd
    simp only [List.map_cons, List.nodup_cons] at hd
    simp only [List.mem_cons, Prod.mk.injEq] at h
    simp only [PyDict.get]
    rcases h with ⟨rfl, rfl⟩ | h
    · simp
    · have hx : x ≠ k := by
        rintro rfl
        exact hd.1 (List.mem_map_of_mem (f := Prod.fst) h)
      simp only [hx, if_false]
      exact ih hd.2 h

theorem mem_iff {d : PyDict κ β} (hd : d.Valid) {k : κ} {v : β} : (k, v) ∈ d ↔ d.get k = some v :=
  ⟨get_of_mem hd, mem_of_get⟩

theorem get_isSome {d : PyDict κ β} {k : κ} : (d.get k).isSome = true ↔ k ∈ d.map Prod.fst := by
  induction d with
  | nil => simp [PyDict.get]
  | cons e d ih =>
    obtain ⟨x, w⟩ := e
    simp only [PyDict.get]
    split
    · rename_i hx
      simp [hx]
    · rename_i hx
      simp [ih, Ne.symm hx]

theorem get_eq_none {d : PyDict κ β} {k : κ} : d.get k = none ↔ k ∉ d.map Prod.fst := by
  rw [← get_isSome]
  cases d.get k <;> simp

theorem valid_nil : Valid ([] : PyDict κ β) := by simp [Valid]

theorem get_erase (d : PyDict κ β) (k k' : κ) : (d.erase k).get k' = if k = k' then none else d.get k' := by
  induction d with
  | nil => simp [PyDict.erase, PyDict.get]
  | cons e d ih =>
    obtain ⟨x, w⟩ := e
    unfold PyDict.erase at *
    by_cases hx : x = k
    · subst hx
      rw [List.filter_cons_of_neg (by simp), ih]
      simp only [PyDict.get]
      split <;> rfl
    · rw [List.filter_cons_of_pos (by simpa using hx)]
      simp only [PyDict.get, ih]
      by_cases hxk : x = k'
      · subst hxk
        simp [Ne.symm hx]
      · simp [hxk]

theorem Valid.erase {d : PyDict κ β} (h : d.Valid) (k : κ) : (d.erase k).Valid := by
  unfold Valid PyDict.erase at *
  exact h.sublist (List.Sublist.map _ List.filter_sublist)

theorem get_append (d e : PyDict κ β) (k : κ) : PyDict.get (d ++ e) k = (d.get k).or (e.get k) := by
  induction d with
  | nil => simp [PyDict.get]
  | cons x d ih =>
    obtain ⟨x, w⟩ := x
    simp only [List.cons_append, PyDict.get, ih]
    split <;> simp

/-- Setting distinct new keys appends. -/
theorem set_new (d : PyDict κ β) (k : κ) (v : β) (h : k ∉ d.map Prod.fst) : d.set k v = d ++ [(k, v)] := by
  induction d with
  | nil => rfl
  | cons e d ih =>
    obtain ⟨x, w⟩ := e
    simp only [List.map_cons, List.mem_cons, not_or] at h
    simp [PyDict.set, Ne.symm h.1, ih h.2]

theorem foldl_set_new (ps : List (κ × β)) (d : PyDict κ β) (h : (d.map Prod.fst ++ ps.map Prod.fst).Nodup) :
    ps.foldl (fun d p => PyDict.set d p.1 p.2) d = d ++ ps := by
  induction ps generalizing d with
  | nil => simp
  | cons p ps ih =>
    have hp : p.1 ∉ d.map Prod.fst := by
      intro hm
      rw [List.nodup_append] at h
      exact h.2.2 _ hm _ (by simp) rfl
    rw [List.foldl_cons, set_new _ _ _ hp, ih]
    · simp
    · simpa [List.append_assoc] using h

theorem ofPairs_valid (ps : PyDict κ β) (h : ps.Valid) : ofPairs ps = ps := by
  unfold ofPairs
  rw [foldl_set_new _ _ (by simpa [Valid] using h)]
  simp

end FSat.PyDict
