import Verif.Spec.RenderText
import Verif.Spec.Json
import Mathlib.Tactic.Linarith
import Mathlib.Tactic.Positivity
import Mathlib.Data.List.Basic
/-!
# The pieces of a name and the boxes of the lines
-/

namespace FSat

theorem objGet_mem {fields : List (List Char × Json)} {k : List Char} :
    (k, objGet fields k) ∈ fields ∨ ((∀ v, (k, v) ∉ fields) ∧ objGet fields k = .null) := by
  unfold objGet
  cases h : fields.find? fun e => e.1 == k with
  | some e =>
    left
    have := List.find?_some h
    have hk : e.1 = k := by simpa using this
    rw [← hk]
    exact List.mem_of_find?_eq_some h
  | none =>
    right
    refine ⟨fun v hv => ?_, rfl⟩
    have := List.find?_eq_none.1 h _ hv
    simp at this

theorem objGet_eq {fields : List (List Char × Json)} (hn : (fields.map Prod.fst).Nodup) {k : List Char} {v : Json} (h : (k, v) ∈ fields) :
    objGet fields k = v := by
  rcases objGet_mem (fields := fields) (k := k) with h' | ⟨h', _⟩
  · exact congrArg Prod.snd (List.inj_on_of_nodup_map hn h' h rfl)
  · exact absurd h (h' v)

theorem okPairs_mem {l : List (List Char × Json)} (h : Json.OkPairs l) {e : List Char × Json} (he : e ∈ l) : e.2.Ok := by
  induction l with
  | nil => cases he
  | cons a l ih =>
    simp only [Json.OkPairs] at h
    rcases List.mem_cons.1 he with rfl | he
    · obtain ⟨k, v⟩ := e; exact h.1
    · exact ih h.2 he

theorem le_foldl_max (l : List Nat) (a : Nat) : a ≤ l.foldl max a ∧ ∀ x ∈ l, x ≤ l.foldl max a := by
  induction l generalizing a with
  | nil => exact ⟨le_refl _, fun x hx => by cases hx⟩
  | cons b l ih =>
    obtain ⟨h1, h2⟩ := ih (max a b)
    refine ⟨le_trans (le_max_left _ _) h1, fun x hx => ?_⟩
    rcases List.mem_cons.1 hx with rfl | hx
    · exact le_trans (le_max_right _ _) h1
    · exact h2 x hx

theorem lineBoxes_in {scale : Rat} (h0 : 0 ≤ scale) {x : Rat} {sizes : List (Nat × Nat)} {y : Rat} {b : Box} (hb : b ∈ lineBoxes scale x y sizes) :
    ∃ s ∈ sizes, b.width = scale * s.1 ∧ b.height = scale * s.2 ∧ b.x = x ∧ y ≤ b.y ∧
      b.y + b.height ≤ y + scale * ((sizes.map Prod.snd).sum : Nat) := by
  induction sizes generalizing y with
  | nil => cases hb
  | cons s rest ih =>
    have hs : 0 ≤ scale * (s.2 : Rat) := mul_nonneg h0 (Nat.cast_nonneg _)
    have hr : 0 ≤ scale * ((rest.map Prod.snd).sum : Nat) := mul_nonneg h0 (Nat.cast_nonneg _)
    have e : scale * (((s :: rest).map Prod.snd).sum : Nat) = scale * s.2 + scale * ((rest.map Prod.snd).sum : Nat) := by
      rw [List.map_cons, List.sum_cons, Nat.cast_add, mul_add]
    rw [e]
    rcases List.mem_cons.1 hb with rfl | hb
    · exact ⟨s, .head _, rfl, rfl, rfl, le_refl _, by simp only; linarith⟩
    · obtain ⟨s', h1, h2, h3, h4, h5, h6⟩ := ih hb
      exact ⟨s', .tail _ h1, h2, h3, h4, by linarith, by linarith⟩

end FSat
