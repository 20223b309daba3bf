import Verif.Lemmas.ParseFlow
import Verif.Lemmas.InterchangeRoutes
import Verif.Spec.ParseFlow
/-!
# Belts from outside to a splitter, or through the layout
-/

namespace FSat

open Relation

variable {a : Arr Tile} {p q : Int × Int}

/-- A step along belts only. -/
def PlainStep (a : Arr Tile) (p q : Int × Int) : Prop := ¬ (a.board p).IsSplitter ∧ ¬ (a.board q).IsSplitter ∧ Follows a.nb a.board p q

theorem follows_ne_right (h : Follows a.nb a.board p q) : a.board q ≠ .empty := by
  rcases h with ⟨d, _, _, h⟩ | ⟨d, k, h⟩
  · exact Takes.ne_empty h
  · rw [h.2.2.2.1]; simp

theorem follows_ne_left (h : Follows a.nb a.board p q) : a.board p ≠ .empty := by
  rcases h with ⟨d, _, h, _⟩ | ⟨d, k, h⟩
  · exact Emits.ne_empty h
  · rw [h.2.2.1]; simp

theorem PlainStep.carries {F : Int × Int → ℚ} (hF : Steady a.In a.nb a.board (Connected a.nb a.board) F) (h : PlainStep a p q) : F q = F p := by
  obtain ⟨h1, _, h⟩ := h
  have hi : a.In p := h.inside_left
  rcases h with ⟨d, h⟩ | ⟨d, k, h⟩
  · exact hF.surface p q d hi h h1
  · exact hF.under p q d k hi h

theorem plainSteps_carry {F : Int × Int → ℚ} (hF : Steady a.In a.nb a.board (Connected a.nb a.board) F) (h : ReflTransGen (PlainStep a) p q) : F q = F p := by
  induction h with
  | refl => rfl
  | tail _ h ih => exact (h.carries hF).trans ih

/-- The steps lead to a cell with a further step, so from the first cell too. -/
theorem reaches_steps {r : Int × Int} (h : ReflTransGen (PlainStep a) p q) (hr : Follows a.nb a.board q r) : Reaches a.nb a.board p r := by
  induction h using ReflTransGen.head_induction_on with
  | refl => exact .step hr
  | head h _ ih => exact reaches_prepend h.2.2 h.2.1 ih

theorem reaches_steps_back {r : Int × Int} (h : ReflTransGen (PlainStep a) p q) (hr : Follows a.nb a.board r p) : Reaches a.nb a.board r q := by
  induction h with
  | refl => exact .step hr
  | tail _ h ih => exact .on ih h.1 h.2.2

theorem not_follows_enters (h : EntersAt a.nb a.board p) (x : Int × Int) : ¬ Follows a.nb a.board x p := by
  obtain ⟨d, h1, h2⟩ := h
  intro hf
  rcases hf with ⟨e, h3, h4, h5⟩ | ⟨e, k, h3⟩
  · rw [Takes.unique h1 h5, nb_back (inside_of_board (Emits.ne_empty h4)) h3] at h2
    cases h2
  · rw [h3.2.2.2.1] at h1
    exact h1

theorem not_leaves_follows (h : LeavesAt a.nb a.board p) (x : Int × Int) : ¬ Follows a.nb a.board p x := by
  obtain ⟨d, h1, h2⟩ := h
  intro hf
  rcases hf with ⟨e, h3, h4, h5⟩ | ⟨e, k, h3⟩
  · rw [Emits.unique h1 h4, h3] at h2
    cases h2
  · rw [h3.2.2.1] at h1
    exact h1

theorem goes_on (hs : SoundLayout a.In a.nb a.board) (hp : a.board p ≠ .empty) (hns : ¬ (a.board p).IsSplitter) :
    LeavesAt a.nb a.board p ∨ ∃ q, Follows a.nb a.board p q := by
  have hi : a.In p := inside_of_board hp
  have emit : ∀ d, (a.board p).Emits d → LeavesAt a.nb a.board p ∨ ∃ q, Follows a.nb a.board p q := by
    intro d hd
    cases hn : a.nb p d with
    | none => exact .inl ⟨d, hd, hn⟩
    | some q => exact .inr ⟨q, .inl ⟨d, hn, hd, hs.joined.out p q d hi hn hd hns⟩⟩
  have hb := hs.basic p hi
  cases ht : a.board p with
  | belt i o => exact emit o (by rw [ht]; exact rfl)
  | underground d b =>
    cases b with
    | true =>
      obtain ⟨q, k, _, h⟩ := hs.undergrounds.entrance p d hi ht
      exact .inr ⟨q, .inr ⟨d, k, h⟩⟩
    | false => exact emit d (by rw [ht]; exact rfl)
  | splitter d b => exact absurd ⟨d, b, ht⟩ hns
  | empty => exact absurd ht hp
  | _ => rw [ht] at hb; exact hb.elim

theorem comes_from (hs : SoundLayout a.In a.nb a.board) (hp : a.board p ≠ .empty) (hns : ¬ (a.board p).IsSplitter) :
    EntersAt a.nb a.board p ∨ ∃ q, Follows a.nb a.board q p := by
  have hi : a.In p := inside_of_board hp
  have take : ∀ d, (a.board p).Takes d → EntersAt a.nb a.board p ∨ ∃ q, Follows a.nb a.board q p := by
    intro d hd
    cases hn : a.nb p d.opp with
    | none => exact .inl ⟨d, hd, hn⟩
    | some q =>
      have hb : a.nb q d = some p := by
        have := nb_back hi hn
        rwa [Dir.opp_opp] at this
      exact .inr ⟨q, .inl ⟨d, hb, hs.joined.inp q p d (nb_iff.1 hn).2 hb hd hns, hd⟩⟩
  have hb := hs.basic p hi
  cases ht : a.board p with
  | belt i o => exact take i (by rw [ht]; exact rfl)
  | underground d b =>
    cases b with
    | true => exact take d (by rw [ht]; exact rfl)
    | false =>
      obtain ⟨q, k, _, h⟩ := hs.undergrounds.exit p d hi ht
      exact .inr ⟨q, .inr ⟨d, k, h⟩⟩
  | splitter d b => exact absurd ⟨d, b, ht⟩ hns
  | empty => exact absurd ht hp
  | _ => rw [ht] at hb; exact hb.elim

/-- A belt that enters the layout comes to a splitter or leaves it again, with the same items. -/
theorem enters_ends (hs : SoundLayout a.In a.nb a.board) (hns : ¬ (a.board p).IsSplitter) (he : EntersAt a.nb a.board p) :
    BringsIn a.nb a.board p ∨ ∃ q, ¬ (a.board q).IsSplitter ∧ LeavesAt a.nb a.board q ∧
      ∀ F, Steady a.In a.nb a.board (Connected a.nb a.board) F → F q = F p := by
  classical
  have hne : a.board p ≠ .empty := by obtain ⟨d, h, _⟩ := he; exact Takes.ne_empty h
  obtain ⟨y, _, h1, h2⟩ := exists_end (PlainStep a) _ a.columns.toFinset le_rfl p (by simpa [mem_columns] using inside_of_board hne)
    (fun x y _ h => by simpa [mem_columns] using h.2.2.inside_right) (fun x x' y _ _ h h' => h.2.2.left_unique h'.2.2)
    (fun x _ h => not_follows_enters he x h.2.2)
  have hy : ¬ (a.board y).IsSplitter ∧ a.board y ≠ .empty := by
    rcases h1.cases_tail with rfl | ⟨c, _, h⟩
    · exact ⟨hns, hne⟩
    · exact ⟨h.2.1, follows_ne_right h.2.2⟩
  rcases goes_on hs hy.2 hy.1 with h | ⟨z, h⟩
  · exact .inr ⟨y, hy.1, h, fun F hF => plainSteps_carry hF h1⟩
  · refine .inl ⟨hns, he, z, ?_, reaches_steps h1 h⟩
    by_contra hz
    exact h2 z ⟨hy.1, hz, h⟩

/-- A belt that leaves the layout comes from a splitter or from outside, with the same items. -/
theorem leaves_begins (hs : SoundLayout a.In a.nb a.board) (hns : ¬ (a.board p).IsSplitter) (he : LeavesAt a.nb a.board p) :
    TakesOut a.nb a.board p ∨ ∃ q, ¬ (a.board q).IsSplitter ∧ EntersAt a.nb a.board q ∧
      ∀ F, Steady a.In a.nb a.board (Connected a.nb a.board) F → F p = F q := by
  classical
  have hne : a.board p ≠ .empty := by obtain ⟨d, h, _⟩ := he; exact Emits.ne_empty h
  obtain ⟨y, _, h1, h2⟩ := exists_end (Function.swap (PlainStep a)) _ a.columns.toFinset le_rfl p (by simpa [mem_columns] using inside_of_board hne)
    (fun x y _ h => by simpa [mem_columns] using h.2.2.inside_left) (fun x x' y _ _ h h' => h.2.2.right_unique h'.2.2)
    (fun x _ h => not_leaves_follows he x h.2.2)
  have h1 := reflTransGen_swap.1 h1
  have hy : ¬ (a.board y).IsSplitter ∧ a.board y ≠ .empty := by
    rcases h1.cases_head with rfl | ⟨c, h, _⟩
    · exact ⟨hns, hne⟩
    · exact ⟨h.1, follows_ne_left h.2.2⟩
  rcases comes_from hs hy.2 hy.1 with h | ⟨z, h⟩
  · exact .inr ⟨y, hy.1, h, fun F hF => plainSteps_carry hF h1⟩
  · refine .inl ⟨hns, he, z, ?_, reaches_steps_back h1 h⟩
    by_contra hz
    exact h2 z ⟨hz, hy.1, h⟩

end FSat
