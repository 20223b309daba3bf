import Verif.Spec.NetFree
import Verif.Props.NetFreeMain
import Verif.Props.Optimisations
/-!
What the rest of the program for balancers without a network adds.
-/

namespace FSat

theorem TidyFree.congr {In : Nat × Nat → Prop} {nb : Nat × Nat → Dir → Option (Nat × Nat)} {w h : Nat} {ugLen : Option Nat}
    {T : Nat × Nat → Tile} {ent out ent' out' : Nat × Nat → Dir → Prop} (hin : ∀ p q d, nb p d = some q → In q)
    (he : ∀ p d, In p → (ent' p d ↔ ent p d)) (ho : ∀ p d, In p → (out' p d ↔ out p d)) (ht : TidyFree In nb w h ugLen T ent out) :
    TidyFree In nb w h ugLen T ent' out' := by
  refine { ht with patterns := fun p d t hp ha => ?_, loose := fun p d hp h1 h2 hl => ht.loose p d hp h1 h2 ?_ }
  · obtain ⟨k1, k2, k3, k4, k5, k6⟩ := ht.patterns p d t hp ha
    refine ⟨k1, k2, k3, k4, k5, fun hb => k6 ?_⟩
    obtain ⟨q, b, c, e1, e2, e3, e4, e5, e6⟩ := hb
    exact ⟨q, b, c, e1, e2, e3, e4, (ho b t (hin _ _ _ e2)).1 e5, e6⟩
  · obtain ⟨q, a, b, e1, e2, e3, e4, e5, e6⟩ := hl
    exact ⟨q, a, b, e1, e2, e3, e4, e5, by rwa [he p d hp, he q d (hin _ _ _ e1.2.1)] at e6⟩

/-- What the clauses that `main` adds say about a layout. -/
theorem freeMain_tidy {g : Grid} (hg : g.WF) (hw : 2 ≤ g.width) (hedge : g.edge = ⟨false, false⟩) :
    ∃ cs, joinE [expandUnderground g { minX := 1, maxX := some ((g.width : Int) - 2) }, applyGenericOptimisations g,
        preventDoubleEdgeBelts g] = .ok cs ∧ ∀ v T, Solved g v T → PairedUndergrounds g.In g.nb T g.ugLen →
      (Sat v cs ↔ TidyFree g.In g.nb g.width g.height g.ugLen T (fun q e => (g.vals v q).inp e = true)
        (fun q e => (g.vals v q).out e = true)) := by
  have hin : Window.Inside { minX := 1, maxX := some ((g.width : Int) - 2) } g := by
    unfold Window.Inside Window.hiX Window.hiY
    simp only [Option.getD_some, Option.getD_none]
    omega
  have e1 : Window.hiX { minX := 1, maxX := some ((g.width : Int) - 2) } g = ((g.width - 2 : Nat) : Int) := by
    unfold Window.hiX
    simp only [Option.getD_some]
    omega
  have e2 : Window.hiY { minX := 1, maxX := some ((g.width : Int) - 2) } g = ((g.height - 1 : Nat) : Int) := by
    have := hg.h
    unfold Window.hiY
    simp only [Option.getD_none]
    omega
  have key : ∃ c1, expandUnderground g { minX := 1, maxX := some ((g.width : Int) - 2) } = .ok c1 ∧
      ∀ v T, Solved g v T → (Sat v c1 ↔ Expanded T g.nb g.In g.width g.height g.ugLen) := by
    rcases hu : g.ugLen with _ | L
    · obtain ⟨cs, h1, h2⟩ := c59_expand_unlimited hg _ hin hu
      refine ⟨cs, h1, fun v T hS => ?_⟩
      rw [h2 v T hS, e1, e2]
      simp only [Expanded, Nat.cast_sub hw, Nat.cast_sub (show 1 ≤ g.height from hg.h)]
      exact Iff.rfl
    · obtain ⟨cs, h1, h2⟩ := c59_expand hg _ hin L hu
      refine ⟨cs, h1, fun v T hS => ?_⟩
      rw [h2 v T hS, e1, e2]
      simp only [Expanded, Nat.cast_sub hw, Nat.cast_sub (show 1 ≤ g.height from hg.h)]
      exact Iff.rfl
  obtain ⟨c1, h1, k1⟩ := key
  obtain ⟨c2, h2, k2⟩ := c59_generic hg
  obtain ⟨c3, h3, k3⟩ := c59_double_edge hw
  refine ⟨c1 ++ (c2 ++ (c3 ++ [])), by rw [h1, h2, h3]; rfl, fun v T hS hpu => ?_⟩
  rw [Sat_append, Sat_append, List.append_nil, k1 v T hS, k2 v T hS, k3 v T hS]
  constructor
  · rintro ⟨a1, ⟨b1, b2, b3, b4, b5, b6⟩, a3⟩
    refine ⟨a1, b1, fun p q d k hp he => b2 p q d k hp (fun L hL => hpu.len p q d k hp he.1 L hL) he, b3, b4, fun p d k m hp hL hm => ?_,
      b6, a3⟩
    have hs : Sat v (preventMergeableUnderground g) := (c59_mergeable hS).2 b5
    exact (c59_mergeable_flat hS (by rw [hedge]) (by rw [hedge])).1 hs p d k m hp hL hm
  · intro ht
    exact ⟨ht.expanded, ⟨ht.loops, fun p q d k hp _ => ht.spans p q d k hp, ht.glued, ht.patterns,
      fun p d k m hp hL _ => ht.mergeable p d k m hp hL, ht.loose⟩, ht.edges⟩

end FSat
