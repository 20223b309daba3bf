import Verif.Lemmas.PowerExact
import Verif.Props.PowerOfTwoCase
/-!
# C90: which balancers for powers of two are found
-/

namespace FSat

/-- C90: for every width, power of two and underground length, the layouts found are exactly the balancers described. -/
theorem c90_exact {lib : CardLib} (hl : lib.Correct) {width height : Nat} {ugLen : Option Nat} {g : Grid} {cs : Cnf} {s : Nat}
    (hL : ∀ l, ugLen = some l → 1 ≤ l) (h : powerBalancer lib width height ugLen = .ok (g, cs, s)) (T : Nat × Nat → Tile) :
    (∃ v, Sat v cs ∧ Decodes g v T) ↔ PowerBalancer g T width height ugLen := by
  refine ⟨?_, power_complete hl hL h⟩
  rintro ⟨v, hv, hT⟩
  obtain ⟨r1, r2, r3, S, level, r4, r5, r6, r7, r8⟩ := c31_mixes hl hL h hv hT
  exact ⟨r1, r2, r3, S, level, r4, fun p _ => r5 p, r6, r7, r8⟩

/-- C90: the whole program finds exactly those of these balancers in which nothing simpler would do. -/
theorem c90_main {lib : CardLib} (hl : lib.Correct) {width height : Nat} {ugLen : Option Nat} {g : Grid} {cs : Cnf} {s : Nat}
    (hw : 2 ≤ width) (hL : ∀ l, ugLen = some l → 1 ≤ l) (h : powerBalancerMain lib width height ugLen = .ok (g, cs, s))
    (T : Nat × Nat → Tile) :
    (∃ v, Sat v cs ∧ Decodes g v T) ↔ PowerBalancer g T width height ugLen ∧
      TidyPower g.In g.nb width height ugLen T (fun p d => (T p).Takes d) (fun p d => (T p).Emits d) := by
  unfold powerBalancerMain at h
  split at h
  · cases h
  · rename_i g' cs0 s0 hb
    split at h
    · cases h
    · rename_i cs' h'
      simp only [Except.ok.injEq, Prod.mk.injEq] at h
      obtain ⟨rfl, rfl, rfl⟩ := h
      obtain ⟨e, _, _, hg, hge, hgw, hgh, hgu, _, hall⟩ := power_all hl hL hb
      obtain ⟨cs'', h'', ht⟩ := powerMain_tidy hg (by omega) hge
      rw [h'] at h''
      cases h''
      have hex := c90_exact hl hL hb T
      subst hgw hgh hgu
      have key : ∀ v, Sat v cs0 → Decodes g' v T → (Sat v cs' ↔
          TidyPower g'.In g'.nb g'.width g'.height g'.ugLen T (fun p d => (T p).Takes d) (fun p d => (T p).Emits d)) := by
        intro v hv hT
        obtain ⟨lv, pr, sol⟩ := hall v hv
        have hs := sol.sem
        have hl := lays_of_decodes hs.init hT
        obtain ⟨ci, hi1, hi2⟩ := init_iff hg
        have hS : Solved g' v T := ⟨hg, ⟨ci, hi1, (hi2 v).2 hs.init⟩, (Sat_intersection g' v).2 sol.inter, (Sat_underground g' v).2 hs.under, hT⟩
        have hpu := (hex.1 ⟨v, hv, hT⟩).1.undergrounds
        rw [ht v T hS hpu]
        have hin : ∀ p d, g'.In p → ((T p).Takes d ↔ (g'.vals v p).inp d = true) := by
          intro p d hp
          refine ⟨fun h => ?_, fun h => (hl p hp).inp_takes h⟩
          by_cases hsp : (T p).IsSplitter
          · obtain ⟨e, b, ht⟩ := hsp
            have : e = d := by rw [ht] at h; exact h
            subst this
            exact (hs.full hl hp ht).1
          · exact ((hl p hp).takes_iff ((hl p hp).isSplitter_false hsp) d).2 h
        have hout : ∀ p d, g'.In p → ((T p).Emits d ↔ (g'.vals v p).out d = true) := by
          intro p d hp
          refine ⟨fun h => ?_, fun h => (hl p hp).out_emits h⟩
          by_cases hsp : (T p).IsSplitter
          · obtain ⟨e, b, ht⟩ := hsp
            have : e = d := by rw [ht] at h; exact h
            subst this
            exact (hs.full hl hp ht).2
          · exact ((hl p hp).emits_iff ((hl p hp).isSplitter_false hsp) d).2 h
        exact ⟨TidyPower.congr (fun p q d h => Grid.nb_in hg h) hin hout,
          TidyPower.congr (fun p q d h => Grid.nb_in hg h) (fun p d hp => (hin p d hp).symm) (fun p d hp => (hout p d hp).symm)⟩
      constructor
      · rintro ⟨v, hv, hT⟩
        rw [Sat_append] at hv
        exact ⟨hex.1 ⟨v, hv.1, hT⟩, (key v hv.1 hT).1 hv.2⟩
      · rintro ⟨hb, htidy⟩
        obtain ⟨v, hv, hT⟩ := hex.2 hb
        exact ⟨v, (Sat_append _ _ _).2 ⟨hv, (key v hv hT).2 htidy⟩, hT⟩

/-- The layout for eight belts is one of them. -/
example : ∃ (g : Grid) (T : Nat × Nat → Tile), PowerBalancer g T 10 8 (some 4) ∧ g.width = 10 ∧ g.height = 8 := by
  obtain ⟨g, cs, s, v, T, h1, h2, h3⟩ := mix_found
  have hL : ∀ l, some 4 = some l → 1 ≤ l := by intro l h; cases h; decide
  obtain ⟨_, _, _, _, _, hw, hh, _⟩ := power_all naiveLib_correct hL h1
  exact ⟨g, T, (c90_exact naiveLib_correct hL h1 T).1 ⟨v, h2, h3⟩, hw, hh⟩

end FSat
