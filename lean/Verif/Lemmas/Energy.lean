import Verif.Spec.LayoutFlow
import Mathlib.Algebra.BigOperators.Group.Finset.Basic
import Mathlib.Algebra.Order.BigOperators.Group.Finset
import Mathlib.Algebra.Order.AbsoluteValue.Basic
import Mathlib.Tactic.Linarith
import Mathlib.Tactic.Ring
/-!
A flow without input has no output: the sum of the absolute values of what the belts carry cannot grow.
-/

namespace FSat

open Finset

theorem noGrowth {P : Type} [DecidableEq P] (S E L H : Finset P) (hE : E ⊆ S) (hL : L ⊆ S) (hLH : Disjoint L H) (pred partner : P → P)
    (hp : ∀ q ∈ S \ E, pred q ∉ L ∧ (pred q ∈ S ∨ pred q ∈ H)) (hinj : ∀ q ∈ S \ E, ∀ q' ∈ S \ E, pred q = pred q' → q = q')
    (hpar : ∀ p ∈ H, partner p ∈ H) (hinv : ∀ p ∈ H, partner (partner p) = p) (D h : P → Rat) (hpos : ∀ p ∈ H, 0 ≤ h p)
    (hs : ∀ q ∈ S \ E, pred q ∉ H → D q = D (pred q)) (hh : ∀ q ∈ S \ E, pred q ∈ H → |D q| ≤ h (pred q))
    (hsum : ∀ p ∈ H, h p + h (partner p) ≤ (if p ∈ S then |D p| else 0) + if partner p ∈ S then |D (partner p)| else 0)
    (h0 : ∀ q ∈ E, D q = 0) : ∀ q ∈ L, D q = 0 := by
  let f : P → Rat := fun p => |D p|
  let φ : P → Rat := fun p => if p ∈ S then f p else 0
  let h' : P → Rat := fun p => if p ∈ H then h p else f p
  have hf : ∀ p, 0 ≤ f p := fun p => abs_nonneg _
  have hh0 : ∀ p, 0 ≤ h' p := by
    intro p
    simp only [h']
    split
    · exact hpos p ‹_›
    · exact hf p
  have h1 : ∑ q ∈ S \ E, f q ≤ ∑ q ∈ S \ E, h' (pred q) := by
    refine sum_le_sum fun q hq => ?_
    show |D q| ≤ h' (pred q)
    simp only [h']
    split
    · exact hh q hq ‹_›
    · rw [hs q hq ‹_›]
  have h2 : ∑ q ∈ S \ E, h' (pred q) ≤ ∑ p ∈ (S \ L) ∪ H, h' p := by
    rw [← sum_image (g := pred) (f := h') hinj]
    refine sum_le_sum_of_subset_of_nonneg ?_ fun p _ _ => hh0 p
    intro p hpm
    obtain ⟨q, hq, rfl⟩ := mem_image.1 hpm
    have := hp q hq
    simp only [mem_union, mem_sdiff]
    tauto
  have h3 : ∑ p ∈ (S \ L) ∪ H, h' p ≤ ∑ p ∈ S \ L, f p := by
    rw [← sum_sdiff (subset_union_right (s₁ := S \ L) (s₂ := H)), union_sdiff_right]
    have e1 : ∑ p ∈ (S \ L) \ H, h' p = ∑ p ∈ (S \ L) \ H, f p := sum_congr rfl fun p hpm => if_neg (mem_sdiff.1 hpm).2
    have e2 : ∑ p ∈ H, h' p = ∑ p ∈ H, h p := sum_congr rfl fun p hpm => if_pos hpm
    have e3 : ∑ p ∈ H, h (partner p) = ∑ p ∈ H, h p := sum_nbij' partner partner hpar hpar hinv hinv fun p _ => rfl
    have e4 : ∑ p ∈ H, φ (partner p) = ∑ p ∈ H, φ p := sum_nbij' partner partner hpar hpar hinv hinv fun p _ => rfl
    have e5 : ∑ p ∈ H, (h p + h (partner p)) ≤ ∑ p ∈ H, (φ p + φ (partner p)) := sum_le_sum fun p hpm => hsum p hpm
    rw [sum_add_distrib, sum_add_distrib, e3, e4] at e5
    have e6 : ∑ p ∈ H, φ p = ∑ p ∈ (S \ L) ∩ H, f p := by
      have : ∑ p ∈ H, φ p = ∑ p ∈ H.filter (· ∈ S), f p := (sum_filter _ _).symm
      rw [this]
      refine sum_congr ?_ fun _ _ => rfl
      ext p
      simp only [mem_filter, mem_inter, mem_sdiff]
      constructor
      · rintro ⟨a, b⟩
        exact ⟨⟨b, fun c => (disjoint_left.1 hLH) c a⟩, a⟩
      · rintro ⟨⟨a, _⟩, b⟩
        exact ⟨b, a⟩
    have e7 : ∑ p ∈ (S \ L) ∩ H, f p + ∑ p ∈ (S \ L) \ H, f p = ∑ p ∈ S \ L, f p := by
      rw [← sum_union (disjoint_sdiff_inter _ _).symm]
      congr 1
      ext p
      simp only [mem_union, mem_inter, mem_sdiff]
      tauto
    rw [e1, e2]
    linarith
  have h4 : ∑ p ∈ E, f p = 0 := sum_eq_zero fun p hpm => by show |D p| = 0; rw [h0 p hpm]; exact abs_zero
  have h5 := sum_sdiff (f := f) hE
  have h6 := sum_sdiff (f := f) hL
  have h7 : ∑ p ∈ L, f p ≤ 0 := by linarith
  intro q hq
  have h8 := (sum_eq_zero_iff_of_nonneg fun p _ => hf p).1 (le_antisymm h7 (sum_nonneg fun p _ => hf p)) q hq
  exact abs_eq_zero.1 h8

section
variable {P : Type} {In : P → Prop} {nb : P → Dir → Option P} {T : P → Tile} {conn : P → P → Dir → Prop}

/-- What arrives at the cell `q` comes from the cell `p`. -/
def Passes (nb : P → Dir → Option P) (T : P → Tile) (p q : P) : Prop := (∃ d, Connected nb T p q d) ∨ ∃ d k, UgPair nb T p q d k

theorem Tile.emits_unique {t : Tile} {d e : Dir} (h1 : t.Emits d) (h2 : t.Emits e) : d = e := by
  cases t with
  | belt i o => exact h1.symm.trans h2
  | underground x b => cases b with
    | true => exact h1.elim
    | false => exact h1.symm.trans h2
  | splitter x b => exact h1.symm.trans h2
  | _ => exact h1.elim

theorem Passes.functional {p q q' : P} (h : Passes nb T p q) (h' : Passes nb T p q') : q = q' := by
  rcases h with ⟨d, h⟩ | ⟨d, k, h⟩ <;> rcases h' with ⟨e, h'⟩ | ⟨e, l, h'⟩
  · cases Tile.emits_unique h.2.1 h'.2.1
    exact Option.some.inj (h.1.symm.trans h'.1)
  · have := h'.2.2.1 ▸ h.2.1
    exact this.elim
  · have := h.2.2.1 ▸ h'.2.1
    exact this.elim
  · have e1 := h.2.2.1.symm.trans h'.2.2.1
    cases e1
    have key : ∀ {k l : Nat} {q q' : P}, UgPair nb T p q d k → UgPair nb T p q' d l → ¬ k < l := by
      intro k l q q' h h' hkl
      have h1 := h.1
      exact h'.2.2.2.2 k (by omega) hkl q h.2.1 (by rw [h.2.2.2.1]; exact Or.inl rfl)
    have : k = l := by
      have h1 := key h h'
      have h2 := key h' h
      omega
    subst this
    exact Option.some.inj (h.2.1.symm.trans h'.2.1)

theorem outlets_nonneg (p : P) (d : Dir) : 0 ≤ outlets conn p d := by
  unfold outlets
  split <;> norm_num

theorem outlets_pos {p r : P} {d : Dir} (h : conn p r d) : outlets conn p d = 1 := by
  unfold outlets
  exact if_pos ⟨r, h⟩

theorem arrives_sub (F G : P → Rat) (p : P) (d : Dir) :
    arrives In conn (fun p => F p - G p) p d = arrives In conn F p d - arrives In conn G p d := by
  unfold arrives
  split
  · rfl
  · ring

/-- Two steady flows with the same input have the same output. -/
theorem Steady.unique (cells : Finset P) (hcells : ∀ p, p ∈ cells ↔ In p)
    (hin : ∀ p q d, In p → nb p d = some q → In q) (hopp : ∀ p q d, In p → nb p d = some q → nb q d.opp = some p)
    (hbasic : ∀ p, In p → (T p).Basic) (hspl : PairedSplitters In nb T)
    (hsub : ∀ p q d, In p → conn p q d → Connected nb T p q d)
    (hj : ∀ p q d, In p → nb p d = some q → (T q).Takes d → ¬ (T q).IsSplitter → conn p q d)
    (hex : ∀ q d, In q → T q = .underground d false → ∃ p k, In p ∧ UgPair nb T p q d k)
    (hedge : ∀ p d b, In p → T p = .splitter d b → nb p d ≠ none ∧ nb p d.opp ≠ none)
    {F G : P → Rat} (hF : Steady In nb T conn F) (hG : Steady In nb T conn G) (he : ∀ p, In p → EntersAt nb T p → F p = G p) :
    ∀ p, In p → LeavesAt nb T p → F p = G p := by
  classical
  let S := cells.filter fun p => T p ≠ .empty ∧ ((T p).IsSplitter → ∃ r d, In r ∧ conn r p d)
  let E := S.filter fun p => EntersAt nb T p
  let L := S.filter fun p => LeavesAt nb T p
  let H := cells.filter fun p => (T p).IsSplitter
  have hS : ∀ p, p ∈ S ↔ In p ∧ T p ≠ .empty ∧ ((T p).IsSplitter → ∃ r d, In r ∧ conn r p d) := fun p => by simp [S, hcells]
  have hH : ∀ p, p ∈ H ↔ In p ∧ (T p).IsSplitter := fun p => by simp [H, hcells]
  have hnotE : ∀ p, In p → (T p).IsSplitter → ¬ EntersAt nb T p := by
    rintro p hp ⟨d, b, ht⟩ ⟨e, h1, h2⟩
    have : e = d := by rw [ht] at h1; exact h1.symm
    subst this
    exact (hedge p e b hp ht).2 h2
  have hnotL : ∀ p, In p → (T p).IsSplitter → ¬ LeavesAt nb T p := by
    rintro p hp ⟨d, b, ht⟩ ⟨e, h1, h2⟩
    have : e = d := by rw [ht] at h1; exact h1.symm
    subst this
    exact (hedge p e b hp ht).1 h2
  -- the other half of a splitter
  have hpartner : ∀ p ∈ H, ∃ q, q ∈ H ∧ ∃ d, SplitterPair nb T p q d ∨ SplitterPair nb T q p d := by
    intro p hp
    obtain ⟨hp, d, b, ht⟩ := (hH p).1 hp
    cases b with
    | true =>
      obtain ⟨q, hq, hpair⟩ := hspl.head p d hp ht
      exact ⟨q, (hH q).2 ⟨hq, d, false, hpair.2.2⟩, d, .inl hpair⟩
    | false =>
      obtain ⟨q, hq, hpair⟩ := hspl.tail p d hp ht
      exact ⟨q, (hH q).2 ⟨hq, d, true, hpair.1⟩, d, .inr hpair⟩
  let partner : P → P := fun p => if h : p ∈ H then (hpartner p h).choose else p
  have hpar : ∀ p ∈ H, partner p ∈ H ∧ ∃ d, SplitterPair nb T p (partner p) d ∨ SplitterPair nb T (partner p) p d := by
    intro p hp
    have : partner p = (hpartner p hp).choose := dif_pos hp
    rw [this]
    exact (hpartner p hp).choose_spec
  -- where things come from
  have hpred : ∀ q ∈ S \ E, ∃ p, In p ∧ T p ≠ .empty ∧ ¬ LeavesAt nb T p ∧ Passes nb T p q ∧
      ((T p).IsSplitter → ∃ d, conn p q d) ∧ (¬ (T p).IsSplitter → (∃ d, conn p q d) ∨ ∃ d k, UgPair nb T p q d k) := by
    intro q hq
    simp only [E, mem_sdiff, mem_filter, hS, not_and] at hq
    obtain ⟨⟨hq, hne, hfed⟩, hnE⟩ := hq
    have hnE := hnE ⟨hq, hne, hfed⟩
    have main : ∃ p, In p ∧ ((∃ d, conn p q d) ∨ ∃ d k, UgPair nb T p q d k) := by
      have surf : ∀ d, (T q).Takes d → ¬ (T q).IsSplitter → ∃ p, In p ∧ ((∃ d, conn p q d) ∨ ∃ d k, UgPair nb T p q d k) := by
        intro d hd hns
        cases hn : nb q d.opp with
        | none => exact (hnE ⟨d, hd, hn⟩).elim
        | some p =>
          have hp := hin _ _ _ hq hn
          have hpq : nb p d = some q := by
            have := hopp q p d.opp hq hn
            rwa [show d.opp.opp = d by cases d <;> rfl] at this
          exact ⟨p, hp, .inl ⟨d, hj p q d hp hpq hd hns⟩⟩
      have hb := hbasic q hq
      cases ht : T q with
      | empty => exact (hne ht).elim
      | belt i o => exact surf i (by rw [ht]; rfl) (by rintro ⟨_, _, h⟩; rw [ht] at h; cases h)
      | underground d b =>
        cases b with
        | true => exact surf d (by rw [ht]; rfl) (by rintro ⟨_, _, h⟩; rw [ht] at h; cases h)
        | false =>
          obtain ⟨p, k, hp, hpair⟩ := hex q d hq ht
          exact ⟨p, hp, .inr ⟨d, k, hpair⟩⟩
      | splitter d b =>
        obtain ⟨p, d, hp, hc⟩ := hfed ⟨d, b, ht⟩
        exact ⟨p, hp, .inl ⟨d, hc⟩⟩
      | _ => rw [ht] at hb; exact hb.elim
    obtain ⟨p, hp, hpass⟩ := main
    have hpass' : Passes nb T p q := hpass.imp (fun ⟨d, h⟩ => ⟨d, hsub _ _ _ hp h⟩) id
    refine ⟨p, hp, ?_, ?_, hpass', ?_, fun _ => hpass⟩
    · intro h
      rcases hpass' with ⟨d, hc⟩ | ⟨d, k, hc⟩
      · have := h ▸ hc.2.1; exact this.elim
      · rw [hc.2.2.1] at h; cases h
    · rintro ⟨e, he1, he2⟩
      rcases hpass' with ⟨d, hc⟩ | ⟨d, k, hc⟩
      · cases Tile.emits_unique he1 hc.2.1
        rw [hc.1] at he2; cases he2
      · have := hc.2.2.1 ▸ he1; exact this.elim
    · rintro ⟨d, b, ht⟩
      rcases hpass with hc | ⟨e, k, hc⟩
      · exact hc
      · have := ht.symm.trans hc.2.2.1; cases this
  let pred : P → P := fun q => if h : q ∈ S \ E then (hpred q h).choose else q
  have hpd : ∀ q ∈ S \ E, In (pred q) ∧ T (pred q) ≠ .empty ∧ ¬ LeavesAt nb T (pred q) ∧ Passes nb T (pred q) q ∧
      ((T (pred q)).IsSplitter → ∃ d, conn (pred q) q d) ∧
      (¬ (T (pred q)).IsSplitter → (∃ d, conn (pred q) q d) ∨ ∃ d k, UgPair nb T (pred q) q d k) := by
    intro q hq
    have : pred q = (hpred q hq).choose := dif_pos hq
    rw [this]
    exact (hpred q hq).choose_spec
  have hpairs : ∀ {p q q' d}, (SplitterPair nb T p q d ∨ SplitterPair nb T q p d) → In q → In q' → ∀ {e},
      (SplitterPair nb T p q' e ∨ SplitterPair nb T q' p e) → q = q' := by
    intro p q q' d h hq hq' e h'
    rcases h with h | h <;> rcases h' with h' | h'
    · have := h.1.symm.trans h'.1; cases this
      exact Option.some.inj (h.2.1.symm.trans h'.2.1)
    · have := h.1.symm.trans h'.2.2; cases this
    · have := h.2.2.symm.trans h'.1; cases this
    · have := h.2.2.symm.trans h'.2.2; cases this
      have h1 := hopp _ _ _ hq h.2.1
      have h2 := hopp _ _ _ hq' h'.2.1
      exact Option.some.inj (h1.symm.trans h2)
  let D : P → Rat := fun p => F p - G p
  -- what a splitter half may put out
  let dir : P → Dir := fun p => match T p with
    | .splitter d _ => d
    | _ => .right
  let ins : P → Rat := fun p => |arrives In conn D p (dir p)| + |arrives In conn D (partner p) (dir p)|
  let outs : P → Rat := fun p => outlets conn p (dir p) + outlets conn (partner p) (dir p)
  let h : P → Rat := fun p => if outlets conn p (dir p) = 1 then ins p / outs p else 0
  have hinvol : ∀ p ∈ H, partner (partner p) = p := by
    intro p hp
    obtain ⟨h1, d, h2⟩ := hpar p hp
    obtain ⟨h3, e, h4⟩ := hpar _ h1
    exact hpairs h4 ((hH _).1 h3).1 ((hH _).1 hp).1 h2.symm
  have hdir : ∀ p ∈ H, dir (partner p) = dir p ∧
      (SplitterPair nb T p (partner p) (dir p) ∨ SplitterPair nb T (partner p) p (dir p)) := by
    intro p hp
    obtain ⟨_, d, h2⟩ := hpar p hp
    rcases h2 with h2 | h2
    · have e1 : dir p = d := by simp only [dir, h2.1]
      have e2 : dir (partner p) = d := by simp only [dir, h2.2.2]
      rw [e1, e2]; exact ⟨rfl, .inl h2⟩
    · have e1 : dir p = d := by simp only [dir, h2.2.2]
      have e2 : dir (partner p) = d := by simp only [dir, h2.1]
      rw [e1, e2]; exact ⟨rfl, .inr h2⟩
  have hins : ∀ p, 0 ≤ ins p := fun p => add_nonneg (abs_nonneg _) (abs_nonneg _)
  have houts : ∀ p, 0 ≤ outs p := fun p => add_nonneg (outlets_nonneg _ _) (outlets_nonneg _ _)
  have hout01 : ∀ p d, outlets conn p d = 1 ∨ outlets conn p d = 0 := by
    intro p d
    unfold outlets
    split
    · exact .inl rfl
    · exact .inr rfl
  have harr : ∀ p ∈ H, |arrives In conn D p (dir p)| ≤ if p ∈ S then |D p| else 0 := by
    intro p hp
    obtain ⟨hpi, d, b, ht⟩ := (hH p).1 hp
    have hd : dir p = d := by simp only [dir, ht]
    unfold arrives
    split
    · rename_i hfed
      obtain ⟨r, hr, hc⟩ := hfed
      rw [if_pos ((hS p).2 ⟨hpi, by rw [ht]; simp, fun _ => ⟨r, _, hr, hc⟩⟩)]
    · rw [abs_zero]
      split
      · exact abs_nonneg _
      · exact le_refl _
  have main := noGrowth S E L H (filter_subset _ _) (filter_subset _ _) (by
      rw [disjoint_left]
      intro p hl hh'
      obtain ⟨hpi, hps⟩ := (hH p).1 hh'
      exact hnotL p hpi hps (mem_filter.1 hl).2) pred partner
    (by
      intro q hq
      obtain ⟨h1, h2, h3, _⟩ := hpd q hq
      refine ⟨fun hl => h3 (mem_filter.1 hl).2, ?_⟩
      by_cases hsp : (T (pred q)).IsSplitter
      · exact .inr ((hH _).2 ⟨h1, hsp⟩)
      · exact .inl ((hS _).2 ⟨h1, h2, fun hh' => (hsp hh').elim⟩))
    (fun q hq q' hq' e => (hpd q hq).2.2.2.1.functional (e ▸ (hpd q' hq').2.2.2.1))
    (fun p hp => (hpar p hp).1) hinvol D h
    (by
      intro p _
      simp only [h]
      split
      · exact div_nonneg (hins p) (houts p)
      · exact le_refl _)
    (by
      intro q hq hn
      obtain ⟨h1, _, _, _, _, h5⟩ := hpd q hq
      have hns : ¬ (T (pred q)).IsSplitter := fun hh' => hn ((hH _).2 ⟨h1, hh'⟩)
      show F q - G q = F (pred q) - G (pred q)
      rcases h5 hns with ⟨d, hc⟩ | ⟨d, k, hc⟩
      · rw [hF.surface _ _ _ h1 hc hns, hG.surface _ _ _ h1 hc hns]
      · rw [hF.under _ _ _ _ h1 hc, hG.under _ _ _ _ h1 hc])
    (by
      intro q hq hm
      obtain ⟨h1, _, _, _, h4, _⟩ := hpd q hq
      obtain ⟨d, hc⟩ := h4 ((hH _).1 hm).2
      obtain ⟨h3, _⟩ := hpar _ hm
      have h3' := ((hH _).1 h3).1
      obtain ⟨hd1, hd2⟩ := hdir _ hm
      generalize pred q = p at *
      have hdp : dir p = d := by
        obtain ⟨e, b, ht⟩ := ((hH _).1 hm).2
        have := (hsub _ _ _ h1 hc).2.1
        rw [ht] at this
        simp only [dir, ht]
        exact this
      have ho : outlets conn p (dir p) = 1 := by rw [hdp]; exact outlets_pos hc
      have hpos : 0 < outs p := by
        have := outlets_nonneg (conn := conn) (partner p) (dir p)
        simp only [outs, ho]
        linarith
      have key : D q * outs p = arrives In conn D p (dir p) + arrives In conn D (partner p) (dir p) := by
        simp only [D, outs, arrives_sub]
        rcases hd2 with hd2 | hd2
        · have e1 := hF.splitter _ _ _ h1 h3' hd2 q (.inl (hdp ▸ hc))
          have e2 := hG.splitter _ _ _ h1 h3' hd2 q (.inl (hdp ▸ hc))
          linarith
        · have e1 := hF.splitter _ _ _ h3' h1 hd2 q (.inr (hdp ▸ hc))
          have e2 := hG.splitter _ _ _ h3' h1 hd2 q (.inr (hdp ▸ hc))
          linarith
      simp only [h, ho, if_true]
      have e := abs_mul (D q) (outs p)
      rw [abs_of_pos hpos, key] at e
      rw [le_div_iff₀ hpos, ← e]
      exact abs_add_le _ _)
    (by
      intro p hp
      obtain ⟨hd1, _⟩ := hdir p hp
      have hp2 := (hpar p hp).1
      have a1 := harr p hp
      have a2 := harr _ hp2
      rw [hd1] at a2
      have hi : ins (partner p) = ins p := by
        simp only [ins, hinvol p hp, hd1]; ring
      have ho : outs (partner p) = outs p := by
        simp only [outs, hinvol p hp, hd1]; ring
      have hle : h p + h (partner p) ≤ ins p := by
        simp only [h, hi, ho, hd1]
        have hii := hins p
        simp only [outs]
        rcases hout01 p (dir p) with e1 | e1 <;> rcases hout01 (partner p) (dir p) with e2 | e2 <;> rw [e1, e2] <;> norm_num
        exact hii
      have : ins p = |arrives In conn D p (dir p)| + |arrives In conn D (partner p) (dir p)| := rfl
      linarith)
    (by
      intro q hq
      simp only [E, mem_filter, hS] at hq
      show F q - G q = 0
      rw [he q hq.1.1 hq.2]; ring)
  intro p hp hl
  have hne : T p ≠ .empty := by
    intro h
    obtain ⟨d, h1, _⟩ := hl
    rw [h] at h1; exact h1.elim
  have := main p (mem_filter.2 ⟨(hS p).2 ⟨hp, hne, fun hsp => (hnotL p hp hsp hl).elim⟩, hl⟩)
  have : F p - G p = 0 := this
  linarith

end

end FSat
