import Verif.Lemmas.Optimal
import Mathlib.Algebra.Order.BigOperators.Group.List
/-!
# Lemmas about objectives and the compute loop
-/

namespace FSat

/-! ### The loops -/

theorem beyond_not_false (s : Store) (ul h w : Int) (hw : (s.widthBound : Int) ≤ w) : doesExist s.exist (ul, w, h) ≠ some false := by
  intro e
  obtain ⟨o, ho, hl⟩ := doesExist_false e
  have h1 : o.2.1.natAbs ≤ (s.exist.map fun e => e.1.2.1.natAbs).sum :=
    List.single_le_sum (by simp) _ (List.mem_map.2 ⟨_, ho, rfl⟩)
  have h2 := hl.2.1
  unfold Store.widthBound at hw
  simp only at h2
  omega

theorem beyond_room (s : Store) (h w : Int) (hh : 1 ≤ h) (hw : (s.widthBound : Int) ≤ w) :
    2 * (s.network.length : Int) ≤ (w - 2) * h := by
  unfold Store.widthBound at hw
  push_cast at hw
  have h0 : (0 : Int) ≤ (s.exist.map fun e => e.1.2.1.natAbs).sum := by positivity
  nlinarith

theorem lengthLoop_succ (s : Store) (ul h : Int) (fuel : Nat) (w : Int) :
    lengthLoop s ul h (fuel + 1) w =
      if doesExist s.exist (ul, w, h) = some true then some none
      else if (w - 2) * h ≥ 2 * (s.network.length : Int) ∧ doesExist s.exist (ul, w, h) = none then some (some (ul, w, h))
      else lengthLoop s ul h fuel (w + 1) := by
  rw [lengthLoop]
  cases doesExist s.exist (ul, w, h) with
  | none => simp
  | some b => cases b <;> simp

theorem lengthLoop_mono (s : Store) (ul h : Int) (r : Option Size) : ∀ (fuel : Nat) (w : Int), lengthLoop s ul h fuel w = some r →
    ∀ k, lengthLoop s ul h (fuel + k) w = some r := by
  intro fuel
  induction fuel with
  | zero => intro w h; simp [lengthLoop] at h
  | succ fuel ih =>
    intro w h k
    rw [show fuel + 1 + k = (fuel + k) + 1 by omega]
    rw [lengthLoop_succ] at h ⊢
    split at h
    · rename_i h1; rw [if_pos h1]; exact h
    rename_i h1
    rw [if_neg h1]
    split at h
    · rename_i h2; rw [if_pos h2]; exact h
    rename_i h2
    rw [if_neg h2]
    exact ih _ h k

theorem lengthLoop_total (s : Store) (ul h : Int) (hh : 1 ≤ h) : ∀ (fuel : Nat) (w : Int), 1 ≤ fuel →
    (s.widthBound : Int) ≤ fuel + w - 1 → ∃ r, lengthLoop s ul h fuel w = some r := by
  intro fuel
  induction fuel with
  | zero => intro w h; omega
  | succ fuel ih =>
    intro w _ hw
    rw [lengthLoop_succ]
    split
    · exact ⟨_, rfl⟩
    rename_i h1
    split
    · exact ⟨_, rfl⟩
    rename_i h2
    have hlt : w < s.widthBound := by
      by_contra hge
      push Not at hge
      have h3 := beyond_not_false s ul h w hge
      have h4 := beyond_room s h w hh hge
      refine h2 ⟨h4, ?_⟩
      cases hd : doesExist s.exist (ul, w, h) with
      | none => rfl
      | some b => cases b <;> simp_all
    exact ih (w + 1) (by omega) (by push_cast at hw ⊢; omega)

/-- What the loop returns. -/
theorem lengthLoop_spec (s : Store) (ul h : Int) (r : Option Size) : ∀ (fuel : Nat) (w0 : Int), lengthLoop s ul h fuel w0 = some r →
    ∃ w, w0 ≤ w ∧ w < w0 + fuel ∧ (∀ w', w0 ≤ w' → w' < w → doesExist s.exist (ul, w', h) = some false ∨
        doesExist s.exist (ul, w', h) = none ∧ (w' - 2) * h < 2 * (s.network.length : Int)) ∧
      (r = none ∧ doesExist s.exist (ul, w, h) = some true ∨
        r = some (ul, w, h) ∧ doesExist s.exist (ul, w, h) = none ∧ 2 * (s.network.length : Int) ≤ (w - 2) * h) := by
  intro fuel
  induction fuel with
  | zero => intro w h; simp [lengthLoop] at h
  | succ fuel ih =>
    intro w0 hl
    rw [lengthLoop_succ] at hl
    split at hl
    · rename_i h1
      simp only [Option.some.injEq] at hl
      exact ⟨w0, le_refl _, by push_cast; omega, fun w' h1 h2 => by omega, Or.inl ⟨hl.symm, h1⟩⟩
    rename_i h1
    split at hl
    · rename_i h2
      simp only [Option.some.injEq] at hl
      exact ⟨w0, le_refl _, by push_cast; omega, fun w' h1 h2 => by omega, Or.inr ⟨hl.symm, h2.2, h2.1⟩⟩
    rename_i h2
    obtain ⟨w, h3, h4, h5, h6⟩ := ih _ hl
    refine ⟨w, by omega, by push_cast; omega, fun w' hw1 hw2 => ?_, h6⟩
    by_cases he : w' = w0
    · subst he
      cases hd : doesExist s.exist (ul, w', h) with
      | none =>
        right
        refine ⟨rfl, ?_⟩
        by_contra hge
        exact h2 ⟨by omega, hd⟩
      | some b =>
        cases b
        · exact Or.inl rfl
        · exact absurd hd h1
    · exact h5 w' (by omega) hw2

/-- What the inner loop over the factors returns. -/
theorem areaPick_spec (s : Store) (ul m : Int) (l : List (Nat × Nat)) :
    (areaPick s ul m l = none → ∀ p ∈ l, m ≤ (p.2 : Int) → (p.2 : Int) ≤ 2 * m → 2 * (s.network.length : Int) ≤ (p.1 : Int) * p.2 →
      doesExist s.exist (ul, (p.1 : Int) + 2, (p.2 : Int)) = some false) ∧
    (∀ r, areaPick s ul m l = some r → ∃ p ∈ l, m ≤ (p.2 : Int) ∧ (p.2 : Int) ≤ 2 * m ∧
      2 * (s.network.length : Int) ≤ (p.1 : Int) * p.2 ∧
      (r = none ∧ doesExist s.exist (ul, (p.1 : Int) + 2, (p.2 : Int)) = some true ∨
        r = some (ul, (p.1 : Int) + 2, (p.2 : Int)) ∧ doesExist s.exist (ul, (p.1 : Int) + 2, (p.2 : Int)) = none)) := by
  induction l with
  | nil => exact ⟨fun _ p hp => by simp at hp, fun r h => by simp [areaPick] at h⟩
  | cons p l ih =>
    obtain ⟨w, h⟩ := p
    rw [areaPick]
    have skip : ∀ (hs : m ≤ (h : Int) → (h : Int) ≤ 2 * m → 2 * (s.network.length : Int) ≤ (w : Int) * h →
        doesExist s.exist (ul, (w : Int) + 2, (h : Int)) = some false),
        (areaPick s ul m l = none → ∀ p ∈ (w, h) :: l, m ≤ (p.2 : Int) → (p.2 : Int) ≤ 2 * m →
          2 * (s.network.length : Int) ≤ (p.1 : Int) * p.2 → doesExist s.exist (ul, (p.1 : Int) + 2, (p.2 : Int)) = some false) ∧
        (∀ r, areaPick s ul m l = some r → ∃ p ∈ (w, h) :: l, m ≤ (p.2 : Int) ∧ (p.2 : Int) ≤ 2 * m ∧
          2 * (s.network.length : Int) ≤ (p.1 : Int) * p.2 ∧
          (r = none ∧ doesExist s.exist (ul, (p.1 : Int) + 2, (p.2 : Int)) = some true ∨
            r = some (ul, (p.1 : Int) + 2, (p.2 : Int)) ∧ doesExist s.exist (ul, (p.1 : Int) + 2, (p.2 : Int)) = none)) := by
      intro hs
      refine ⟨fun hn p hp => ?_, fun r hr => ?_⟩
      · rcases List.mem_cons.1 hp with rfl | hp
        · exact hs
        · exact ih.1 hn p hp
      · obtain ⟨p, hp, h⟩ := ih.2 r hr
        exact ⟨p, List.mem_cons_of_mem _ hp, h⟩
    split
    · exact skip fun h1 h2 => by omega
    rename_i h1
    split
    · exact skip fun _ _ h3 => by omega
    rename_i h2
    have hin : m ≤ (h : Int) ∧ (h : Int) ≤ 2 * m ∧ 2 * (s.network.length : Int) ≤ (w : Int) * h := by
      refine ⟨?_, ?_, ?_⟩
      · by_contra hc; exact h1 (Or.inl (by omega))
      · by_contra hc; exact h1 (Or.inr (by omega))
      · omega
    split
    · rename_i heq
      refine ⟨fun hn => by simp at hn, fun r hr => ?_⟩
      simp only [Option.some.injEq] at hr
      exact ⟨(w, h), by simp, hin.1, hin.2.1, hin.2.2, Or.inl ⟨hr.symm, heq⟩⟩
    · rename_i heq
      refine ⟨fun hn => by simp at hn, fun r hr => ?_⟩
      simp only [Option.some.injEq] at hr
      exact ⟨(w, h), by simp, hin.1, hin.2.1, hin.2.2, Or.inr ⟨hr.symm, heq⟩⟩
    · rename_i heq
      exact skip fun _ _ _ => heq

theorem areaLoop_mono (s : Store) (ul m : Int) (r : Option Size) : ∀ (fuel area : Nat), areaLoop s ul m fuel area = some r →
    ∀ k, areaLoop s ul m (fuel + k) area = some r := by
  intro fuel
  induction fuel with
  | zero => intro w h; simp [areaLoop] at h
  | succ fuel ih =>
    intro w h k
    rw [show fuel + 1 + k = (fuel + k) + 1 by omega]
    rw [areaLoop] at h ⊢
    cases hp : areaPick s ul m (factors w) with
    | none => rw [hp] at h; exact ih _ h k
    | some r' => rw [hp] at h; exact h

theorem areaLoop_total (s : Store) (ul : Int) (m : Nat) (hm : 1 ≤ m) : ∀ (fuel area : Nat), 1 ≤ fuel → 1 ≤ area →
    area ≤ s.widthBound * m → s.widthBound * m + 1 ≤ fuel + area → ∃ r, areaLoop s ul m fuel area = some r := by
  intro fuel
  induction fuel with
  | zero => intro w h; omega
  | succ fuel ih =>
    intro area _ ha hb hw
    rw [areaLoop]
    cases hp : areaPick s ul m (factors area) with
    | some r' => exact ⟨_, rfl⟩
    | none =>
      simp only
      have hne : area ≠ s.widthBound * m := by
        intro he
        have h1 := (areaPick_spec s ul m (factors area)).1 hp (s.widthBound, m) ((mem_factors _ (by omega) _ _).2 he.symm)
          (le_refl _) (by omega)
        have h2 : 2 * (s.network.length : Int) ≤ (s.widthBound : Int) * m := by
          have : 2 * s.network.length ≤ s.widthBound * m := by
            unfold Store.widthBound
            nlinarith
          exact_mod_cast this
        exact beyond_not_false s ul m ((s.widthBound : Int) + 2) (by omega) (h1 h2)
      exact ih (area + 1) (by omega) (by omega) (by omega) (by omega)

theorem areaLoop_spec (s : Store) (ul m : Int) (r : Option Size) : ∀ (fuel a0 : Nat), areaLoop s ul m fuel a0 = some r →
    ∃ a, a0 ≤ a ∧ (∀ a', a0 ≤ a' → a' < a → areaPick s ul m (factors a') = none) ∧ areaPick s ul m (factors a) = some r := by
  intro fuel
  induction fuel with
  | zero => intro w h; simp [areaLoop] at h
  | succ fuel ih =>
    intro a0 hl
    rw [areaLoop] at hl
    cases hp : areaPick s ul m (factors a0) with
    | some r' =>
      rw [hp] at hl
      simp only [Option.some.injEq] at hl
      subst hl
      exact ⟨a0, le_refl _, fun a' h1 h2 => by omega, hp⟩
    | none =>
      rw [hp] at hl
      obtain ⟨a, h1, h2, h3⟩ := ih _ hl
      refine ⟨a, by omega, fun a' h4 h5 => ?_, h3⟩
      by_cases he : a' = a0
      · subst he; exact hp
      · exact h2 a' (by omega) h5

/-! ### `next_size` -/

theorem height_pos {n : Network} {a p b q : Int} (h : getInputOutputColours n = .ok ((a, p), (b, q))) : 1 ≤ max p q := by
  have := ((gio_iff _ _ _ _ _).1 h).pos
  omega

theorem widthBound_pos (s : Store) : 3 ≤ s.widthBound := by unfold Store.widthBound; omega

theorem nextSize_total (obj : Objective) (s : Store) (ul a p b q : Int) (h : getInputOutputColours s.network = .ok ((a, p), (b, q))) :
    ∃ r N, nextSize obj s ul = .ok r ∧ (∀ fuel, N ≤ fuel → nextSizeFuel obj s ul fuel = .ok (some r)) := by
  have hp := height_pos h
  have hw := widthBound_pos s
  set m := (max p q).toNat with hm
  have hmm : ((m : Nat) : Int) = max p q := by omega
  set N := s.widthBound * m + s.widthBound + 1 with hN
  have key : ∃ r, ∀ k, nextSizeFuel obj s ul (N + k) = .ok (some r) := by
    cases obj with
    | length =>
      obtain ⟨r, hr⟩ := lengthLoop_total s ul (max p q) hp N 3 (by omega) (by
        rw [hN]; push_cast; nlinarith)
      refine ⟨r, fun k => ?_⟩
      simp only [nextSizeFuel, h]
      rw [lengthLoop_mono _ _ _ _ _ _ hr k]
    | area =>
      have h3 : m ≤ s.widthBound * m := Nat.le_mul_of_pos_left _ (by omega)
      obtain ⟨r, hr⟩ := areaLoop_total s ul m (by omega) N m (by omega) (by omega) h3 (by
        rw [hN]; omega)
      rw [hmm] at hr
      refine ⟨r, fun k => ?_⟩
      simp only [nextSizeFuel, h]
      rw [areaLoop_mono _ _ _ _ _ _ hr k]
  obtain ⟨r, hr⟩ := key
  refine ⟨r, N, ?_, fun fuel hf => ?_⟩
  · unfold nextSize
    rw [h]
    simp only
    have := hr 0
    rw [Nat.add_zero] at this
    rw [← hm, ← hN, this]
  · obtain ⟨k, rfl⟩ := Nat.exists_eq_add_of_le hf
    exact hr k

theorem nextSize_length {s : Store} {ul a p b q : Int} (h : getInputOutputColours s.network = .ok ((a, p), (b, q)))
    {r : Option Size} (hr : nextSize .length s ul = .ok r) :
    ∃ w, 3 ≤ w ∧ (∀ w', 3 ≤ w' → w' < w → doesExist s.exist (ul, w', max p q) = some false ∨
        doesExist s.exist (ul, w', max p q) = none ∧ (w' - 2) * max p q < 2 * (s.network.length : Int)) ∧
      (r = none ∧ doesExist s.exist (ul, w, max p q) = some true ∨
        r = some (ul, w, max p q) ∧ doesExist s.exist (ul, w, max p q) = none ∧ 2 * (s.network.length : Int) ≤ (w - 2) * max p q) := by
  obtain ⟨r', N, e, hf⟩ := nextSize_total .length s ul a p b q h
  rw [hr] at e
  simp only [Except.ok.injEq] at e
  subst e
  have := hf N (le_refl _)
  simp only [nextSizeFuel, h, Except.ok.injEq] at this
  obtain ⟨w, h1, -, h2, h3⟩ := lengthLoop_spec _ _ _ _ _ _ this
  exact ⟨w, h1, h2, h3⟩

theorem nextSize_area {s : Store} {ul a p b q : Int} (h : getInputOutputColours s.network = .ok ((a, p), (b, q)))
    {r : Option Size} (hr : nextSize .area s ul = .ok r) :
    ∃ ar : Nat, max p q ≤ ar ∧
      (∀ w h' : Nat, max p q ≤ ((w * h' : Nat) : Int) → w * h' < ar → max p q ≤ (h' : Int) → (h' : Int) ≤ 2 * max p q →
        2 * (s.network.length : Int) ≤ ((w * h' : Nat) : Int) → doesExist s.exist (ul, (w : Int) + 2, (h' : Int)) = some false) ∧
      ∃ w h' : Nat, w * h' = ar ∧ max p q ≤ (h' : Int) ∧ (h' : Int) ≤ 2 * max p q ∧ 2 * (s.network.length : Int) ≤ (ar : Int) ∧
        (r = none ∧ doesExist s.exist (ul, (w : Int) + 2, (h' : Int)) = some true ∨
          r = some (ul, (w : Int) + 2, (h' : Int)) ∧ doesExist s.exist (ul, (w : Int) + 2, (h' : Int)) = none) := by
  obtain ⟨r', N, e, hf⟩ := nextSize_total .area s ul a p b q h
  rw [hr] at e
  simp only [Except.ok.injEq] at e
  subst e
  have := hf N (le_refl _)
  simp only [nextSizeFuel, h, Except.ok.injEq] at this
  have hp := height_pos h
  obtain ⟨ar, h1, h2, h3⟩ := areaLoop_spec _ _ _ _ _ _ this
  have har : 0 < ar := by omega
  refine ⟨ar, by omega, ?_, ?_⟩
  · intro w h' h4 h5 h6 h7 h8
    have h9 := h2 (w * h') (by omega) h5
    refine (areaPick_spec s ul _ _).1 h9 (w, h') ((mem_factors _ (by omega) _ _).2 rfl) h6 h7 ?_
    push_cast at h8
    exact h8
  · obtain ⟨⟨w, h'⟩, h4, h5, h6, h7, h8⟩ := (areaPick_spec s ul _ _).2 _ h3
    have h9 := (mem_factors _ har _ _).1 h4
    refine ⟨w, h', h9, h5, h6, ?_, h8⟩
    rw [← h9]
    push_cast
    exact h7

/-! ### `best_current_solution` -/

theorem pairLt_iff (a b : Int × Int) : pairLt a b = true ↔ a.1 < b.1 ∨ a.1 = b.1 ∧ a.2 < b.2 := by
  simp [pairLt]

theorem minItem_spec (key : Size → Int × Int) (l : List (Size × Json)) :
    (minItem key l = none ↔ l = []) ∧ ∀ x, minItem key l = some x → x ∈ l ∧ ∀ y ∈ l, pairLt (key y.1) (key x.1) = false := by
  cases l with
  | nil => simp [minItem]
  | cons x xs =>
    refine ⟨by simp [minItem], ?_⟩
    intro z hz
    simp only [minItem, Option.some.injEq] at hz
    subst hz
    have key1 : ∀ (xs : List (Size × Json)) (x : Size × Json), (xs.foldl (fun best y => if pairLt (key y.1) (key best.1) then y else best) x) ∈ x :: xs ∧
        ∀ y ∈ x :: xs, pairLt (key y.1)
          (key (xs.foldl (fun best y => if pairLt (key y.1) (key best.1) then y else best) x).1) = false := by
      intro xs
      induction xs with
      | nil =>
        intro x
        refine ⟨by simp, fun y hy => ?_⟩
        simp only [List.mem_singleton] at hy
        subst hy
        rw [Bool.eq_false_iff, Ne, pairLt_iff]
        simp
      | cons y ys ih =>
        intro x
        rw [List.foldl_cons]
        by_cases hlt : pairLt (key y.1) (key x.1) = true
        · rw [if_pos hlt]
          obtain ⟨h1, h2⟩ := ih y
          refine ⟨List.mem_cons_of_mem _ h1, fun z hz => ?_⟩
          rcases List.mem_cons.1 hz with rfl | hz
          · have h3 := h2 y (by simp)
            rw [Bool.eq_false_iff, Ne, pairLt_iff] at h3 ⊢
            rw [pairLt_iff] at hlt
            omega
          · exact h2 z hz
        · rw [if_neg hlt]
          obtain ⟨h1, h2⟩ := ih x
          refine ⟨?_, fun z hz => ?_⟩
          · rcases List.mem_cons.1 h1 with h1 | h1
            · rw [h1]; simp
            · exact List.mem_cons_of_mem _ (List.mem_cons_of_mem _ h1)
          · rcases List.mem_cons.1 hz with rfl | hz
            · exact h2 _ (by simp)
            rcases List.mem_cons.1 hz with rfl | hz
            · have h3 := h2 x (by simp)
              rw [Bool.eq_false_iff, Ne, pairLt_iff] at h3 ⊢
              rw [pairLt_iff] at hlt
              omega
            · exact h2 z (List.mem_cons_of_mem _ hz)
    exact key1 xs x

theorem best_spec (obj : Objective) (s : Store) (ul : Int) (o : Size) (v0 : Json) (ho : (o, v0) ∈ s.solutions) (hu : o.1 ≤ ul) :
    ∃ size v, s.best obj ul = some v ∧ (size, v) ∈ s.solutions ∧ size.1 ≤ ul ∧
      ∀ o' v', (o', v') ∈ s.solutions → o'.1 ≤ ul → pairLt (loss obj o') (loss obj size) = false := by
  unfold Store.best
  obtain ⟨h1, h2⟩ := minItem_spec (loss obj) (s.solutions.filter fun e => e.1.1 ≤ ul)
  cases hm : minItem (loss obj) (s.solutions.filter fun e => e.1.1 ≤ ul) with
  | none =>
    rw [hm] at h1
    have := h1.1 rfl
    have hmem : (o, v0) ∈ s.solutions.filter fun e => e.1.1 ≤ ul := List.mem_filter.2 ⟨ho, by simpa using hu⟩
    rw [this] at hmem
    simp at hmem
  | some x =>
    obtain ⟨h3, h4⟩ := h2 x hm
    obtain ⟨size, v⟩ := x
    have h5 := List.mem_filter.1 h3
    refine ⟨size, v, rfl, h5.1, by simpa using h5.2, fun o' v' ho' hu' => ?_⟩
    exact h4 (o', v') (List.mem_filter.2 ⟨ho', by simpa using hu'⟩)

/-! ### Recording a result -/

theorem good_step {fits : Size → Prop} {s : Store} (hg : GoodStore fits s) (hu : UpClosed fits) {size : Size}
    (hn : doesExist s.exist size = none) (sol : Option Json) (hs : sol.isSome = true ↔ fits size) :
    GoodStore fits ((s.add size sol).clean) ∧
    (∀ o, doesExist s.exist o ≠ none → doesExist ((s.add size sol).clean).exist o ≠ none) ∧
    doesExist ((s.add size sol).clean).exist size = some sol.isSome := by
  have hnew : ∀ b, (size, b) ∉ s.exist := by
    intro b hb
    rw [doesExist_none] at hn
    cases b
    · exact hn.2 ⟨size, hb, Size.LE.refl _⟩
    · exact hn.1 ⟨size, hb, Size.LE.refl _⟩
  have hv : (s.add size sol).exist.Valid := hg.valid.set _ _
  have ht : Truthful fits (s.add size sol).exist := by
    intro k b hk
    rcases (mem_set_iff hg.valid _ _ _ _).1 hk with ⟨rfl, rfl⟩ | ⟨-, h⟩
    · exact hs
    · exact hg.truthful k b h
  obtain ⟨c1, c2, c3, c4, -⟩ := clean_spec hv (ht.consistent hu)
  have htc : Truthful fits (cleanExist (s.add size sol).exist) := fun k b hk => ht k b (c2 _ hk)
  have hcc := htc.consistent hu
  have hmem : ∀ k b, (k, b) ∈ s.exist → (k, b) ∈ (s.add size sol).exist := by
    intro k b hk
    refine (mem_set_iff hg.valid _ _ _ _).2 (Or.inr ⟨?_, hk⟩)
    rintro rfl
    exact hnew b hk
  have hyes : ∀ o, KnownYes (s.add size sol).exist o → KnownYes (cleanExist (s.add size sol).exist) o := by
    rintro o ⟨k, hk, hl⟩
    exact ⟨k, c3 k hk, hl⟩
  refine ⟨⟨c1, ?_, htc, ?_, ?_⟩, ?_, ?_⟩
  · show PyDict.Valid (s.add size sol).solutions
    unfold Store.add
    cases sol with
    | none => exact hg.valid_solutions
    | some v => exact hg.valid_solutions.set _ _
  · intro k hk
    have hk' := c2 _ hk
    rcases (mem_set_iff hg.valid _ _ _ _).1 hk' with ⟨rfl, hb⟩ | ⟨hne, h⟩
    · cases sol with
      | none => simp at hb
      | some v => exact ⟨v, (mem_set_iff hg.valid_solutions _ _ _ _).2 (Or.inl ⟨rfl, rfl⟩)⟩
    · obtain ⟨v, hkv⟩ := hg.stored k h
      cases sol with
      | none => exact ⟨v, hkv⟩
      | some v' => exact ⟨v, (mem_set_iff hg.valid_solutions _ _ _ _).2 (Or.inr ⟨hne, hkv⟩)⟩
  · intro k v hk
    apply c3
    cases sol with
    | none => exact hmem _ _ (hg.solved k v hk)
    | some v' =>
      rcases (mem_set_iff hg.valid_solutions _ _ _ _).1 hk with ⟨rfl, rfl⟩ | ⟨hne, h⟩
      · exact (mem_set_iff hg.valid _ _ _ _).2 (Or.inl ⟨rfl, rfl⟩)
      · exact hmem _ _ (hg.solved k v h)
  · intro o ho
    rw [Ne, doesExist_none] at ho ⊢
    intro ⟨h1, h2⟩
    refine ho ⟨fun ⟨k, hk, hl⟩ => h1 (hyes o ⟨k, hmem _ _ hk, hl⟩), fun ⟨k, hk, hl⟩ => h2 (c4 o ⟨k, hmem _ _ hk, hl⟩)⟩
  · have hin : (size, sol.isSome) ∈ (s.add size sol).exist := (mem_set_iff hg.valid _ _ _ _).2 (Or.inl ⟨rfl, rfl⟩)
    show doesExist (cleanExist (s.add size sol).exist) size = _
    cases hb : sol.isSome with
    | true =>
      rw [hb] at hin
      exact (doesExist_eq hcc size).1.2 (hyes _ ⟨size, hin, Size.LE.refl _⟩)
    | false =>
      rw [hb] at hin
      exact (doesExist_eq hcc size).2.2 (c4 _ ⟨size, hin, Size.LE.refl _⟩)

/-! ### Histories -/

theorem event_tasks (obj : Objective) (ul : Int) (y : Sys) (ev : Nat × Option Json) (j : Nat) :
    (Sys.event obj ul y ev).tasks[j]? = if ev.1 = j then y.tasks[j]?.map (fun t => t.resume obj ul ev.2) else y.tasks[j]? := by
  unfold Sys.event
  cases ht : y.tasks[ev.1]? with
  | none =>
    by_cases h : ev.1 = j
    · subst h; simp [ht]
    · simp [h]
  | some t =>
    by_cases h : ev.1 = j
    · subst h
      simp only [ht, if_true, Option.map_some]
      cases hs : t.state with
      | waiting size =>
        simp only
        rw [List.getElem?_set_self (by have := List.getElem?_eq_some_iff.1 ht; exact this.1)]
      | done => simp only [ht, Task.resume, hs]
      | failed e => simp only [ht, Task.resume, hs]
    · simp only [h, if_false]
      cases hs : t.state with
      | waiting size => simp only [List.getElem?_set_ne h]
      | done => rfl
      | failed e => rfl

theorem run_tasks (obj : Objective) (ul : Int) (evs : List (Nat × Option Json)) : ∀ (y : Sys) (j : Nat),
    (y.run obj ul evs).tasks[j]? =
      y.tasks[j]?.map fun t => ((evs.filter fun e => e.1 = j).map Prod.snd).foldl (fun t r => t.resume obj ul r) t := by
  induction evs with
  | nil => intro y j; simp [Sys.run]
  | cons e evs ih =>
    intro y j
    show (Sys.run obj ul (Sys.event obj ul y e) evs).tasks[j]? = _
    rw [ih, event_tasks]
    by_cases h : e.1 = j
    · simp [h, Option.map_map, Function.comp_def]
    · simp [h]

theorem event_file (obj : Objective) (ul : Int) (y : Sys) (ev : Nat × Option Json) :
    Sys.event obj ul y ev = y ∨
      (Sys.event obj ul y ev).file = some (databaseOf ((Sys.event obj ul y ev).tasks.map Task.store)).dumps := by
  unfold Sys.event
  cases ht : y.tasks[ev.1]? with
  | none => exact Or.inl rfl
  | some t =>
    simp only
    cases hs : t.state with
    | waiting size => exact Or.inr rfl
    | done => exact Or.inl rfl
    | failed e => exact Or.inl rfl

theorem run_file (obj : Objective) (ul : Int) (evs : List (Nat × Option Json)) : ∀ (y : Sys),
    y.run obj ul evs = y ∨ (y.run obj ul evs).file = some (databaseOf ((y.run obj ul evs).tasks.map Task.store)).dumps := by
  induction evs with
  | nil => intro y; exact Or.inl rfl
  | cons e evs ih =>
    intro y
    have hr : y.run obj ul (e :: evs) = (Sys.event obj ul y e).run obj ul evs := rfl
    rw [hr]
    rcases ih (Sys.event obj ul y e) with h | h
    · rw [h]; exact event_file obj ul y e
    · exact Or.inr h

/-! ### Stores keep their network and name -/

@[simp] theorem add_network (s : Store) (size : Size) (v : Option Json) : (s.add size v).network = s.network := rfl
@[simp] theorem add_name (s : Store) (size : Size) (v : Option Json) : (s.add size v).name = s.name := rfl
@[simp] theorem clean_network (s : Store) : s.clean.network = s.network := rfl
@[simp] theorem clean_name (s : Store) : s.clean.name = s.name := rfl

theorem go_store (obj : Objective) (ul : Int) (s : Store) : (Task.go obj ul s).store = s := by
  unfold Task.go
  split <;> rfl

/-! ### Progress of one task -/

theorem turn_not_waiting {obj : Objective} {ul : Int} {solve : Network → Size → Option Json} {t : Task}
    (h : ∀ size, t.state ≠ .waiting size) : t.turn obj ul solve = t := by
  unfold Task.turn
  cases hs : t.state with
  | waiting size => exact absurd hs (h size)
  | done => rfl
  | failed e => rfl

theorem iterate_not_waiting {obj : Objective} {ul : Int} {solve : Network → Size → Option Json} {t : Task}
    (h : ∀ size, t.state ≠ .waiting size) (k : Nat) : (Task.turn obj ul solve)^[k] t = t := by
  induction k with
  | zero => rfl
  | succ k ih => rw [Function.iterate_succ_apply, turn_not_waiting h, ih]

theorem iterate_settled {obj : Objective} {ul : Int} {solve : Network → Size → Option Json} {t : Task} {m n : Nat}
    (hm : ∀ size, ((Task.turn obj ul solve)^[m] t).state ≠ .waiting size)
    (hn : ∀ size, ((Task.turn obj ul solve)^[n] t).state ≠ .waiting size) :
    (Task.turn obj ul solve)^[m] t = (Task.turn obj ul solve)^[n] t := by
  rcases Nat.le_total m n with h | h
  · obtain ⟨k, rfl⟩ := Nat.exists_eq_add_of_le h
    rw [Nat.add_comm m k, Function.iterate_add_apply, iterate_not_waiting hm]
  · obtain ⟨k, rfl⟩ := Nat.exists_eq_add_of_le h
    rw [Nat.add_comm n k, Function.iterate_add_apply, iterate_not_waiting hn]

theorem sys_turn (obj : Objective) (ul : Int) (solve : Network → Size → Option Json) (y : Sys) (i j : Nat) :
    (Sys.turn obj ul solve y i).tasks[j]? = if i = j then y.tasks[j]?.map (Task.turn obj ul solve) else y.tasks[j]? := by
  unfold Sys.turn
  cases ht : y.tasks[i]? with
  | none =>
    by_cases h : i = j
    · subst h; simp [ht]
    · simp [h]
  | some t =>
    simp only
    cases hs : t.state with
    | waiting size =>
      simp only
      rw [event_tasks]
      by_cases h : i = j
      · subst h
        simp [ht, Task.turn, hs]
      · simp [h]
    | done =>
      by_cases h : i = j
      · subst h; simp [ht, Task.turn, hs]
      · simp [h]
    | failed e =>
      by_cases h : i = j
      · subst h; simp [ht, Task.turn, hs]
      · simp [h]

theorem sys_turns (obj : Objective) (ul : Int) (solve : Network → Size → Option Json) (sched : List Nat) : ∀ (y : Sys) (j : Nat),
    (sched.foldl (Sys.turn obj ul solve) y).tasks[j]? = y.tasks[j]?.map (Task.turn obj ul solve)^[sched.count j] := by
  induction sched with
  | nil => intro y j; simp
  | cons i sched ih =>
    intro y j
    rw [List.foldl_cons, ih, sys_turn, List.count_cons]
    by_cases h : i = j
    · subst h
      simp only [if_true, Option.map_map, beq_self_eq_true]
      rw [Function.iterate_succ]
    · simp [h]

/-! ### The database -/

theorem okPairs_iff (l : List (List Char × Json)) : Json.OkPairs l ↔ ∀ e ∈ l, e.2.Ok := by
  induction l with
  | nil => simp [Json.OkPairs]
  | cons e l ih =>
    obtain ⟨k, v⟩ := e
    simp [Json.OkPairs, Json.OkPair, ih]

theorem databaseOf_eq (stores : List Store) (h : (stores.map Store.name).Nodup) :
    databaseOf stores = .obj (stores.map fun s => (s.name, s.toJson)) := by
  unfold databaseOf
  rw [PyDict.ofPairs_valid]
  unfold PyDict.Valid
  rw [List.map_map]
  exact h

theorem ok_toJson (s : Store) (h : s.exist.Valid ∧ s.solutions.Valid) (ho : ∀ e ∈ s.solutions, e.2.Ok) : s.toJson.Ok := by
  have e1 : PyDict.ofPairs (s.exist.map fun e => (keyText e.1, Json.bool e.2)) = s.exist.map fun e => (keyText e.1, Json.bool e.2) :=
    PyDict.ofPairs_valid _ (valid_keyText _ h.1 _)
  have e2 : PyDict.ofPairs (s.solutions.map fun e => (keyText e.1, e.2)) = s.solutions.map fun e => (keyText e.1, e.2) :=
    PyDict.ofPairs_valid _ (valid_keyText _ h.2 id)
  unfold Store.toJson
  rw [e1, e2]
  simp only [Json.Ok, Json.OkPairs, Json.OkPair, and_true]
  refine ⟨by simp only [List.map_cons, List.map_nil]; decide, ⟨valid_keyText _ h.1 _, ?_⟩, ⟨valid_keyText _ h.2 id, ?_⟩⟩
  · rw [okPairs_iff]
    intro e he
    obtain ⟨x, -, rfl⟩ := List.mem_map.1 he
    simp [Json.Ok]
  · rw [okPairs_iff]
    intro e he
    obtain ⟨x, hx, rfl⟩ := List.mem_map.1 he
    exact ho x hx

theorem ok_database {stores : List Store} (h : Saveable stores) : (databaseOf stores).Ok := by
  rw [databaseOf_eq _ h.names]
  simp only [Json.Ok]
  refine ⟨by rw [List.map_map]; exact h.names, ?_⟩
  rw [okPairs_iff]
  intro e he
  obtain ⟨s, hs, rfl⟩ := List.mem_map.1 he
  exact ok_toJson s (h.valid s hs) (h.ok s hs)

theorem readStores_database {stores : List Store} (h : Saveable stores) (l : List Store) (hl : ∀ s ∈ l, s ∈ stores) :
    readStores (databaseOf stores) (l.map Store.blank) = .ok l := by
  rw [databaseOf_eq _ h.names]
  induction l with
  | nil => rfl
  | cons s l ih =>
    have hs := hl s (by simp)
    have hget : PyDict.get (stores.map fun s => (s.name, s.toJson)) s.name = some s.toJson := by
      apply PyDict.get_of_mem
      · unfold PyDict.Valid; rw [List.map_map]; exact h.names
      · exact List.mem_map.2 ⟨s, hs, rfl⟩
    have hr := fromJson_toJson s s.blank (h.valid s hs).1 (h.valid s hs).2
    have hi := ih (fun x hx => hl x (List.mem_cons_of_mem _ hx))
    rw [List.map_cons, readStores]
    rw [show (Store.blank s).name = s.name from rfl, hget]
    have hnn : s.toJson ≠ .null := by unfold Store.toJson; simp
    cases hj : s.toJson with
    | null => exact absurd hj hnn
    | obj o => rw [hj] at hr; simp only [hr, hi]; rfl
    | bool b => rw [hj] at hr; simp only [hr, hi]; rfl
    | int b => rw [hj] at hr; simp only [hr, hi]; rfl
    | half b => rw [hj] at hr; simp only [hr, hi]; rfl
    | str b => rw [hj] at hr; simp only [hr, hi]; rfl
    | arr b => rw [hj] at hr; simp only [hr, hi]; rfl

theorem startUp_database {stores : List Store} (h : Saveable stores) :
    startUp (some (databaseOf stores).dumps) (stores.map Store.blank) = .ok stores := by
  unfold startUp
  simp only
  rw [Json.loads_dumps _ (ok_database h)]
  exact readStores_database h stores fun _ h => h

theorem startUp_prefix {stores : List Store} (h : Saveable stores) (k : Nat) (hk : k < (databaseOf stores).dumps.length) (l : List Store) :
    startUp (some ((databaseOf stores).dumps.take k)) l = .error .jsonDecode := by
  have hok := ok_database h
  unfold startUp
  simp only
  rw [databaseOf_eq _ h.names] at *
  rw [Json.loads_prefix _ hok _ ((Json.dumps (.obj (stores.map fun s => (s.name, s.toJson)))).drop k) (List.take_append_drop _ _)]
  intro he
  have := List.drop_eq_nil_iff.1 he
  omega

/-- How many sizes of a list are undecided. -/
def undecided (d : PyDict Size Bool) (fam : List Size) : Nat := fam.countP fun s => doesExist d s = none

theorem undecided_lt {d d' : PyDict Size Bool} {fam : List Size} (hk : ∀ o, doesExist d o ≠ none → doesExist d' o ≠ none) {size : Size}
    (hs : size ∈ fam) (h : doesExist d size = none) (h' : doesExist d' size ≠ none) : undecided d' fam < undecided d fam := by
  unfold undecided
  have hle : ∀ fam : List Size, fam.countP (fun s => doesExist d' s = none) ≤ fam.countP (fun s => doesExist d s = none) := by
    intro fam
    apply List.countP_mono_left
    intro o _ ho
    simp only [decide_eq_true_eq] at ho ⊢
    by_contra hc
    exact hk o hc ho
  induction fam with
  | nil => simp at hs
  | cons x xs ih =>
    rw [List.countP_cons, List.countP_cons]
    rcases List.mem_cons.1 hs with rfl | hs
    · have := hle xs
      simp only [h, h', decide_true, decide_false, if_true]
      simp
      omega
    · have := ih hs
      by_cases hd : doesExist d' x = none
      · have hd0 : doesExist d x = none := by
          by_contra hc
          exact hk x hc hd
        simp only [hd, hd0]
        omega
      · simp only [hd, decide_false]
        simp only [Bool.false_eq_true, if_false]
        omega

/-- A task that only asks for undecided sizes of a finite family ends after at most as many solver runs as the family has undecided
sizes. -/
theorem task_ends {fits : Size → Prop} (hu : UpClosed fits) (obj : Objective) (ul : Int) (solve : Network → Size → Option Json)
    (fam : List Size) (n : Network) (hsolve : ∀ size, (solve n size).isSome = true ↔ fits size)
    (hask : ∀ s : Store, s.network = n → GoodStore fits s → ∃ r, nextSize obj s ul = .ok r ∧
      ∀ size, r = some size → doesExist s.exist size = none ∧ size ∈ fam) :
    ∀ (k : Nat) (s : Store), s.network = n → GoodStore fits s → undecided s.exist fam ≤ k →
      ∃ s', (Task.turn obj ul solve)^[k] (Task.go obj ul s) = ⟨s', .done⟩ ∧ s'.network = n ∧ s'.name = s.name ∧ GoodStore fits s' ∧
        nextSize obj s' ul = .ok none := by
  intro k
  induction k with
  | zero =>
    intro s hn hg hk
    obtain ⟨r, hr, hr'⟩ := hask s hn hg
    cases r with
    | none => exact ⟨s, by simp [Task.go, hr], hn, rfl, hg, hr⟩
    | some size =>
      obtain ⟨h1, h2⟩ := hr' size rfl
      have : 0 < undecided s.exist fam := List.countP_pos_iff.2 ⟨size, h2, by simpa using h1⟩
      omega
  | succ k ih =>
    intro s hn hg hk
    obtain ⟨r, hr, hr'⟩ := hask s hn hg
    cases r with
    | none =>
      have hgo : Task.go obj ul s = ⟨s, .done⟩ := by simp [Task.go, hr]
      refine ⟨s, ?_, hn, rfl, hg, hr⟩
      rw [hgo, iterate_not_waiting (fun size => by simp)]
    | some size =>
      obtain ⟨h1, h2⟩ := hr' size rfl
      obtain ⟨g1, g2, g3⟩ := good_step hg hu h1 (solve n size) (hsolve size)
      have hlt := undecided_lt (fam := fam) g2 h2 h1 (by rw [g3]; simp)
      have hgo : Task.go obj ul s = ⟨s, .waiting size⟩ := by simp [Task.go, hr]
      obtain ⟨s', e1, e2, e3, e4, e5⟩ := ih _ (by simp [hn]) g1 (by omega)
      refine ⟨s', ?_, e2, by simpa using e3, e4, e5⟩
      rw [hgo, Function.iterate_succ_apply]
      have ht : Task.turn obj ul solve ⟨s, .waiting size⟩ = Task.go obj ul ((s.add size (solve n size)).clean) := by
        simp only [Task.turn, Task.resume, hn]
      rw [ht, e1]

end FSat
