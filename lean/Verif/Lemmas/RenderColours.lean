import Verif.Lemmas.Render
import Mathlib.Tactic.NormNum
import Mathlib.Tactic.Ring
import Mathlib.Tactic.Positivity
import Mathlib.Data.List.Dedup
import Mathlib.Data.Rat.Floor
import Mathlib.Algebra.Order.Round
/-!
# Lemmas about the colours of render.py
-/

namespace FSat

/-- The six sides of the ring of colours, for a hue `h / 6`. -/
def hueRing (h : Rat) : Rgb :=
  if h > 5 then (1, 3/5, 3/5 + 2/5 * (6 - h)) else if h > 4 then (3/5 + 2/5 * (h - 4), 3/5, 1)
  else if h > 3 then (3/5, 3/5 + 2/5 * (4 - h), 1) else if h > 2 then (3/5, 1, 3/5 + 2/5 * (h - 2))
  else if h > 1 then (3/5 + 2/5 * (2 - h), 1, 3/5) else (1, 3/5 + 2/5 * h, 3/5)

theorem hsv_ring {q : Rat} (h0 : 0 ≤ q) (h1 : q < 1) : hsvToRgb q (2/5) 1 = hueRing (q * 6) := by
  have hf : q.floor = 0 := by
    change ⌊q⌋ = 0; rw [Int.floor_eq_iff]; exact ⟨by simpa using h0, by simpa using h1⟩
  have hh : (q - (q.floor : Int)) * 6 = q * 6 := by rw [hf]; simp
  unfold hsvToRgb
  simp only [hh]
  generalize hq : q * 6 = h
  have b0 : 0 ≤ h := by linarith
  have b1 : h < 6 := by linarith
  have fl : ∀ n : Int, (n : Rat) ≤ h / 2 → h / 2 < n + 1 → (h / 2).floor = n := fun n h1 h2 => by
    change ⌊h / 2⌋ = n; rw [Int.floor_eq_iff]; exact ⟨h1, h2⟩
  unfold hueRing
  by_cases c5 : h > 5
  · rw [fl 2 (by push_cast; linarith) (by push_cast; linarith), if_pos c5, if_pos c5]
    rw [abs_of_nonneg (by push_cast; linarith)]
    refine Prod.ext ?_ (Prod.ext ?_ ?_) <;> push_cast <;> ring_nf
  · rw [if_neg c5, if_neg c5]
    by_cases c4 : h > 4
    · rw [fl 2 (by push_cast; linarith) (by push_cast; linarith), if_pos c4, if_pos c4]
      rw [abs_of_nonpos (by push_cast; linarith)]
      refine Prod.ext ?_ (Prod.ext ?_ ?_) <;> push_cast <;> ring_nf
    · rw [if_neg c4, if_neg c4]
      by_cases c3 : h > 3
      · rw [if_pos c3, if_pos c3]
        by_cases e : h = 4
        · rw [fl 2 (by push_cast; linarith) (by push_cast; linarith), abs_of_nonpos (by push_cast; linarith)]
          subst e
          refine Prod.ext ?_ (Prod.ext ?_ ?_) <;> push_cast <;> norm_num
        · have : h < 4 := lt_of_le_of_ne (not_lt.1 c4) e
          rw [fl 1 (by push_cast; linarith) (by push_cast; linarith), abs_of_nonneg (by push_cast; linarith)]
          refine Prod.ext ?_ (Prod.ext ?_ ?_) <;> push_cast <;> ring_nf
      · rw [if_neg c3, if_neg c3]
        by_cases c2 : h > 2
        · rw [if_pos c2, if_pos c2, fl 1 (by push_cast; linarith) (by push_cast; linarith), abs_of_nonpos (by push_cast; linarith)]
          refine Prod.ext ?_ (Prod.ext ?_ ?_) <;> push_cast <;> ring_nf
        · rw [if_neg c2, if_neg c2]
          by_cases c1 : h > 1
          · rw [if_pos c1, if_pos c1]
            by_cases e : h = 2
            · rw [fl 1 (by push_cast; linarith) (by push_cast; linarith), abs_of_nonpos (by push_cast; linarith)]
              subst e
              refine Prod.ext ?_ (Prod.ext ?_ ?_) <;> push_cast <;> norm_num
            · have : h < 2 := lt_of_le_of_ne (not_lt.1 c2) e
              rw [fl 0 (by push_cast; linarith) (by push_cast; linarith), abs_of_nonneg (by push_cast; linarith)]
              refine Prod.ext ?_ (Prod.ext ?_ ?_) <;> push_cast <;> ring_nf
          · rw [if_neg c1, if_neg c1, fl 0 (by push_cast; linarith) (by push_cast; linarith), abs_of_nonpos (by push_cast; linarith)]
            refine Prod.ext ?_ (Prod.ext ?_ ?_) <;> push_cast <;> ring_nf

theorem ring_inj {a b : Rat} (_ : 0 ≤ a) (a6 : a < 6) (_ : 0 ≤ b) (b6 : b < 6) (h : hueRing a = hueRing b) : a = b := by
  unfold hueRing at h
  split at h <;> (try split at h) <;> (try split at h) <;> (try split at h) <;> (try split at h) <;> (try split at h) <;>
    (try split at h) <;> (try split at h) <;> (try split at h) <;> (try split at h) <;>
    (simp only [Prod.mk.injEq] at h; obtain ⟨h1, h2, h3⟩ := h; linarith)

theorem ring_ne_grey (a : Rat) : hueRing a ≠ grey := by
  unfold hueRing grey
  split
  · intro h; simp only [Prod.mk.injEq] at h; norm_num at h
  · split
    · intro h; simp only [Prod.mk.injEq] at h; norm_num at h
    · split
      · intro h; simp only [Prod.mk.injEq] at h; norm_num at h
      · split
        · intro h; simp only [Prod.mk.injEq] at h; norm_num at h
        · split
          · intro h; simp only [Prod.mk.injEq] at h; norm_num at h
          · intro h; simp only [Prod.mk.injEq] at h; norm_num at h

theorem createPalette_length (n : Nat) : (createPalette n).length = n := by
  unfold createPalette
  split
  · rename_i h; simp [h]
  · split
    · simp; omega
    · simp

theorem createPalette_nodup (n : Nat) : (createPalette n).Nodup := by
  unfold createPalette
  split
  · simp
  · split
    · refine List.Nodup.sublist (List.take_sublist _ _) ?_
      decide +kernel
    · rename_i h1 h2
      have hn : (0 : Rat) < n := by exact_mod_cast (by omega : 0 < n)
      refine List.Nodup.map_on ?_ List.nodup_range
      intro i hi j hj h
      rw [List.mem_range] at hi hj
      have bnd : ∀ k, k < n → (0 : Rat) ≤ (k : Rat) / n ∧ (k : Rat) / n < 1 := fun k hk =>
        ⟨by positivity, by rw [div_lt_one hn]; exact_mod_cast hk⟩
      rw [hsv_ring (bnd i hi).1 (bnd i hi).2, hsv_ring (bnd j hj).1 (bnd j hj).2] at h
      have := ring_inj (by linarith [(bnd i hi).1]) (by linarith [(bnd i hi).2]) (by linarith [(bnd j hj).1])
        (by linarith [(bnd j hj).2]) h
      have : (i : Rat) / n = (j : Rat) / n := by linarith
      rw [div_left_inj' hn.ne'] at this
      exact_mod_cast this

theorem createPalette_grey (n : Nat) : grey ∉ createPalette n := by
  unfold createPalette
  split
  · decide +kernel
  · split
    · intro h
      have := List.mem_of_mem_take h
      revert this
      decide +kernel
    · intro h
      obtain ⟨i, hi, h⟩ := List.mem_map.1 h
      rw [List.mem_range] at hi
      have hn : (0 : Rat) < n := by exact_mod_cast (by omega : 0 < n)
      rw [hsv_ring (by positivity) (by rw [div_lt_one hn]; exact_mod_cast hi)] at h
      exact ring_ne_grey _ h

theorem allColours_nodup (s : Picture) : (allColours s).Nodup :=
  (List.perm_insertionSort _ _).nodup_iff.2 (List.nodup_dedup _)

theorem mem_allColours {s : Picture} {c : Int} : c ∈ allColours s ↔
    ∃ r ∈ s, ∃ i ∈ r, some c ∈ i.colour.all ∨ some c ∈ i.colourUx.all ∨ some c ∈ i.colourUy.all := by
  unfold allColours
  rw [(List.perm_insertionSort _ _).mem_iff, List.mem_dedup]
  simp only [List.mem_filterMap, id, List.mem_flatMap, List.mem_flatten, List.mem_append, exists_eq_right]
  constructor
  · rintro ⟨i, ⟨r, hr, hi⟩, h⟩; exact ⟨r, hr, i, hi, by tauto⟩
  · rintro ⟨r, hr, i, hi, h⟩; exact ⟨i, ⟨r, hr, hi⟩, by tauto⟩

theorem shown_all {v : ColourVal} {c : Int} (h : v.shown = .ok (some c)) : some c ∈ v.all := by
  cases v with
  | absent => simp only [ColourVal.shown, Except.ok.injEq] at h; rw [← h]; exact .head _
  | null => simp [ColourVal.shown] at h
  | one c' => simp only [ColourVal.shown, Except.ok.injEq] at h; rw [← h]; exact .head _
  | many l =>
    simp only [ColourVal.shown, pyIndex] at h
    split at h
    · rename_i a ha; cases h; exact List.mem_of_getElem? ha
    · cases h

theorem shown_used {s : Picture} {x y : Nat} {i : Item} (hi : s.at x y = some i) {w : Drawing} {c : Int}
    (h : (i.colourOf w).shown = .ok (some c)) : c ∈ allColours s := by
  obtain ⟨r, hr, hi⟩ := at_mem hi
  refine mem_allColours.2 ⟨r, hr, i, hi, ?_⟩
  have := shown_all h
  unfold Item.colourOf at this
  split at this <;> tauto

/-- Looking up the key of place `k`. -/
theorem zip_find {l : List Int} (hn : l.Nodup) {P : List Rgb} (hP : P.length = l.length) {k : Nat} (hk : k < l.length) :
    (l.zip P).find? (fun e => e.1 == l[k]) = some (l[k], P[k]'(by omega)) := by
  rw [List.find?_eq_some_iff_getElem]
  refine ⟨by simp, k, by simp [hP, hk], by simp, ?_⟩
  intro j hj
  simp only [List.getElem_zip, beq_iff_eq, Bool.not_eq_true', beq_eq_false_iff_ne]
  intro h
  have := (hn.getElem_inj_iff).1 h
  omega

/-- The colours without `--colour-count`. -/
theorem palette_none (s : Picture) : ∃ f, palette s none = .ok f ∧ (∀ c ∈ allColours s, ∃ rgb, f c = .ok rgb ∧ rgb ≠ grey) ∧
    ∀ c ∈ allColours s, ∀ c' ∈ allColours s, f c = f c' → c = c' := by
  refine ⟨_, rfl, ?_, ?_⟩
  · intro c hc
    obtain ⟨k, hk, rfl⟩ := List.getElem_of_mem hc
    rw [zip_find (allColours_nodup s) (createPalette_length _) hk]
    refine ⟨_, rfl, fun h => createPalette_grey (allColours s).length ?_⟩
    rw [← h]; exact List.getElem_mem _
  · intro c hc c' hc' h
    obtain ⟨k, hk, rfl⟩ := List.getElem_of_mem hc
    obtain ⟨k', hk', rfl⟩ := List.getElem_of_mem hc'
    rw [zip_find (allColours_nodup s) (createPalette_length _) hk, zip_find (allColours_nodup s) (createPalette_length _) hk'] at h
    simp only [Except.ok.injEq] at h
    have := ((createPalette_nodup _).getElem_inj_iff).1 h
    subst this
    rfl

/-- The colours with `--colour-count`, for numbers below it. -/
theorem palette_some {s : Picture} {n : Int} {f : Int → Except PyErr Rgb} (h : palette s (some n) = .ok f) :
    (∀ c, 0 ≤ c → c < n → ∃ rgb, f c = .ok rgb ∧ rgb ≠ grey) ∧
    (∀ c c', 0 ≤ c → c < n → 0 ≤ c' → c' < n → f c = f c' → c = c') ∧ (∀ c, n ≤ c → f c = .error .indexError) ∧
    ∀ c, c < -n → f c = .error .indexError := by
  simp only [palette] at h
  split at h
  · rename_i hlen
    cases h
    have hn : 0 ≤ n := le_trans (Int.natCast_nonneg _) hlen
    have idx : ∀ c : Int, 0 ≤ c → c < n → ∃ hk : c.toNat < (createPalette n.toNat).length,
        pyIndex (createPalette n.toNat) c.toNat = .ok ((createPalette n.toNat)[c.toNat]) := fun c h0 h1 => by
      have hk : c.toNat < (createPalette n.toNat).length := by rw [createPalette_length]; omega
      exact ⟨hk, by simp [pyIndex, hk]⟩
    refine ⟨?_, ?_, ?_, ?_⟩
    · intro c h0 h1
      obtain ⟨hk, e⟩ := idx c h0 h1
      refine ⟨_, by simp only [h0, if_true]; exact e, fun h => createPalette_grey n.toNat ?_⟩
      rw [← h]; exact List.getElem_mem _
    · intro c c' h0 h1 h0' h1' h
      obtain ⟨hk, e⟩ := idx c h0 h1
      obtain ⟨hk', e'⟩ := idx c' h0' h1'
      simp only [h0, h0', if_true, e, e', Except.ok.injEq] at h
      have := ((createPalette_nodup _).getElem_inj_iff).1 h
      omega
    · intro c hc
      have : ¬ c.toNat < (createPalette n.toNat).length := by rw [createPalette_length]; omega
      simp [pyIndex, this, le_trans hn hc]
    · intro c hc
      have h1 : ¬ 0 ≤ c := by omega
      have h2 : ¬ -n ≤ c := by omega
      simp only [h1, h2, if_false]
  · cases h

end FSat
