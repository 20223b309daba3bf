import Verif.Spec.Loop
import Mathlib.Dynamics.PeriodicPts.Lemmas
import Mathlib.SetTheory.Cardinal.Finite
/-!
A permutation of finitely many cells all of which come to one cell is a single loop.
-/

namespace FSat

open Function

/-- If the cells are numbered, with zero at `start` only, and a step adds one unless it goes to `start`, all cells come to `start`. -/
theorem reaches_start {α : Type} {f : α → α} {start : α} {c : α → Nat} {m : Nat} (hc : ∀ p, c p < m) (h0 : ∀ p, c p = 0 → p = start)
    (hs : ∀ p, f p ≠ start → c (f p) = (c p + 1) % m) (p : α) : ∃ k, f^[k] p = start := by
  generalize hn : m - c p = n
  induction n using Nat.strong_induction_on generalizing p with
  | _ n ih =>
    by_cases h : f p = start
    · exact ⟨1, h⟩
    · have h1 := hs p h
      have h2 : c p + 1 < m := by
        by_contra hge
        have h3 : c p + 1 = m := by have := hc p; omega
        rw [h3, Nat.mod_self] at h1
        exact h (h0 _ h1)
      rw [Nat.mod_eq_of_lt h2] at h1
      obtain ⟨k, hk⟩ := ih (m - c (f p)) (by omega) (f p) rfl
      exact ⟨k + 1, hk⟩

theorem tour_of_reach {α : Type} [Finite α] {f : α → α} (hf : Injective f) {start : α} (hr : ∀ p, ∃ k, f^[k] p = start) :
    ∃ n, Nat.card α = n ∧ f^[n] start = start ∧ ∀ p, ∃ i, i < n ∧ f^[i] start = p ∧ ∀ j, j < n → f^[j] start = p → j = i := by
  have hper : ∀ p, p ∈ periodicPts f := fun p => hf.mem_periodicPts p
  have hpos : 0 < minimalPeriod f start := minimalPeriod_pos_of_mem_periodicPts (hper start)
  have hsur : ∀ p, ∃ i, i < minimalPeriod f start ∧ f^[i] start = p := by
    intro p
    obtain ⟨k, hk⟩ := hr p
    have hm : 0 < minimalPeriod f p := minimalPeriod_pos_of_mem_periodicPts (hper p)
    have hle : k ≤ minimalPeriod f p * k := Nat.le_mul_of_pos_left k hm
    have h1 : f^[minimalPeriod f p * k - k] start = p := by
      rw [← hk, ← iterate_add_apply, Nat.sub_add_cancel hle, Nat.mul_comm]
      exact (isPeriodicPt_minimalPeriod f p).const_mul k
    refine ⟨(minimalPeriod f p * k - k) % minimalPeriod f start, Nat.mod_lt _ hpos, ?_⟩
    rw [iterate_mod_minimalPeriod_eq, h1]
  have hinj : ∀ i j, i < minimalPeriod f start → j < minimalPeriod f start → f^[i] start = f^[j] start → i = j := fun i j hi hj h =>
    iterate_injOn_Iio_minimalPeriod hi hj h
  refine ⟨minimalPeriod f start, ?_, isPeriodicPt_minimalPeriod f start, fun p => ?_⟩
  · have : Bijective fun i : Fin (minimalPeriod f start) => f^[i] start :=
      ⟨fun i j h => Fin.ext (hinj i j i.2 j.2 h), fun p => by
        obtain ⟨i, hi, h⟩ := hsur p
        exact ⟨⟨i, hi⟩, h⟩⟩
    rw [← Nat.card_eq_of_bijective _ this, Nat.card_fin]
  · obtain ⟨i, hi, h⟩ := hsur p
    exact ⟨i, hi, h, fun j hj h' => hinj j i hj hi (h'.trans h.symm)⟩

/-- The two together, for cells that are numbered. -/
theorem SingleLoop.of_numbers {P : Type} {In : P → Prop} {step : P → P → Prop} {start : P} (cells : List P) (hnd : cells.Nodup)
    (hcells : ∀ p, p ∈ cells ↔ In p) (hstart : In start) (hnext : ∀ p, In p → ∃ q, In q ∧ step p q ∧ ∀ q', step p q' → q' = q)
    (hprev : ∀ p p' q, In p → In p' → step p q → step p' q → p = p') {c : P → Nat} {m : Nat} (hc : ∀ p, In p → c p < m)
    (h0 : ∀ p, In p → c p = 0 → p = start) (hs : ∀ p q, In p → step p q → q ≠ start → c q = (c p + 1) % m) :
    SingleLoop In step start cells.length := by
  refine ⟨hnext, ?_⟩
  choose f hf1 hf2 hf3 using hnext
  let F : {p // In p} → {p // In p} := fun p => ⟨f p.1 p.2, hf1 p.1 p.2⟩
  have hcard : Nat.card {p // In p} = cells.length := by
    have : Bijective fun i : Fin cells.length => (⟨cells.get i, (hcells _).1 (cells.get_mem i)⟩ : {p // In p}) := by
      refine ⟨fun i j h => ?_, fun ⟨p, hp⟩ => ?_⟩
      · exact hnd.injective_get (congrArg Subtype.val h)
      · obtain ⟨i, hi⟩ := List.mem_iff_get.1 ((hcells p).2 hp)
        exact ⟨i, Subtype.ext hi⟩
    rw [← Nat.card_eq_of_bijective _ this, Nat.card_fin]
  have hfin : Finite {p // In p} := Finite.of_surjective
    (fun i : Fin cells.length => (⟨cells.get i, (hcells _).1 (cells.get_mem i)⟩ : {p // In p})) fun ⟨p, hp⟩ => by
      obtain ⟨i, hi⟩ := List.mem_iff_get.1 ((hcells p).2 hp)
      exact ⟨i, Subtype.ext hi⟩
  have hF : Injective F := fun p q h => by
    have h' : f p.1 p.2 = f q.1 q.2 := congrArg Subtype.val h
    exact Subtype.ext (hprev p.1 q.1 _ p.2 q.2 (hf2 p.1 p.2) (h' ▸ hf2 q.1 q.2))
  obtain ⟨n, h1, h2, h3⟩ := tour_of_reach hF (start := ⟨start, hstart⟩) (reaches_start (c := fun p => c p.1) (m := m) (fun p => hc p.1 p.2)
    (fun p h => Subtype.ext (h0 p.1 p.2 h)) fun p h => hs p.1 _ p.2 (hf2 p.1 p.2) fun he => h (Subtype.ext he))
  rw [← hcard, h1]
  refine ⟨fun i => (F^[i] ⟨start, hstart⟩).1, rfl, congrArg Subtype.val h2, fun i => ?_, fun i => (F^[i] _).2, fun p hp => ?_⟩
  · show step _ (F^[i + 1] _).1
    rw [iterate_succ_apply']
    exact hf2 _ _
  · obtain ⟨i, hi, h4, h5⟩ := h3 ⟨p, hp⟩
    exact ⟨i, hi, congrArg Subtype.val h4, fun j hj h6 => h5 j hj (Subtype.ext h6)⟩

end FSat
