import Verif.Lemmas.NetworkNorm
import Mathlib.Data.Set.Card
/-!
# Counting the colours of a network (C37, C38)
-/

namespace FSat

/-- Some splitter takes this colour. -/
def TakenIn (n : Network) (c : Int) : Prop := ∃ k ∈ n, k.1.1 = some c ∨ k.1.2 = some c

/-- Some splitter gives out this colour. -/
def GivenOut (n : Network) (c : Int) : Prop := ∃ k ∈ n, k.2.1 = some c ∨ k.2.2 = some c

theorem takenIn_iff {n : Network} {c : Int} : TakenIn n c ↔ some c ∈ insOf n := by
  simp only [TakenIn, insOf, List.mem_flatMap, List.mem_cons, List.not_mem_nil, or_false, eq_comm (a := some c)]

theorem givenOut_iff {n : Network} {c : Int} : GivenOut n c ↔ some c ∈ outsOf n := by
  simp only [GivenOut, outsOf, List.mem_flatMap, List.mem_cons, List.not_mem_nil, or_false, eq_comm (a := some c)]

/-- The length of a list of different colours is the number of colours in it. -/
theorem length_eq_ncard {l : List Colour} (h : l.Nodup) (hn : none ∉ l) {S : Set Int} (hS : ∀ c, c ∈ S ↔ some c ∈ l) :
    l.length = S.ncard := by
  have e : ((l.toFinset : Finset Colour) : Set Colour) = some '' S := by
    ext c
    cases c with
    | none => simp [hn]
    | some c => simp [hS]
  rw [← List.toFinset_card_of_nodup h, ← Set.ncard_coe_finset, e, Set.ncard_image_of_injective _ (Option.some_injective _)]

/-- C37: the size of a network is the number of colours that are only taken in, and the number of those that are only given out; and flipping
exchanges the two. -/
theorem c37_size (n : Network) :
    calculateNetworkSize n = ({c | TakenIn n c ∧ ¬ GivenOut n c}.ncard, {c | GivenOut n c ∧ ¬ TakenIn n c}.ncard) ∧
    calculateNetworkSize (flipNetwork n) = (calculateNetworkSize n).swap := by
  have h : ∀ n, calculateNetworkSize n = ({c | TakenIn n c ∧ ¬ GivenOut n c}.ncard, {c | GivenOut n c ∧ ¬ TakenIn n c}.ncard) := by
    intro n
    unfold calculateNetworkSize getExteriorColours
    refine Prod.ext ?_ ?_
    · refine length_eq_ncard ((nodup_colourSet _).filter _) (by simp [mem_colourSet]) fun c => ?_
      simp [takenIn_iff, givenOut_iff, mem_colourSet]
    · refine length_eq_ncard ((nodup_colourSet _).filter _) (by simp [mem_colourSet]) fun c => ?_
      simp [takenIn_iff, givenOut_iff, mem_colourSet]
  refine ⟨h n, ?_⟩
  have e1 : ∀ c, TakenIn (flipNetwork n) c ↔ GivenOut n c := by
    intro c; simp only [TakenIn, GivenOut, flipNetwork, List.mem_map]; constructor
    · rintro ⟨k, ⟨k', hk, rfl⟩, h⟩; exact ⟨k', hk, by simpa [or_comm] using h⟩
    · rintro ⟨k, hk, h⟩; exact ⟨_, ⟨k, hk, rfl⟩, by simpa [or_comm] using h⟩
  have e2 : ∀ c, GivenOut (flipNetwork n) c ↔ TakenIn n c := by
    intro c; simp only [TakenIn, GivenOut, flipNetwork, List.mem_map]; constructor
    · rintro ⟨k, ⟨k', hk, rfl⟩, h⟩; exact ⟨k', hk, by simpa [or_comm] using h⟩
    · rintro ⟨k, hk, h⟩; exact ⟨_, ⟨k, hk, rfl⟩, by simpa [or_comm] using h⟩
  rw [h, h]
  simp only [e1, e2, Prod.swap]

/-- C38: the number of colours of a network, and it stays the same when the colours are renamed to `0`, `1`, ... -/
theorem c38_colours (n : Network) :
    calculateTotalColours n = {c | TakenIn n c ∨ GivenOut n c}.ncard ∧
    ∀ (ord : List Colour → List Colour) (_ : SetOrder ord) m, fixColours ord n = .ok m → calculateTotalColours m = calculateTotalColours n := by
  have h : ∀ n, calculateTotalColours n = {c | TakenIn n c ∨ GivenOut n c}.ncard := by
    intro n
    refine length_eq_ncard (nodup_colourSet _) (by simp [mem_colourSet]) fun c => ?_
    simp [takenIn_iff, givenOut_iff, mem_colourSet]
  refine ⟨h n, fun ord hord m hm => ?_⟩
  obtain ⟨f, total, e, hinj, -⟩ := fixColours_spec ord hord n
  obtain rfl : rename f n = m := Except.ok.inj (e.symm.trans hm)
  have e1 : {c | TakenIn (rename f n) c ∨ GivenOut (rename f n) c} = f '' {c | TakenIn n c ∨ GivenOut n c} := by
    ext c
    simp only [TakenIn, GivenOut, rename, List.mem_map, Set.mem_image, Set.mem_ofPred_eq]
    constructor
    · rintro (⟨k, ⟨k', hk, rfl⟩, h⟩ | ⟨k, ⟨k', hk, rfl⟩, h⟩) <;> simp only [Option.map_eq_some_iff] at h
      · rcases h with ⟨x, hx, rfl⟩ | ⟨x, hx, rfl⟩
        · exact ⟨x, .inl ⟨k', hk, .inl hx⟩, rfl⟩
        · exact ⟨x, .inl ⟨k', hk, .inr hx⟩, rfl⟩
      · rcases h with ⟨x, hx, rfl⟩ | ⟨x, hx, rfl⟩
        · exact ⟨x, .inr ⟨k', hk, .inl hx⟩, rfl⟩
        · exact ⟨x, .inr ⟨k', hk, .inr hx⟩, rfl⟩
    · rintro ⟨x, (⟨k, hk, h⟩ | ⟨k, hk, h⟩), rfl⟩
      · exact .inl ⟨_, ⟨k, hk, rfl⟩, by rcases h with h | h <;> simp [h]⟩
      · exact .inr ⟨_, ⟨k, hk, rfl⟩, by rcases h with h | h <;> simp [h]⟩
  rw [h, h, e1]
  refine Set.ncard_image_of_injOn fun c hc d hd => hinj c d ?_ ?_
  · rw [List.mem_append]; exact hc.imp takenIn_iff.1 givenOut_iff.1
  · rw [List.mem_append]; exact hd.imp takenIn_iff.1 givenOut_iff.1

/-- A splitter that feeds another one: two colours come in, two go out, one is between. -/
example : calculateNetworkSize [((some 0, some 1), (some 2, some 3)), ((some 2, none), (some 4, none))] = (2, 2) ∧
    calculateTotalColours [((some 0, some 1), (some 2, some 3)), ((some 2, none), (some 4, none))] = 5 := by decide +kernel

end FSat
