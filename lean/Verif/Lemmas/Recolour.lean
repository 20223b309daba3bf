import Verif.Model.Recolour
import Verif.Spec.Recolour
import Verif.Lemmas.Sums
import Verif.Lemmas.Constants
import Verif.Lemmas.Search
import Verif.Lemmas.NetworkNorm
/-!
# Lemmas about the renumbering of colours
-/

namespace FSat

/-! ### Digits -/

/-- Digits in which two natural numbers differ. -/
noncomputable def natApart (a b : Nat) : Nat := {i : Nat | Nat.testBit a i ≠ Nat.testBit b i}.ncard

theorem bitsApart_nat (a b : Nat) : bitsApart (a : Int) (b : Int) = natApart a b := rfl

theorem apart_finite (a b : Nat) : {i : Nat | Nat.testBit a i ≠ Nat.testBit b i}.Finite := by
  refine (Set.finite_lt_nat (a + b)).subset fun i hi => ?_
  by_contra h
  simp only [Set.mem_ofPred_eq, not_lt] at h
  apply hi
  have h2 : i < 2 ^ i := Nat.lt_two_pow_self
  rw [Nat.testBit_lt_two_pow (by omega), Nat.testBit_lt_two_pow (by omega)]

theorem natApart_step (a b : Nat) : natApart a b = (if a % 2 = b % 2 then 0 else 1) + natApart (a / 2) (b / 2) := by
  unfold natApart
  have h0 : ∀ x : Nat, x.testBit 0 = decide (x % 2 = 1) := Nat.testBit_zero
  have hsucc : {i : Nat | Nat.testBit a i ≠ Nat.testBit b i} =
      (if a % 2 = b % 2 then ∅ else {0}) ∪ Nat.succ '' {i : Nat | Nat.testBit (a / 2) i ≠ Nat.testBit (b / 2) i} := by
    ext i
    cases i with
    | zero =>
      simp only [Set.mem_ofPred_eq, h0, Set.mem_union, Set.mem_image, Nat.succ_ne_zero, and_false, exists_false, or_false]
      split
      · rename_i h; simp [h]
      · simp only [Set.mem_singleton_iff, iff_true]
        intro h
        rw [decide_eq_decide] at h
        omega
    | succ i =>
      simp only [Set.mem_ofPred_eq, Nat.testBit_succ, Set.mem_union, Set.mem_image, Nat.succ_eq_add_one, Nat.add_right_cancel_iff,
        exists_eq_right]
      split <;> simp
  rw [hsucc, Set.ncard_union_eq ?_ (by split <;> simp) ((apart_finite _ _).image _),
    Set.ncard_image_of_injective _ Nat.succ_injective]
  · split <;> simp
  · rw [Set.disjoint_left]
    intro x hx ⟨y, _, hy⟩
    subst hy
    split at hx <;> simp at hx

theorem natApart_self (a : Nat) : natApart a a = 0 := by simp [natApart]

theorem natApart_comm (a b : Nat) : natApart a b = natApart b a := by
  unfold natApart
  congr 1
  ext i
  simp [eq_comm]

theorem natApart_xor (a b : Nat) : natApart (a ^^^ b) 0 = natApart a b := by
  unfold natApart
  congr 1
  ext i
  simp

theorem natApart_pos {a b : Nat} (h : a ≠ b) : 0 < natApart a b := by
  unfold natApart
  rw [Set.ncard_pos (apart_finite a b)]
  by_contra hn
  rw [Set.not_nonempty_iff_eq_empty, Set.eq_empty_iff_forall_notMem] at hn
  exact h (Nat.eq_of_testBit_eq fun i => by simpa using hn i)

theorem popLoop_eq (k : Nat) : ∀ v r, v ≤ k → popLoop k v r = r + natApart v 0 := by
  induction k with
  | zero =>
    intro v r h
    obtain rfl : v = 0 := by omega
    simp [popLoop, natApart_self]
  | succ k ih =>
    intro v r h
    unfold popLoop
    split
    · rename_i hv
      rw [Nat.shiftRight_one, ih _ _ (by omega), natApart_step v 0, Nat.and_one_is_mod]
      simp only [Nat.zero_mod, Nat.zero_div]
      split <;> omega
    · rename_i hv
      obtain rfl : v = 0 := by omega
      simp [natApart_self]

theorem popCount_xor {a b : Int} (ha : 0 ≤ a) (hb : 0 ≤ b) :
    popCount (Int.xor a b) = if a = b then .error .assertion else .ok (bitsApart a b) := by
  obtain ⟨x, rfl⟩ := Int.eq_ofNat_of_zero_le ha
  obtain ⟨y, rfl⟩ := Int.eq_ofNat_of_zero_le hb
  have hx : Int.xor (x : Int) (y : Int) = ((x ^^^ y : Nat) : Int) := rfl
  rw [hx, bitsApart_nat]
  unfold popCount
  by_cases h : x = y
  · subst h
    simp
  · have h0 : x ^^^ y ≠ 0 := by
      intro h0
      apply h
      exact Nat.eq_of_testBit_eq fun i => by
        have := congrArg (fun z => Nat.testBit z i) h0
        simpa using this
    rw [if_pos (by omega), if_neg (by omega), Int.toNat_natCast, popLoop_eq _ _ _ le_rfl, natApart_xor, Nat.zero_add]

theorem natApart_binVal : ∀ (as bs : List Bool), as.length = bs.length →
    natApart (binVal as) (binVal bs) = (List.zipWith (· != ·) as bs).count true
  | [], [], _ => by simp [natApart_self]
  | a :: as, b :: bs, h => by
    have ih := natApart_binVal as bs (by simpa using h)
    have ha := bit_le a
    have hb := bit_le b
    rw [natApart_step, binVal_cons, binVal_cons, show (bit a + 2 * binVal as) / 2 = binVal as by omega,
      show (bit b + 2 * binVal bs) / 2 = binVal bs by omega, ih,
      show (bit a + 2 * binVal as) % 2 = bit a by omega, show (bit b + 2 * binVal bs) % 2 = bit b by omega]
    cases a <;> cases b <;> simp [Nat.add_comm]

/-! ### `calculate_cost` -/

theorem mem_edge {i o : List Colour} (c : Int) (h : some c ∈ i ∨ some c ∈ o) :
    some c ∈ (colourSet i).filter (· ∉ colourSet o) ++ (colourSet o).filter (· ∉ colourSet i) ↔ ¬ (some c ∈ i ∧ some c ∈ o) := by
  simp only [List.mem_append, List.mem_filter, mem_colourSet, ne_eq, reduceCtorEq, not_false_eq_true, and_true, decide_eq_true_eq]
  tauto

theorem mem_middle (n : Network) (c : Int) :
    some c ∈ (colourSet (insOf n)).filter (· ∈ colourSet (outsOf n)) ↔ Inner n c := by
  simp [mem_colourSet, Inner]

/-- The pairs of a list of sides that are counted. -/
def pairsFrom (n : Network) (ss : List (Colour × Colour)) : List (Int × Int) :=
  (ss.flatMap bothColours).filter fun p => Inner n p.1 ∨ Inner n p.2

theorem innerPairs_eq (n : Network) : innerPairs n = pairsFrom n (sidesOf n) := by
  unfold innerPairs pairsFrom sidesOf
  congr 1
  rw [List.flatMap_assoc]
  simp

theorem costLoop_eq (n : Network) : ∀ (ss : List (Colour × Colour)) (k : Nat), (∀ p ∈ pairsFrom n ss, 0 ≤ p.1 ∧ 0 ≤ p.2) →
    costLoop ((colourSet (insOf n)).filter (· ∈ colourSet (outsOf n))) ss k =
      if ∀ p ∈ pairsFrom n ss, p.1 ≠ p.2 then .ok (k + ((pairsFrom n ss).map fun p => bitsApart p.1 p.2).sum) else .error .assertion
  | [], k, _ => by simp [costLoop, pairsFrom]
  | (none, b) :: ss, k, h => by
    have : pairsFrom n ((none, b) :: ss) = pairsFrom n ss := by simp [pairsFrom, bothColours]
    rw [this] at h ⊢
    exact costLoop_eq n ss k h
  | (some a, none) :: ss, k, h => by
    have : pairsFrom n ((some a, none) :: ss) = pairsFrom n ss := by simp [pairsFrom, bothColours]
    rw [this] at h ⊢
    exact costLoop_eq n ss k h
  | (some a, some b) :: ss, k, h => by
    unfold costLoop
    by_cases hm : Inner n a ∨ Inner n b
    · have e : pairsFrom n ((some a, some b) :: ss) = (a, b) :: pairsFrom n ss := by
        simp [pairsFrom, bothColours, hm]
      rw [e] at h ⊢
      rw [if_pos (by rwa [mem_middle, mem_middle])]
      have h0 := h (a, b) (by simp)
      rw [popCount_xor h0.1 h0.2]
      by_cases hab : a = b
      · rw [if_pos hab]
        dsimp only
        rw [if_neg]
        intro hn
        exact hn (a, b) (by simp) hab
      · rw [if_neg hab]
        dsimp only
        rw [costLoop_eq n ss _ fun p hp => h p (by simp [hp])]
        have e1 : (∀ p ∈ (a, b) :: pairsFrom n ss, p.1 ≠ p.2) ↔ ∀ p ∈ pairsFrom n ss, p.1 ≠ p.2 := by
          simp [hab]
        simp only [e1, List.map_cons, List.sum_cons, Nat.add_assoc]
    · have e : pairsFrom n ((some a, some b) :: ss) = pairsFrom n ss := by
        simp [pairsFrom, bothColours, hm]
      rw [e] at h ⊢
      rw [if_neg (by rwa [mem_middle, mem_middle])]
      exact costLoop_eq n ss k h

theorem mem_bothColours {s : Colour × Colour} {p : Int × Int} (h : p ∈ bothColours s) : s = (some p.1, some p.2) := by
  rcases s with ⟨_ | a, _ | b⟩ <;> simp [bothColours] at h
  subst h
  rfl

theorem side_uses {n : Network} {s : Colour × Colour} (h : s ∈ sidesOf n) {c : Int} (hc : s.1 = some c ∨ s.2 = some c) : UsesColour n c := by
  obtain ⟨nd, hn, hs⟩ := List.mem_flatMap.1 h
  simp only [List.mem_cons, List.not_mem_nil, or_false] at hs
  unfold UsesColour insOf outsOf
  simp only [List.mem_flatMap, List.mem_cons, List.not_mem_nil, or_false]
  rcases hs with rfl | rfl
  · exact .inl ⟨nd, hn, hc.imp Eq.symm Eq.symm⟩
  · exact .inr ⟨nd, hn, hc.imp Eq.symm Eq.symm⟩

theorem pair_uses {n : Network} {p : Int × Int} (h : p ∈ innerPairs n) : UsesColour n p.1 ∧ UsesColour n p.2 := by
  rw [innerPairs_eq] at h
  obtain ⟨h, -⟩ := List.mem_filter.1 h
  obtain ⟨s, hs, hp⟩ := List.mem_flatMap.1 h
  have := mem_bothColours hp
  exact ⟨side_uses hs (.inl (by rw [this])), side_uses hs (.inr (by rw [this]))⟩

theorem calculateCost_eq {n : Network} (hn : ∀ c, UsesColour n c → 0 ≤ c) :
    calculateCost n = if ∀ p ∈ innerPairs n, p.1 ≠ p.2 then .ok (NumberingCost n) else .error .assertion := by
  have := costLoop_eq n (sidesOf n) 0 fun p hp => by
    rw [← innerPairs_eq] at hp
    exact ⟨hn _ (pair_uses hp).1, hn _ (pair_uses hp).2⟩
  rw [← innerPairs_eq, Nat.zero_add] at this
  exact this

/-! ### Renaming -/

theorem ins_rename (f : Int → Int) (n : Network) : insOf (rename f n) = (insOf n).map (Option.map f) := by
  simp [insOf, rename, List.flatMap_map, List.map_flatMap]

theorem outs_rename (f : Int → Int) (n : Network) : outsOf (rename f n) = (outsOf n).map (Option.map f) := by
  simp [outsOf, rename, List.flatMap_map, List.map_flatMap]

theorem uses_rename {f : Int → Int} {n : Network} {c : Int} : UsesColour (rename f n) c ↔ ∃ d, UsesColour n d ∧ f d = c := by
  simp only [UsesColour, ins_rename, outs_rename, List.mem_map, Option.map_eq_some_iff]
  constructor
  · rintro (⟨o, ho, a, rfl, rfl⟩ | ⟨o, ho, a, rfl, rfl⟩)
    · exact ⟨a, .inl ho, rfl⟩
    · exact ⟨a, .inr ho, rfl⟩
  · rintro ⟨d, h | h, rfl⟩
    · exact .inl ⟨_, h, d, rfl, rfl⟩
    · exact .inr ⟨_, h, d, rfl, rfl⟩

theorem inner_rename {f : Int → Int} {n : Network} (hf : ∀ c d, UsesColour n c → UsesColour n d → f c = f d → c = d) {c : Int}
    (hc : UsesColour n c) : Inner (rename f n) (f c) ↔ Inner n c := by
  simp only [Inner, ins_rename, outs_rename, List.mem_map, Option.map_eq_some_iff]
  constructor
  · rintro ⟨⟨o, ho, a, rfl, ha⟩, ⟨o', ho', a', rfl, ha'⟩⟩
    rw [hf a c (.inl ho) hc ha] at ho
    rw [hf a' c (.inr ho') hc ha'] at ho'
    exact ⟨ho, ho'⟩
  · rintro ⟨h, h'⟩
    exact ⟨⟨_, h, c, rfl, rfl⟩, ⟨_, h', c, rfl, rfl⟩⟩

theorem both_map (f : Int → Int) (s : Colour × Colour) :
    bothColours (s.1.map f, s.2.map f) = (bothColours s).map fun p => (f p.1, f p.2) := by
  rcases s with ⟨_ | a, _ | b⟩ <;> rfl

theorem filter_map_congr {α β : Type} (l : List α) (g : α → β) (p : β → Bool) (q : α → Bool) (h : ∀ a ∈ l, p (g a) = q a) :
    (l.map g).filter p = (l.filter q).map g := by
  induction l with
  | nil => rfl
  | cons a l ih =>
    simp only [List.map_cons, List.filter_cons, h a (by simp), ih fun b hb => h b (by simp [hb])]
    split <;> simp

theorem innerPairs_rename {f : Int → Int} {n : Network} (hf : ∀ c d, UsesColour n c → UsesColour n d → f c = f d → c = d) :
    innerPairs (rename f n) = (innerPairs n).map fun p => (f p.1, f p.2) := by
  have e : (rename f n).flatMap (fun nd => bothColours nd.1 ++ bothColours nd.2) =
      ((sidesOf n).flatMap bothColours).map fun p => (f p.1, f p.2) := by
    simp only [rename, List.flatMap_map, both_map, sidesOf, List.flatMap_assoc, List.map_flatMap]
    simp
  rw [innerPairs_eq n]
  unfold innerPairs pairsFrom
  rw [e]
  apply filter_map_congr
  intro p hp
  obtain ⟨s, hs, hp⟩ := List.mem_flatMap.1 hp
  have := mem_bothColours hp
  rw [decide_eq_decide]
  dsimp only
  rw [inner_rename hf (side_uses hs (.inl (by rw [this]))), inner_rename hf (side_uses hs (.inr (by rw [this])))]

theorem cost_rename {f : Int → Int} {n : Network} (hf : ∀ c d, UsesColour n c → UsesColour n d → f c = f d → c = d) :
    NumberingCost (rename f n) = ((innerPairs n).map fun p => bitsApart (f p.1) (f p.2)).sum := by
  unfold NumberingCost
  rw [innerPairs_rename hf, List.map_map]
  rfl

end FSat
