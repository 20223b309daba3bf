import Verif.Spec.Reverse
import Verif.Lemmas.Benes
import Mathlib.LinearAlgebra.Dual.Lemmas
import Mathlib.Data.Fintype.BigOperators
import Mathlib.Algebra.Order.BigOperators.Ring.Finset
import Mathlib.Algebra.BigOperators.Ring.Finset
import Mathlib.Tactic.Linarith
import Mathlib.Tactic.Ring
/-!
# Wired machines of full splitters, and the same machines run backwards
-/

set_option linter.unusedSectionVars false

namespace FSat

open Finset

/-- If two families have the same values, counted with multiplicity, then there is a bijection between them. -/
theorem exists_equiv_of_map_eq {α β γ : Type} [Fintype α] [Fintype β] [DecidableEq γ] (f : α → γ) (g : β → γ)
    (h : (univ : Finset α).val.map f = (univ : Finset β).val.map g) : ∃ e : α ≃ β, ∀ x, g (e x) = f x := by
  have key : ∀ c, Nonempty ({x // f x = c} ≃ {y // g y = c}) := by
    intro c
    refine ⟨Fintype.equivOfCardEq ?_⟩
    have := congrArg (Multiset.count c) h
    rw [Multiset.count_map, Multiset.count_map] at this
    rw [Fintype.card_subtype, Fintype.card_subtype]
    simp only [Finset.card, Finset.filter_val]
    simpa only [eq_comm] using this
  exact ⟨Equiv.ofFiberEquiv fun c => (key c).some, fun x => Equiv.ofFiberEquiv_map _ x⟩

section wired
variable {N P Q : Type} [Fintype N] [Fintype P] [Fintype Q] (e : (N × Bool) ⊕ P ≃ (N × Bool) ⊕ Q)

/-- The amounts on the belts of a machine: each belt starts at a splitter output or an input of the machine, and ends, by `e`, at a
splitter input or an output of the machine. -/
def Forth (x : (N × Bool) ⊕ P → ℚ) : Prop :=
  ∀ i b, x (.inl (i, b)) = (x (e.symm (.inl (i, false))) + x (e.symm (.inl (i, true)))) / 2

/-- The same machine, run backwards. -/
def Back (y : (N × Bool) ⊕ P → ℚ) : Prop :=
  ∀ i b, y (e.symm (.inl (i, b))) = (y (.inl (i, false)) + y (.inl (i, true))) / 2

theorem sum_ports (f : N × Bool → ℚ) : ∑ p, f p = ∑ i, (f (i, false) + f (i, true)) := by
  rw [Fintype.sum_prod_type]
  refine Finset.sum_congr rfl fun i _ => ?_
  rw [Fintype.sum_bool, add_comm]

theorem sum_belts (f : (N × Bool) ⊕ P → ℚ) :
    ∑ s, f s = ∑ i, (f (e.symm (.inl (i, false))) + f (e.symm (.inl (i, true)))) + ∑ j, f (e.symm (.inr j)) := by
  rw [← e.symm.sum_comp f, Fintype.sum_sum_type, sum_ports]

theorem sum_starts (f : (N × Bool) ⊕ P → ℚ) :
    ∑ s, f s = ∑ i, (f (.inl (i, false)) + f (.inl (i, true))) + ∑ k, f (.inr k) := by
  rw [Fintype.sum_sum_type, sum_ports]

/-- What arrives, weighted with the backward flow, is what leaves, weighted with it. -/
theorem reciprocity {x y : (N × Bool) ⊕ P → ℚ} (hx : Forth e x) (hy : Back e y) :
    ∑ k, x (.inr k) * y (.inr k) = ∑ j, x (e.symm (.inr j)) * y (e.symm (.inr j)) := by
  have h1 := sum_belts e fun s => x s * y s
  rw [sum_starts] at h1
  have h2 : ∑ i, (x (.inl (i, false)) * y (.inl (i, false)) + x (.inl (i, true)) * y (.inl (i, true))) =
      ∑ i, (x (e.symm (.inl (i, false))) * y (e.symm (.inl (i, false))) + x (e.symm (.inl (i, true))) * y (e.symm (.inl (i, true)))) := by
    refine Finset.sum_congr rfl fun i _ => ?_
    rw [hx i false, hx i true, hy i false, hy i true]
    ring
  rw [h2] at h1
  linarith

/-- A backward flow into which nothing is fed brings nothing out. -/
theorem back_zero {y : (N × Bool) ⊕ P → ℚ} (hy : Back e y) (h0 : ∀ j, y (e.symm (.inr j)) = 0) : ∀ k, y (.inr k) = 0 := by
  have h1 := sum_belts e fun s => y s * y s
  rw [sum_starts] at h1
  have h2 : ∑ i, (y (e.symm (.inl (i, false))) * y (e.symm (.inl (i, false))) + y (e.symm (.inl (i, true))) * y (e.symm (.inl (i, true)))) ≤
      ∑ i, (y (.inl (i, false)) * y (.inl (i, false)) + y (.inl (i, true)) * y (.inl (i, true))) := by
    refine Finset.sum_le_sum fun i _ => ?_
    rw [hy i false, hy i true]
    nlinarith [mul_self_nonneg (y (.inl (i, false)) - y (.inl (i, true)))]
  have h3 : ∑ j, y (e.symm (.inr j)) * y (e.symm (.inr j)) = 0 := Finset.sum_eq_zero fun j _ => by rw [h0, mul_zero]
  have h4 : ∑ k : P, y (.inr k) * y (.inr k) ≤ 0 := by linarith
  have h5 := (Finset.sum_eq_zero_iff_of_nonneg fun k _ => mul_self_nonneg (y (.inr k))).1
    (le_antisymm h4 (Finset.sum_nonneg fun k _ => mul_self_nonneg (y (.inr k))))
  exact fun k => mul_self_eq_zero.1 (h5 k (Finset.mem_univ k))

/-- How far the amounts are from being a flow; at the inputs of the machine, the amounts. -/
def excess : ((N × Bool) ⊕ P → ℚ) →ₗ[ℚ] ((N × Bool) ⊕ P → ℚ) where
  toFun x s := match s with
    | .inl (i, b) => x (.inl (i, b)) - (x (e.symm (.inl (i, false))) + x (e.symm (.inl (i, true)))) / 2
    | .inr k => x (.inr k)
  map_add' x y := by
    funext s
    rcases s with ⟨i, b⟩ | k
    · simp only [Pi.add_apply]; ring
    · rfl
  map_smul' c x := by
    funext s
    rcases s with ⟨i, b⟩ | k
    · simp only [Pi.smul_apply, smul_eq_mul, RingHom.id_apply]; ring
    · rfl

theorem sum_mul_excess (z x : (N × Bool) ⊕ P → ℚ) : ∑ s, z s * excess e x s =
    ∑ s, z s * x s - ∑ i, (z (.inl (i, false)) + z (.inl (i, true))) / 2 * (x (e.symm (.inl (i, false))) + x (e.symm (.inl (i, true)))) := by
  rw [sum_starts, sum_starts]
  simp only [excess, LinearMap.coe_mk, AddHom.coe_mk]
  rw [add_sub_right_comm, ← Finset.sum_sub_distrib]
  congr 1
  refine Finset.sum_congr rfl fun i _ => ?_
  ring

open Classical in
/-- Whatever is fed in, there is a flow. -/
theorem exists_forth (u : P → ℚ) : ∃ x, Forth e x ∧ ∀ k, x (.inr k) = u k := by
  let b : (N × Bool) ⊕ P → ℚ := Sum.elim (fun _ => 0) u
  have hmem : b ∈ LinearMap.range (excess e) := by
    rw [← Subspace.forall_mem_dualAnnihilator_apply_eq_zero_iff]
    intro φ hφ
    let z : (N × Bool) ⊕ P → ℚ := fun s => φ (Pi.single s 1)
    have hz : ∀ x, φ x = ∑ s, z s * x s := by
      intro x
      conv_lhs => rw [LinearMap.pi_apply_eq_sum_univ φ x]
      refine Finset.sum_congr rfl fun s _ => ?_
      rw [smul_eq_mul, mul_comm]
      congr 2
      funext t
      by_cases hst : s = t
      · subst hst; simp
      · simp [hst, Pi.single_apply, Ne.symm hst]
    have h0 : ∀ x, ∑ s, z s * excess e x s = 0 := by
      intro x
      rw [← hz]
      exact (Submodule.mem_dualAnnihilator φ).1 hφ _ ⟨x, rfl⟩
    have hsingle : ∀ t, z t = ∑ i, (z (.inl (i, false)) + z (.inl (i, true))) / 2 *
        ((Pi.single t 1 : _ → ℚ) (e.symm (.inl (i, false))) + (Pi.single t 1 : _ → ℚ) (e.symm (.inl (i, true)))) := by
      intro t
      have := h0 (Pi.single t 1)
      rw [sum_mul_excess] at this
      have h1 : ∑ s, z s * (Pi.single t 1 : _ → ℚ) s = z t := by
        rw [Finset.sum_eq_single t]
        · simp
        · intro s _ hs
          rw [Pi.single_eq_of_ne hs, mul_zero]
        · simp
      linarith
    have hback : Back e z := by
      intro i c
      rw [hsingle, Finset.sum_eq_single i]
      · cases c
        · rw [Pi.single_eq_same, Pi.single_eq_of_ne (by simp)]; ring
        · rw [Pi.single_eq_same, Pi.single_eq_of_ne (by simp)]; ring
      · intro j _ hj
        rw [Pi.single_eq_of_ne (by simpa using fun h => absurd h hj), Pi.single_eq_of_ne (by simpa using fun h => absurd h hj)]; ring
      · simp
    have hend : ∀ j, z (e.symm (.inr j)) = 0 := by
      intro j
      rw [hsingle]
      refine Finset.sum_eq_zero fun i _ => ?_
      rw [Pi.single_eq_of_ne (by simp), Pi.single_eq_of_ne (by simp)]; ring
    rw [hz, Fintype.sum_sum_type]
    have := back_zero e hback hend
    simp [b, this]
  obtain ⟨x, hx⟩ := hmem
  refine ⟨x, fun i c => ?_, fun k => ?_⟩
  · have := congrFun hx (.inl (i, c))
    simp only [excess, LinearMap.coe_mk, AddHom.coe_mk, b, Sum.elim_inl] at this
    linarith
  · exact congrFun hx (.inr k)

end wired

/-! ### From lists and multisets to wired machines -/

section machine
variable {k p q : Nat} (K : Fin k → Node)

/-- The colours of the splitter outputs and of the inputs of the machine. -/
def startColour (a : Int) : (Fin k × Bool) ⊕ Fin p → Colour
  | .inl (i, false) => (K i).2.1
  | .inl (i, true) => (K i).2.2
  | .inr _ => some a

/-- The colours of the splitter inputs and of the outputs of the machine. -/
def endColour' (b : Int) : (Fin k × Bool) ⊕ Fin q → Colour
  | .inl (i, false) => (K i).1.1
  | .inl (i, true) => (K i).1.2
  | .inr _ => some b

/-- The splitters with the amounts `xo` on what leaves them and `xi` on what arrives. -/
def machineFlow (xo : (Fin k × Bool) ⊕ Fin p → ℚ) (xi : (Fin k × Bool) ⊕ Fin q → ℚ) : List (Node × Amounts) :=
  List.ofFn fun i => (K i, ((xi (.inl (i, false)), xi (.inl (i, true))), (xo (.inl (i, false)), xo (.inl (i, true)))))

theorem map_ports {γ : Type} (g : Fin k × Bool → γ) : (univ : Finset (Fin k × Bool)).val.map g =
    ((List.finRange k).flatMap fun i => [g (i, false), g (i, true)] : List γ) := by
  rw [← Finset.univ_product_univ, Finset.product_val]
  change Multiset.map g (Multiset.bind (univ : Finset (Fin k)).val fun i => (univ : Finset Bool).val.map (Prod.mk i)) = _
  rw [Multiset.map_bind]
  show Multiset.bind (List.finRange k : Multiset (Fin k)) _ = _
  rw [← Multiset.coe_bind]
  refine Multiset.bind_congr fun i _ => ?_
  rw [Multiset.map_map]
  show Multiset.map _ (true ::ₘ {false}) = _
  rw [Multiset.map_cons, Multiset.map_singleton]
  exact Multiset.coe_eq_coe.2 (List.Perm.swap _ _ _)

/-- What has the colour `c`. -/
def ofColour (c : Colour) (x : Colour × ℚ) : Option ℚ := if x.1 = c then some x.2 else none

theorem count_ofColour (c : Colour) (v : ℚ) (A : Multiset (Colour × ℚ)) :
    Multiset.count v (A.filterMap (ofColour c)) = Multiset.count (c, v) A := by
  induction A using Multiset.induction with
  | empty => simp
  | cons x A ih =>
    obtain ⟨d, w⟩ := x
    by_cases h : d = c
    · subst h
      rw [Multiset.filterMap_cons_some (ofColour d) (d, w) A (b := w) (by simp [ofColour]), Multiset.count_cons, Multiset.count_cons, ih]
      simp
    · rw [Multiset.filterMap_cons_none _ _ (by simp [ofColour, h]), ih, Multiset.count_cons_of_ne]
      rintro e
      exact h (Prod.mk.inj e).1.symm

theorem map_sum {α β γ : Type} [Fintype α] [Fintype β] (g : α ⊕ β → γ) :
    (univ : Finset (α ⊕ β)).val.map g = (univ : Finset α).val.map (fun x => g (.inl x)) + (univ : Finset β).val.map (fun x => g (.inr x)) := by
  rw [← Finset.univ_disjSum_univ, Finset.val_disjSum]
  show Multiset.map g (_ + _) = _
  rw [Multiset.map_add, Multiset.map_map, Multiset.map_map]
  rfl

theorem ofColour_const {p : Nat} (u : Fin p → ℚ) (a c : Int) :
    ((univ : Finset (Fin p)).val.map fun j => ((some a : Colour), u j)).filterMap (ofColour (some c)) =
      if c = a then (univ : Finset (Fin p)).val.map u else 0 := by
  rw [Multiset.filterMap_map]
  split
  · rename_i h
    subst h
    rw [← Multiset.filterMap_eq_map]
    congr 1
    funext j
    simp [ofColour]
  · rename_i h
    rw [Multiset.eq_zero_iff_forall_notMem]
    intro v hv
    obtain ⟨j, -, hj⟩ := (Multiset.mem_filterMap _ _).1 hv
    simp [ofColour, Ne.symm h] at hj

theorem leaving_machineFlow (xo : (Fin k × Bool) ⊕ Fin p → ℚ) (xi : (Fin k × Bool) ⊕ Fin q → ℚ) (a c : Int) :
    leaving (machineFlow K xo xi) (some c) + (if c = a then (univ : Finset (Fin p)).val.map (fun j => xo (.inr j)) else 0) =
      ((univ : Finset ((Fin k × Bool) ⊕ Fin p)).val.map fun s => (startColour K a s, xo s)).filterMap (ofColour (some c)) := by
  rw [map_sum, Multiset.filterMap_add, ← ofColour_const (fun j => xo (.inr j)) a c]
  congr 1
  rw [map_ports, Multiset.filterMap_coe]
  unfold leaving machineFlow
  rw [List.ofFn_eq_map, List.flatMap_map]
  rfl

theorem arriving_machineFlow (xo : (Fin k × Bool) ⊕ Fin p → ℚ) (xi : (Fin k × Bool) ⊕ Fin q → ℚ) (b c : Int) :
    arriving (machineFlow K xo xi) (some c) + (if c = b then (univ : Finset (Fin q)).val.map (fun j => xi (.inr j)) else 0) =
      ((univ : Finset ((Fin k × Bool) ⊕ Fin q)).val.map fun s => (endColour' K b s, xi s)).filterMap (ofColour (some c)) := by
  rw [map_sum, Multiset.filterMap_add, ← ofColour_const (fun j => xi (.inr j)) b c]
  congr 1
  rw [map_ports, Multiset.filterMap_coe]
  unfold arriving machineFlow
  rw [List.ofFn_eq_map, List.flatMap_map]
  rfl

theorem startColour_some (hK : ∀ i, (K i).2.1 ≠ none ∧ (K i).2.2 ≠ none) (a : Int) (s : (Fin k × Bool) ⊕ Fin p) : startColour K a s ≠ none := by
  rcases s with ⟨i, b⟩ | j
  · cases b
    · exact (hK i).1
    · exact (hK i).2
  · simp [startColour]

theorem endColour_some (hK : ∀ i, (K i).1.1 ≠ none ∧ (K i).1.2 ≠ none) (a : Int) (s : (Fin k × Bool) ⊕ Fin q) : endColour' K a s ≠ none := by
  rcases s with ⟨i, b⟩ | j
  · cases b
    · exact (hK i).1
    · exact (hK i).2
  · simp [endColour']

/-- If every colour is connected, then there is a way to lay the belts. -/
theorem exists_wiring (hK : ∀ i, (K i).1.1 ≠ none ∧ (K i).1.2 ≠ none ∧ (K i).2.1 ≠ none ∧ (K i).2.2 ≠ none) (a b : Int)
    (xo : (Fin k × Bool) ⊕ Fin p → ℚ) (xi : (Fin k × Bool) ⊕ Fin q → ℚ)
    (h : ∀ c : Int, leaving (machineFlow K xo xi) (some c) + (if c = a then (univ : Finset (Fin p)).val.map (fun j => xo (.inr j)) else 0) =
      arriving (machineFlow K xo xi) (some c) + (if c = b then (univ : Finset (Fin q)).val.map (fun j => xi (.inr j)) else 0)) :
    ∃ e : (Fin k × Bool) ⊕ Fin p ≃ (Fin k × Bool) ⊕ Fin q, ∀ s, endColour' K b (e s) = startColour K a s ∧ xi (e s) = xo s := by
  obtain ⟨e, he⟩ := exists_equiv_of_map_eq (fun s => (startColour K a s, xo s)) (fun s => (endColour' K b s, xi s)) (by
    refine Multiset.ext.2 fun x => ?_
    obtain ⟨c, v⟩ := x
    cases c with
    | none =>
      rw [Multiset.count_eq_zero_of_notMem, Multiset.count_eq_zero_of_notMem]
      · rw [Multiset.mem_map]
        rintro ⟨s, -, hs⟩
        exact endColour_some K (fun i => ⟨(hK i).1, (hK i).2.1⟩) b s (Prod.mk.inj hs).1
      · rw [Multiset.mem_map]
        rintro ⟨s, -, hs⟩
        exact startColour_some K (fun i => (hK i).2.2) a s (Prod.mk.inj hs).1
    | some c =>
      have := h c
      rw [leaving_machineFlow, arriving_machineFlow] at this
      rw [← count_ofColour, ← count_ofColour, this])
  exact ⟨e, fun s => ⟨(Prod.mk.inj (he s)).1, (Prod.mk.inj (he s)).2⟩⟩

/-- Amounts that are a flow of the wired machine are a flow through the network. -/
theorem networkFlow_of_forth (hK : ∀ i, (K i).1.1 ≠ none ∧ (K i).1.2 ≠ none ∧ (K i).2.1 ≠ none ∧ (K i).2.2 ≠ none) {a b : Int}
    {e : (Fin k × Bool) ⊕ Fin p ≃ (Fin k × Bool) ⊕ Fin q} (he : ∀ s, endColour' K b (e s) = startColour K a s)
    {x : (Fin k × Bool) ⊕ Fin p → ℚ} (hx : Forth e x) :
    NetworkFlow (List.ofFn K) a b (machineFlow K x fun s => x (e.symm s)) ((univ : Finset (Fin p)).val.map fun j => x (.inr j))
      ((univ : Finset (Fin q)).val.map fun j => x (e.symm (.inr j))) := by
  refine ⟨?_, ?_, ?_⟩
  · unfold machineFlow
    rw [List.map_ofFn]
    exact .refl _
  · intro y hy
    obtain ⟨i, rfl⟩ := (List.mem_ofFn).1 hy
    have h := hK i
    have e2 : (K i).outputs = 2 := by
      unfold Node.outputs
      rw [List.countP_cons, List.countP_cons, List.countP_nil, if_pos (Option.isSome_iff_ne_none.2 h.2.2.1),
        if_pos (Option.isSome_iff_ne_none.2 h.2.2.2)]
    refine ⟨fun h' => absurd h' h.1, fun h' => absurd h' h.2.1, ?_, ?_⟩
    · simp only [if_neg h.2.2.1, e2]
      rw [hx i false]
      push_cast
      ring
    · simp only [if_neg h.2.2.2, e2]
      rw [hx i true]
      push_cast
      ring
  · intro c
    rw [leaving_machineFlow, arriving_machineFlow]
    congr 1
    rw [← Multiset.map_univ_val_equiv e, Multiset.map_map]
    refine Multiset.map_congr rfl fun s _ => ?_
    simp only [Function.comp, he, Equiv.symm_apply_apply]

end machine

/-- A list of splitters and amounts, seen as a machine. -/
theorem exists_machineFlow (fl : List (Node × Amounts)) (I O : Multiset ℚ) : ∃ (k p q : Nat) (K : Fin k → Node) (xo : (Fin k × Bool) ⊕ Fin p → ℚ)
    (xi : (Fin k × Bool) ⊕ Fin q → ℚ), fl = machineFlow K xo xi ∧ I = (univ : Finset (Fin p)).val.map (fun j => xo (.inr j)) ∧
      O = (univ : Finset (Fin q)).val.map (fun j => xi (.inr j)) := by
  obtain ⟨Il, rfl⟩ := Quot.exists_rep I
  obtain ⟨Ol, rfl⟩ := Quot.exists_rep O
  refine ⟨fl.length, Il.length, Ol.length, fun i => (fl.get i).1,
    Sum.elim (fun x => if x.2 then (fl.get x.1).2.2.2 else (fl.get x.1).2.2.1) Il.get,
    Sum.elim (fun x => if x.2 then (fl.get x.1).2.1.2 else (fl.get x.1).2.1.1) Ol.get, ?_, ?_, ?_⟩
  · unfold machineFlow
    simp only [Sum.elim_inl, if_true, Bool.false_eq_true, if_false]
    conv_lhs => rw [← List.ofFn_get fl]
  · simp only [Sum.elim_inr]
    rw [Fin.univ_val_map]
    exact (congrArg _ (List.ofFn_get Il)).symm
  · simp only [Sum.elim_inr]
    rw [Fin.univ_val_map]
    exact (congrArg _ (List.ofFn_get Ol)).symm

end FSat
