import Verif.Spec.Reported
import Verif.Model.ShippedNetworks
/-!
# The splitters of the networks that come with the program
-/

namespace FSat

/-- What is to be checked of a network. -/
def checkUsed (x : ShippedNetwork) : Bool :=
  match openNetwork x.text.toList with
  | .error _ => false
  | .ok n => (x.inputs, x.outputs) == (1, 5) || (x.inputs, x.outputs) == (5, 1) || (n.all fun k => k.2.1.isSome && k.2.2.isSome) ||
    n.all fun k => k.1.1.isSome && k.1.2.isSome

theorem net10x10_used : checkUsed net10x10 = true := by decide +kernel

theorem net1x2_used : checkUsed net1x2 = true := by decide +kernel

theorem net1x3_used : checkUsed net1x3 = true := by decide +kernel

theorem net1x4_used : checkUsed net1x4 = true := by decide +kernel

theorem net1x5_used : checkUsed net1x5 = true := by decide +kernel

theorem net1x6_used : checkUsed net1x6 = true := by decide +kernel

theorem net1x7_used : checkUsed net1x7 = true := by decide +kernel

theorem net1x8_used : checkUsed net1x8 = true := by decide +kernel

theorem net2x1_used : checkUsed net2x1 = true := by decide +kernel

theorem net2x2_used : checkUsed net2x2 = true := by decide +kernel

theorem net2x3_used : checkUsed net2x3 = true := by decide +kernel

theorem net2x4_used : checkUsed net2x4 = true := by decide +kernel

theorem net2x5_used : checkUsed net2x5 = true := by decide +kernel

theorem net2x6_used : checkUsed net2x6 = true := by decide +kernel

theorem net2x7_used : checkUsed net2x7 = true := by decide +kernel

theorem net2x8_used : checkUsed net2x8 = true := by decide +kernel

theorem net3x1_used : checkUsed net3x1 = true := by decide +kernel

theorem net3x2_used : checkUsed net3x2 = true := by decide +kernel

theorem net3x3_used : checkUsed net3x3 = true := by decide +kernel

theorem net3x4_used : checkUsed net3x4 = true := by decide +kernel

theorem net3x5_used : checkUsed net3x5 = true := by decide +kernel

theorem net3x6_used : checkUsed net3x6 = true := by decide +kernel

theorem net3x7_used : checkUsed net3x7 = true := by decide +kernel

theorem net3x8_used : checkUsed net3x8 = true := by decide +kernel

theorem net4x1_used : checkUsed net4x1 = true := by decide +kernel

theorem net4x2_used : checkUsed net4x2 = true := by decide +kernel

theorem net4x3_used : checkUsed net4x3 = true := by decide +kernel

theorem net4x4_used : checkUsed net4x4 = true := by decide +kernel

theorem net4x5_used : checkUsed net4x5 = true := by decide +kernel

theorem net4x6_used : checkUsed net4x6 = true := by decide +kernel

theorem net4x7_used : checkUsed net4x7 = true := by decide +kernel

theorem net4x8_used : checkUsed net4x8 = true := by decide +kernel

theorem net5x1_used : checkUsed net5x1 = true := by decide +kernel

theorem net5x2_used : checkUsed net5x2 = true := by decide +kernel

theorem net5x3_used : checkUsed net5x3 = true := by decide +kernel

theorem net5x4_used : checkUsed net5x4 = true := by decide +kernel

theorem net5x5_used : checkUsed net5x5 = true := by decide +kernel

theorem net5x6_used : checkUsed net5x6 = true := by decide +kernel

theorem net5x7_used : checkUsed net5x7 = true := by decide +kernel

theorem net5x8_used : checkUsed net5x8 = true := by decide +kernel

theorem net6x1_used : checkUsed net6x1 = true := by decide +kernel

theorem net6x2_used : checkUsed net6x2 = true := by decide +kernel

theorem net6x3_used : checkUsed net6x3 = true := by decide +kernel

theorem net6x4_used : checkUsed net6x4 = true := by decide +kernel

theorem net6x5_used : checkUsed net6x5 = true := by decide +kernel

theorem net6x6_used : checkUsed net6x6 = true := by decide +kernel

theorem net6x7_used : checkUsed net6x7 = true := by decide +kernel

theorem net6x8_used : checkUsed net6x8 = true := by decide +kernel

theorem net7x1_used : checkUsed net7x1 = true := by decide +kernel

theorem net7x2_used : checkUsed net7x2 = true := by decide +kernel

theorem net7x3_used : checkUsed net7x3 = true := by decide +kernel

theorem net7x4_used : checkUsed net7x4 = true := by decide +kernel

theorem net7x5_used : checkUsed net7x5 = true := by decide +kernel

theorem net7x6_used : checkUsed net7x6 = true := by decide +kernel

theorem net7x7_used : checkUsed net7x7 = true := by decide +kernel

theorem net7x8_used : checkUsed net7x8 = true := by decide +kernel

theorem net8x1_used : checkUsed net8x1 = true := by decide +kernel

theorem net8x2_used : checkUsed net8x2 = true := by decide +kernel

theorem net8x3_used : checkUsed net8x3 = true := by decide +kernel

theorem net8x4_used : checkUsed net8x4 = true := by decide +kernel

theorem net8x5_used : checkUsed net8x5 = true := by decide +kernel

theorem net8x6_used : checkUsed net8x6 = true := by decide +kernel

theorem net8x7_used : checkUsed net8x7 = true := by decide +kernel

theorem net8x8_used : checkUsed net8x8 = true := by decide +kernel

theorem shipped_checkUsed : ∀ x ∈ shippedNetworks, checkUsed x = true := by
  simp only [shippedNetworks, List.forall_mem_cons]
  exact ⟨net10x10_used,
    net1x2_used,
    net1x3_used,
    net1x4_used,
    net1x5_used,
    net1x6_used,
    net1x7_used,
    net1x8_used,
    net2x1_used,
    net2x2_used,
    net2x3_used,
    net2x4_used,
    net2x5_used,
    net2x6_used,
    net2x7_used,
    net2x8_used,
    net3x1_used,
    net3x2_used,
    net3x3_used,
    net3x4_used,
    net3x5_used,
    net3x6_used,
    net3x7_used,
    net3x8_used,
    net4x1_used,
    net4x2_used,
    net4x3_used,
    net4x4_used,
    net4x5_used,
    net4x6_used,
    net4x7_used,
    net4x8_used,
    net5x1_used,
    net5x2_used,
    net5x3_used,
    net5x4_used,
    net5x5_used,
    net5x6_used,
    net5x7_used,
    net5x8_used,
    net6x1_used,
    net6x2_used,
    net6x3_used,
    net6x4_used,
    net6x5_used,
    net6x6_used,
    net6x7_used,
    net6x8_used,
    net7x1_used,
    net7x2_used,
    net7x3_used,
    net7x4_used,
    net7x5_used,
    net7x6_used,
    net7x7_used,
    net7x8_used,
    net8x1_used,
    net8x2_used,
    net8x3_used,
    net8x4_used,
    net8x5_used,
    net8x6_used,
    net8x7_used,
    net8x8_used, by simp⟩

/-- All splitters of a network that comes with the program have two outputs, or all have two inputs, with two exceptions. -/
theorem shipped_used : ∀ x ∈ shippedNetworks, ∀ n, openNetwork x.text.toList = .ok n →
    (x.inputs, x.outputs) ≠ (1, 5) → (x.inputs, x.outputs) ≠ (5, 1) → AllOutputsUsed n ∨ AllInputsUsed n := by
  intro x hx n hn h15 h51
  have := shipped_checkUsed x hx
  unfold checkUsed at this
  rw [hn] at this
  simp only [Bool.or_eq_true, beq_iff_eq, List.all_eq_true, Bool.and_eq_true, Option.isSome_iff_ne_none] at this
  rcases this with ((h | h) | h) | h
  · exact absurd h h15
  · exact absurd h h51
  · exact .inl h
  · exact .inr h

end FSat
