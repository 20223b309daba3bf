import Verif.Model.ShippedNetworks
import Verif.Lemmas.ShippedCertificates
/-!
The checks of the networks in /repo/networks, written by tools/gen_networks.py.
-/

namespace FSat

/-- Everything that is to be checked of one network. -/
def checkShipped (e : ShippedNetwork) (forth back : List (List Int × List PairProof)) : Bool :=
  match openNetwork e.text.toList with
  | .error _ => false
  | .ok n =>
    match getInputOutputColours n with
    | .error _ => false
    | .ok ((a, p), (b, q)) =>
      p == (e.inputs : Int) && q == (e.outputs : Int) && (n.all fun k => k.outputs != 0 && Node.outputs (k.2, k.1) != 0) &&
      ((insOf n ++ outsOf n).all fun c => decide (0 ≤ c.getD 0)) &&
      certified n a b [] forth && certified (flipNetwork n) b a [] back

theorem net10x10_ok : checkShipped net10x10 cert10x10 cert10x10Back = true := by decide +kernel

theorem net1x2_ok : checkShipped net1x2 cert1x2 cert1x2Back = true := by decide +kernel

theorem net1x3_ok : checkShipped net1x3 cert1x3 cert1x3Back = true := by decide +kernel

theorem net1x4_ok : checkShipped net1x4 cert1x4 cert1x4Back = true := by decide +kernel

theorem net1x5_ok : checkShipped net1x5 cert1x5 cert1x5Back = true := by decide +kernel

theorem net1x6_ok : checkShipped net1x6 cert1x6 cert1x6Back = true := by decide +kernel

theorem net1x7_ok : checkShipped net1x7 cert1x7 cert1x7Back = true := by decide +kernel

theorem net1x8_ok : checkShipped net1x8 cert1x8 cert1x8Back = true := by decide +kernel

theorem net2x1_ok : checkShipped net2x1 cert2x1 cert2x1Back = true := by decide +kernel

theorem net2x2_ok : checkShipped net2x2 cert2x2 cert2x2Back = true := by decide +kernel

theorem net2x3_ok : checkShipped net2x3 cert2x3 cert2x3Back = true := by decide +kernel

theorem net2x4_ok : checkShipped net2x4 cert2x4 cert2x4Back = true := by decide +kernel

theorem net2x5_ok : checkShipped net2x5 cert2x5 cert2x5Back = true := by decide +kernel

theorem net2x6_ok : checkShipped net2x6 cert2x6 cert2x6Back = true := by decide +kernel

theorem net2x7_ok : checkShipped net2x7 cert2x7 cert2x7Back = true := by decide +kernel

theorem net2x8_ok : checkShipped net2x8 cert2x8 cert2x8Back = true := by decide +kernel

theorem net3x1_ok : checkShipped net3x1 cert3x1 cert3x1Back = true := by decide +kernel

theorem net3x2_ok : checkShipped net3x2 cert3x2 cert3x2Back = true := by decide +kernel

theorem net3x3_ok : checkShipped net3x3 cert3x3 cert3x3Back = true := by decide +kernel

theorem net3x4_ok : checkShipped net3x4 cert3x4 cert3x4Back = true := by decide +kernel

theorem net3x5_ok : checkShipped net3x5 cert3x5 cert3x5Back = true := by decide +kernel

theorem net3x6_ok : checkShipped net3x6 cert3x6 cert3x6Back = true := by decide +kernel

theorem net3x7_ok : checkShipped net3x7 cert3x7 cert3x7Back = true := by decide +kernel

theorem net3x8_ok : checkShipped net3x8 cert3x8 cert3x8Back = true := by decide +kernel

theorem net4x1_ok : checkShipped net4x1 cert4x1 cert4x1Back = true := by decide +kernel

theorem net4x2_ok : checkShipped net4x2 cert4x2 cert4x2Back = true := by decide +kernel

theorem net4x3_ok : checkShipped net4x3 cert4x3 cert4x3Back = true := by decide +kernel

theorem net4x4_ok : checkShipped net4x4 cert4x4 cert4x4Back = true := by decide +kernel

theorem net4x5_ok : checkShipped net4x5 cert4x5 cert4x5Back = true := by decide +kernel

theorem net4x6_ok : checkShipped net4x6 cert4x6 cert4x6Back = true := by decide +kernel

theorem net4x7_ok : checkShipped net4x7 cert4x7 cert4x7Back = true := by decide +kernel

theorem net4x8_ok : checkShipped net4x8 cert4x8 cert4x8Back = true := by decide +kernel

theorem net5x1_ok : checkShipped net5x1 cert5x1 cert5x1Back = true := by decide +kernel

theorem net5x2_ok : checkShipped net5x2 cert5x2 cert5x2Back = true := by decide +kernel

theorem net5x3_ok : checkShipped net5x3 cert5x3 cert5x3Back = true := by decide +kernel

theorem net5x4_ok : checkShipped net5x4 cert5x4 cert5x4Back = true := by decide +kernel

theorem net5x5_ok : checkShipped net5x5 cert5x5 cert5x5Back = true := by decide +kernel

theorem net5x6_ok : checkShipped net5x6 cert5x6 cert5x6Back = true := by decide +kernel

theorem net5x7_ok : checkShipped net5x7 cert5x7 cert5x7Back = true := by decide +kernel

theorem net5x8_ok : checkShipped net5x8 cert5x8 cert5x8Back = true := by decide +kernel

theorem net6x1_ok : checkShipped net6x1 cert6x1 cert6x1Back = true := by decide +kernel

theorem net6x2_ok : checkShipped net6x2 cert6x2 cert6x2Back = true := by decide +kernel

theorem net6x3_ok : checkShipped net6x3 cert6x3 cert6x3Back = true := by decide +kernel

theorem net6x4_ok : checkShipped net6x4 cert6x4 cert6x4Back = true := by decide +kernel

theorem net6x5_ok : checkShipped net6x5 cert6x5 cert6x5Back = true := by decide +kernel

theorem net6x6_ok : checkShipped net6x6 cert6x6 cert6x6Back = true := by decide +kernel

theorem net6x7_ok : checkShipped net6x7 cert6x7 cert6x7Back = true := by decide +kernel

theorem net6x8_ok : checkShipped net6x8 cert6x8 cert6x8Back = true := by decide +kernel

theorem net7x1_ok : checkShipped net7x1 cert7x1 cert7x1Back = true := by decide +kernel

theorem net7x2_ok : checkShipped net7x2 cert7x2 cert7x2Back = true := by decide +kernel

theorem net7x3_ok : checkShipped net7x3 cert7x3 cert7x3Back = true := by decide +kernel

theorem net7x4_ok : checkShipped net7x4 cert7x4 cert7x4Back = true := by decide +kernel

theorem net7x5_ok : checkShipped net7x5 cert7x5 cert7x5Back = true := by decide +kernel

theorem net7x6_ok : checkShipped net7x6 cert7x6 cert7x6Back = true := by decide +kernel

theorem net7x7_ok : checkShipped net7x7 cert7x7 cert7x7Back = true := by decide +kernel

theorem net7x8_ok : checkShipped net7x8 cert7x8 cert7x8Back = true := by decide +kernel

theorem net8x1_ok : checkShipped net8x1 cert8x1 cert8x1Back = true := by decide +kernel

theorem net8x2_ok : checkShipped net8x2 cert8x2 cert8x2Back = true := by decide +kernel

theorem net8x3_ok : checkShipped net8x3 cert8x3 cert8x3Back = true := by decide +kernel

theorem net8x4_ok : checkShipped net8x4 cert8x4 cert8x4Back = true := by decide +kernel

theorem net8x5_ok : checkShipped net8x5 cert8x5 cert8x5Back = true := by decide +kernel

theorem net8x6_ok : checkShipped net8x6 cert8x6 cert8x6Back = true := by decide +kernel

theorem net8x7_ok : checkShipped net8x7 cert8x7 cert8x7Back = true := by decide +kernel

theorem net8x8_ok : checkShipped net8x8 cert8x8 cert8x8Back = true := by decide +kernel

/-- All of them. -/
theorem shipped_ok : ∀ e ∈ shippedNetworks, ∃ forth back, checkShipped e forth back = true := by
  simp only [shippedNetworks, List.forall_mem_cons]
  exact ⟨⟨_, _, net10x10_ok⟩,
    ⟨_, _, net1x2_ok⟩,
    ⟨_, _, net1x3_ok⟩,
    ⟨_, _, net1x4_ok⟩,
    ⟨_, _, net1x5_ok⟩,
    ⟨_, _, net1x6_ok⟩,
    ⟨_, _, net1x7_ok⟩,
    ⟨_, _, net1x8_ok⟩,
    ⟨_, _, net2x1_ok⟩,
    ⟨_, _, net2x2_ok⟩,
    ⟨_, _, net2x3_ok⟩,
    ⟨_, _, net2x4_ok⟩,
    ⟨_, _, net2x5_ok⟩,
    ⟨_, _, net2x6_ok⟩,
    ⟨_, _, net2x7_ok⟩,
    ⟨_, _, net2x8_ok⟩,
    ⟨_, _, net3x1_ok⟩,
    ⟨_, _, net3x2_ok⟩,
    ⟨_, _, net3x3_ok⟩,
    ⟨_, _, net3x4_ok⟩,
    ⟨_, _, net3x5_ok⟩,
    ⟨_, _, net3x6_ok⟩,
    ⟨_, _, net3x7_ok⟩,
    ⟨_, _, net3x8_ok⟩,
    ⟨_, _, net4x1_ok⟩,
    ⟨_, _, net4x2_ok⟩,
    ⟨_, _, net4x3_ok⟩,
    ⟨_, _, net4x4_ok⟩,
    ⟨_, _, net4x5_ok⟩,
    ⟨_, _, net4x6_ok⟩,
    ⟨_, _, net4x7_ok⟩,
    ⟨_, _, net4x8_ok⟩,
    ⟨_, _, net5x1_ok⟩,
    ⟨_, _, net5x2_ok⟩,
    ⟨_, _, net5x3_ok⟩,
    ⟨_, _, net5x4_ok⟩,
    ⟨_, _, net5x5_ok⟩,
    ⟨_, _, net5x6_ok⟩,
    ⟨_, _, net5x7_ok⟩,
    ⟨_, _, net5x8_ok⟩,
    ⟨_, _, net6x1_ok⟩,
    ⟨_, _, net6x2_ok⟩,
    ⟨_, _, net6x3_ok⟩,
    ⟨_, _, net6x4_ok⟩,
    ⟨_, _, net6x5_ok⟩,
    ⟨_, _, net6x6_ok⟩,
    ⟨_, _, net6x7_ok⟩,
    ⟨_, _, net6x8_ok⟩,
    ⟨_, _, net7x1_ok⟩,
    ⟨_, _, net7x2_ok⟩,
    ⟨_, _, net7x3_ok⟩,
    ⟨_, _, net7x4_ok⟩,
    ⟨_, _, net7x5_ok⟩,
    ⟨_, _, net7x6_ok⟩,
    ⟨_, _, net7x7_ok⟩,
    ⟨_, _, net7x8_ok⟩,
    ⟨_, _, net8x1_ok⟩,
    ⟨_, _, net8x2_ok⟩,
    ⟨_, _, net8x3_ok⟩,
    ⟨_, _, net8x4_ok⟩,
    ⟨_, _, net8x5_ok⟩,
    ⟨_, _, net8x6_ok⟩,
    ⟨_, _, net8x7_ok⟩,
    ⟨_, _, net8x8_ok⟩, by simp⟩

end FSat
