import Verif.Model.Network
/-!
# The networks that come with the program

Written by tools/gen_networks.py from the files in /repo/networks, character for character.
-/

namespace FSat

/-- A file in /repo/networks: its name is the number of inputs, an `x` and the number of outputs. -/
structure ShippedNetwork where
  inputs : Nat
  outputs : Nat
  text : String

/-- networks/10x10 -/
def net10x10 : ShippedNetwork := ⟨10, 10, "0 0 1 2\n0 0 1 2\n0 0 1 2\n0 0 1 2\n0 0 1 2\n15 1 3 5\n1 1 3 5\n1 1 3 5\n15 3 7 11\n3 3 7 11\n7 7 15 15\n11 11 15 15\n15 5 9 13\n5 5 9 13\n9 9 15 15\n13 13 15 15\n15 2 4 6\n2 2 4 6\n2 2 4 6\n15 4 8 12\n4 4 8 12\n8 8 15 15\n12 12 15 15\n15 6 10 14\n6 6 10 14\n10 10 15 15\n14 14 15 15\n"⟩

/-- networks/1x2 -/
def net1x2 : ShippedNetwork := ⟨1, 2, "-1 0 1 1\n"⟩

/-- networks/1x3 -/
def net1x3 : ShippedNetwork := ⟨1, 3, "0 0 1 1\n-1 1 2 2\n-1 1 2 0\n"⟩

/-- networks/1x4 -/
def net1x4 : ShippedNetwork := ⟨1, 4, "-1 0 1 1\n-1 1 2 2\n-1 1 2 2\n"⟩

/-- networks/1x5 -/
def net1x5 : ShippedNetwork := ⟨1, 5, "0 0 1 1\n-1 1 2 2\n-1 1 2 2\n-1 2 3 3\n-1 2 3 3\n-1 2 3 3\n2 3 0 -1\n"⟩

/-- networks/1x6 -/
def net1x6 : ShippedNetwork := ⟨1, 6, "0 0 1 1\n-1 1 2 2\n-1 1 2 0\n-1 2 3 3\n-1 2 3 3\n-1 2 3 3\n"⟩

/-- networks/1x7 -/
def net1x7 : ShippedNetwork := ⟨1, 7, "0 0 1 1\n-1 1 2 2\n-1 1 2 2\n-1 2 3 3\n-1 2 3 3\n-1 2 3 3\n-1 2 3 0\n"⟩

/-- networks/1x8 -/
def net1x8 : ShippedNetwork := ⟨1, 8, "-1 0 1 1\n-1 1 2 2\n-1 1 2 2\n-1 2 3 3\n-1 2 3 3\n-1 2 3 3\n-1 2 3 3\n"⟩

/-- networks/2x1 -/
def net2x1 : ShippedNetwork := ⟨2, 1, "0 0 -1 1\n"⟩

/-- networks/2x2 -/
def net2x2 : ShippedNetwork := ⟨2, 2, "0 0 1 1\n"⟩

/-- networks/2x3 -/
def net2x3 : ShippedNetwork := ⟨2, 3, "0 0 1 1\n-1 3 2 2\n2 1 3 3\n2 1 3 3\n"⟩

/-- networks/2x4 -/
def net2x4 : ShippedNetwork := ⟨2, 4, "0 0 1 1\n-1 1 2 2\n-1 1 2 2\n"⟩

/-- networks/2x5 -/
def net2x5 : ShippedNetwork := ⟨2, 5, "0 0 1 1\n3 4 2 2\n1 2 3 3\n1 2 3 3\n-1 3 4 4\n-1 3 4 4\n-1 3 4 4\n"⟩

/-- networks/2x6 -/
def net2x6 : ShippedNetwork := ⟨2, 6, "0 0 1 1\n1 3 2 2\n1 3 2 2\n-1 2 3 3\n-1 2 3 3\n-1 2 3 3\n-1 2 3 3\n"⟩

/-- networks/2x7 -/
def net2x7 : ShippedNetwork := ⟨2, 7, "0 0 1 1\n-1 4 2 2\n1 2 3 3\n1 2 3 3\n-1 3 4 4\n-1 3 4 4\n-1 3 4 4\n-1 3 4 4\n"⟩

/-- networks/2x8 -/
def net2x8 : ShippedNetwork := ⟨2, 8, "0 0 1 1\n-1 1 2 2\n-1 1 2 2\n-1 2 3 3\n-1 2 3 3\n-1 2 3 3\n-1 2 3 3\n"⟩

/-- networks/3x1 -/
def net3x1 : ShippedNetwork := ⟨3, 1, "1 1 0 0\n2 2 1 -1\n0 2 1 -1\n"⟩

/-- networks/3x2 -/
def net3x2 : ShippedNetwork := ⟨3, 2, "1 1 0 0\n2 2 3 -1\n3 3 2 1\n3 3 2 1\n"⟩

/-- networks/3x3 -/
def net3x3 : ShippedNetwork := ⟨3, 3, "0 0 1 1\n0 3 2 2\n2 1 3 3\n2 1 3 3\n"⟩

/-- networks/3x4 -/
def net3x4 : ShippedNetwork := ⟨3, 4, "0 0 1 1\n0 0 2 2\n1 2 3 3\n1 2 3 0\n-1 3 4 4\n3 4 5 5\n3 4 5 5\n"⟩

/-- networks/3x5 -/
def net3x5 : ShippedNetwork := ⟨3, 5, "0 0 1 1\n0 0 2 2\n1 2 3 3\n1 2 3 0\n5 6 4 4\n-1 4 5 5\n-1 4 5 5\n3 5 6 6\n3 5 6 6\n3 5 6 6\n"⟩

/-- networks/3x6 -/
def net3x6 : ShippedNetwork := ⟨3, 6, "0 0 1 1\n0 0 2 2\n1 2 3 3\n1 2 3 0\n-1 3 4 4\n-1 3 4 4\n-1 3 4 4\n"⟩

/-- networks/3x7 -/
def net3x7 : ShippedNetwork := ⟨3, 7, "0 0 1 1\n0 0 2 2\n1 2 3 3\n1 2 3 0\n3 6 4 4\n3 4 5 5\n3 4 5 5\n-1 5 6 6\n-1 5 6 6\n-1 5 6 6\n-1 5 6 6\n"⟩

/-- networks/3x8 -/
def net3x8 : ShippedNetwork := ⟨3, 8, "0 0 1 1\n0 0 2 2\n1 2 3 3\n1 2 3 0\n-1 3 4 4\n3 4 5 5\n3 4 5 5\n-1 5 6 6\n-1 5 6 6\n-1 5 6 6\n-1 5 6 6\n"⟩

/-- networks/4x1 -/
def net4x1 : ShippedNetwork := ⟨4, 1, "0 0 -1 1\n0 0 -1 2\n1 2 -1 3\n"⟩

/-- networks/4x2 -/
def net4x2 : ShippedNetwork := ⟨4, 2, "0 0 -1 1\n0 0 -1 2\n1 2 3 3\n"⟩

/-- networks/4x3 -/
def net4x3 : ShippedNetwork := ⟨4, 3, "1 1 0 0\n2 2 0 0\n3 3 2 1\n0 3 2 1\n4 4 3 -1\n5 5 4 3\n5 5 4 3\n"⟩

/-- networks/4x4 -/
def net4x4 : ShippedNetwork := ⟨4, 4, "0 0 1 2\n0 0 1 2\n1 1 4 4\n2 2 3 3\n3 4 5 5\n3 4 5 5\n"⟩

/-- networks/4x5 -/
def net4x5 : ShippedNetwork := ⟨4, 5, "0 0 1 1\n0 0 2 2\n1 2 3 3\n1 2 3 4\n4 4 5 5\n-1 4 6 6\n5 6 7 7\n5 6 7 4\n3 7 8 8\n3 7 8 8\n3 7 8 4\n"⟩

/-- networks/4x6 -/
def net4x6 : ShippedNetwork := ⟨4, 6, "0 0 1 1\n0 0 2 2\n1 2 3 3\n1 2 3 3\n3 5 4 4\n-1 4 5 5\n-1 4 5 5\n3 5 6 6\n3 5 6 6\n3 5 6 6\n"⟩

/-- networks/4x7 -/
def net4x7 : ShippedNetwork := ⟨4, 7, "0 0 1 1\n0 0 2 2\n1 2 3 3\n1 2 3 3\n-1 6 4 4\n-1 4 5 5\n-1 4 5 5\n3 5 6 6\n3 5 6 6\n3 5 6 6\n3 5 6 6\n"⟩

/-- networks/4x8 -/
def net4x8 : ShippedNetwork := ⟨4, 8, "0 0 1 1\n0 0 2 2\n1 2 3 3\n1 2 3 3\n-1 3 4 4\n-1 3 4 4\n-1 3 4 4\n-1 3 4 4\n"⟩

/-- networks/5x1 -/
def net5x1 : ShippedNetwork := ⟨5, 1, "1 1 0 0\n2 2 1 -1\n2 2 1 -1\n3 3 2 -1\n3 3 2 -1\n3 3 2 -1\n-1 0 3 2\n"⟩

/-- networks/5x2 -/
def net5x2 : ShippedNetwork := ⟨5, 2, "1 1 0 0\n2 2 4 3\n3 3 2 1\n3 3 2 1\n4 4 3 -1\n4 4 3 -1\n4 4 3 -1\n"⟩

/-- networks/5x3 -/
def net5x3 : ShippedNetwork := ⟨5, 3, "1 1 0 0\n2 2 0 0\n3 3 2 1\n0 3 2 1\n4 4 6 5\n5 5 4 -1\n5 5 4 -1\n6 6 5 3\n6 6 5 3\n6 6 5 3\n"⟩

/-- networks/5x4 -/
def net5x4 : ShippedNetwork := ⟨5, 4, "1 1 0 0\n2 2 0 0\n3 3 2 1\n4 3 2 1\n5 5 4 4\n6 6 4 -1\n7 7 6 5\n4 7 6 5\n8 8 7 3\n8 8 7 3\n4 8 7 3\n"⟩

/-- networks/5x5 -/
def net5x5 : ShippedNetwork := ⟨5, 5, "7 0 1 2\n0 0 1 2\n0 0 1 2\n7 1 3 5\n1 1 3 5\n3 3 7 7\n5 5 7 7\n7 2 4 6\n2 2 4 6\n4 4 7 7\n6 6 7 7\n"⟩

/-- networks/5x6 -/
def net5x6 : ShippedNetwork := ⟨5, 6, "0 0 1 1\n0 0 2 2\n0 0 3 3\n0 0 4 4\n1 2 5 5\n1 2 5 0\n3 4 6 6\n3 4 6 0\n5 6 7 7\n5 6 7 7\n5 6 7 0\n-1 9 8 8\n7 8 9 9\n7 8 9 9\n7 9 10 10\n7 9 10 10\n7 9 10 10\n"⟩

/-- networks/5x7 -/
def net5x7 : ShippedNetwork := ⟨5, 7, "0 0 1 1\n0 0 2 2\n0 0 3 3\n0 0 4 4\n1 2 5 5\n1 2 5 0\n3 4 6 6\n3 4 6 0\n5 6 7 7\n5 6 7 7\n5 6 7 0\n7 10 8 8\n-1 8 9 9\n-1 8 9 9\n7 9 10 10\n7 9 10 10\n7 9 10 10\n7 9 10 10\n"⟩

/-- networks/5x8 -/
def net5x8 : ShippedNetwork := ⟨5, 8, "0 0 1 1\n0 0 2 2\n0 0 3 3\n0 0 4 4\n1 2 5 5\n1 2 5 0\n3 4 6 6\n3 4 6 0\n5 6 7 7\n5 6 7 7\n5 6 7 0\n-1 7 8 8\n-1 8 9 9\n-1 8 9 9\n7 9 10 10\n7 9 10 10\n7 9 10 10\n7 9 10 10\n"⟩

/-- networks/6x1 -/
def net6x1 : ShippedNetwork := ⟨6, 1, "1 1 0 0\n2 2 1 -1\n0 2 1 -1\n3 3 2 -1\n3 3 2 -1\n3 3 2 -1\n"⟩

/-- networks/6x2 -/
def net6x2 : ShippedNetwork := ⟨6, 2, "1 1 0 0\n2 2 3 1\n2 2 3 1\n3 3 2 -1\n3 3 2 -1\n3 3 2 -1\n3 3 2 -1\n"⟩

/-- networks/6x3 -/
def net6x3 : ShippedNetwork := ⟨6, 3, "1 1 0 0\n2 2 0 0\n3 3 2 1\n0 3 2 1\n4 4 3 -1\n4 4 3 -1\n4 4 3 -1\n"⟩

/-- networks/6x4 -/
def net6x4 : ShippedNetwork := ⟨6, 4, "1 1 0 0\n2 2 0 0\n3 3 2 1\n3 3 2 1\n4 4 5 3\n5 5 4 -1\n5 5 4 -1\n6 6 5 3\n6 6 5 3\n6 6 5 3\n"⟩

/-- networks/6x5 -/
def net6x5 : ShippedNetwork := ⟨6, 5, "1 1 0 0\n2 2 0 0\n3 3 0 0\n4 4 0 0\n5 5 2 1\n0 5 2 1\n6 6 4 3\n0 6 4 3\n7 7 6 5\n7 7 6 5\n0 7 6 5\n8 8 9 -1\n9 9 8 7\n9 9 8 7\n10 10 9 7\n10 10 9 7\n10 10 9 7\n"⟩

/-- networks/6x6 -/
def net6x6 : ShippedNetwork := ⟨6, 6, "0 0 1 2\n0 0 1 2\n0 0 1 2\n7 1 3 5\n1 1 3 5\n3 3 7 7\n5 5 7 7\n7 2 4 6\n2 2 4 6\n4 4 7 7\n6 6 7 7\n"⟩

/-- networks/6x7 -/
def net6x7 : ShippedNetwork := ⟨6, 7, "0 0 1 1\n0 0 2 2\n0 0 3 3\n0 0 4 4\n1 2 5 5\n1 2 5 0\n3 4 6 6\n3 4 6 0\n5 6 7 7\n5 6 7 7\n5 6 7 7\n-1 10 8 8\n7 8 9 9\n7 8 9 9\n7 9 10 10\n7 9 10 10\n7 9 10 10\n7 9 10 10\n"⟩

/-- networks/6x8 -/
def net6x8 : ShippedNetwork := ⟨6, 8, "0 0 1 1\n0 0 2 2\n0 0 3 3\n0 0 4 4\n1 2 5 5\n1 2 5 0\n3 4 6 6\n3 4 6 0\n5 6 7 7\n5 6 7 7\n5 6 7 7\n-1 7 8 8\n-1 7 8 8\n7 8 9 9\n7 8 9 9\n7 8 9 9\n7 8 9 9\n"⟩

/-- networks/7x1 -/
def net7x1 : ShippedNetwork := ⟨7, 1, "1 1 0 0\n2 2 1 -1\n2 2 1 -1\n3 3 2 -1\n3 3 2 -1\n3 3 2 -1\n0 3 2 -1\n"⟩

/-- networks/7x2 -/
def net7x2 : ShippedNetwork := ⟨7, 2, "1 1 0 0\n2 2 4 -1\n3 3 2 1\n3 3 2 1\n4 4 3 -1\n4 4 3 -1\n4 4 3 -1\n4 4 3 -1\n"⟩

/-- networks/7x3 -/
def net7x3 : ShippedNetwork := ⟨7, 3, "1 1 0 0\n2 2 0 0\n3 3 2 1\n0 3 2 1\n4 4 6 3\n5 5 4 3\n5 5 4 3\n6 6 5 -1\n6 6 5 -1\n6 6 5 -1\n6 6 5 -1\n"⟩

/-- networks/7x4 -/
def net7x4 : ShippedNetwork := ⟨7, 4, "1 1 0 0\n2 2 0 0\n3 3 2 1\n3 3 2 1\n4 4 6 -1\n5 5 4 -1\n5 5 4 -1\n6 6 5 3\n6 6 5 3\n6 6 5 3\n6 6 5 3\n"⟩

/-- networks/7x5 -/
def net7x5 : ShippedNetwork := ⟨7, 5, "1 1 0 0\n2 2 0 0\n3 3 0 0\n4 4 0 0\n5 5 2 1\n0 5 2 1\n6 6 4 3\n0 6 4 3\n7 7 6 5\n7 7 6 5\n0 7 6 5\n8 8 10 7\n9 9 8 -1\n9 9 8 -1\n10 10 9 7\n10 10 9 7\n10 10 9 7\n10 10 9 7\n"⟩

/-- networks/7x6 -/
def net7x6 : ShippedNetwork := ⟨7, 6, "1 1 0 0\n2 2 0 0\n3 3 0 0\n4 4 0 0\n5 5 2 1\n0 5 2 1\n6 6 4 3\n0 6 4 3\n7 7 6 5\n7 7 6 5\n7 7 6 5\n8 8 10 -1\n9 9 8 7\n9 9 8 7\n10 10 9 7\n10 10 9 7\n10 10 9 7\n10 10 9 7\n"⟩

/-- networks/7x7 -/
def net7x7 : ShippedNetwork := ⟨7, 7, "7 0 1 2\n0 0 1 2\n0 0 1 2\n0 0 1 2\n1 1 3 5\n1 1 3 5\n3 3 7 7\n5 5 7 7\n2 2 4 6\n2 2 4 6\n4 4 7 7\n6 6 7 7\n"⟩

/-- networks/7x8 -/
def net7x8 : ShippedNetwork := ⟨7, 8, "0 0 1 1\n0 0 2 2\n0 0 3 3\n0 0 4 4\n1 2 5 5\n1 2 5 5\n3 4 6 6\n3 4 6 6\n5 6 7 7\n5 6 7 7\n5 6 7 7\n5 6 7 0\n-1 7 8 8\n7 8 9 9\n7 8 9 9\n7 9 10 10\n7 9 10 10\n7 9 10 10\n7 9 10 10\n"⟩

/-- networks/8x1 -/
def net8x1 : ShippedNetwork := ⟨8, 1, "1 1 0 -1\n2 2 1 -1\n2 2 1 -1\n3 3 2 -1\n3 3 2 -1\n3 3 2 -1\n3 3 2 -1\n"⟩

/-- networks/8x2 -/
def net8x2 : ShippedNetwork := ⟨8, 2, "1 1 0 0\n2 2 1 -1\n2 2 1 -1\n3 3 2 -1\n3 3 2 -1\n3 3 2 -1\n3 3 2 -1\n"⟩

/-- networks/8x3 -/
def net8x3 : ShippedNetwork := ⟨8, 3, "1 1 0 0\n2 2 0 0\n3 3 2 1\n0 3 2 1\n4 4 3 -1\n5 5 4 3\n5 5 4 3\n6 6 5 -1\n6 6 5 -1\n6 6 5 -1\n6 6 5 -1\n"⟩

/-- networks/8x4 -/
def net8x4 : ShippedNetwork := ⟨8, 4, "1 1 0 0\n2 2 0 0\n3 3 2 1\n3 3 2 1\n4 4 3 -1\n4 4 3 -1\n4 4 3 -1\n4 4 3 -1\n"⟩

/-- networks/8x5 -/
def net8x5 : ShippedNetwork := ⟨8, 5, "1 1 0 0\n2 2 0 0\n3 3 0 0\n4 4 0 0\n5 5 2 1\n0 5 2 1\n6 6 4 3\n0 6 4 3\n7 7 6 5\n7 7 6 5\n0 7 6 5\n8 8 7 -1\n9 9 8 -1\n9 9 8 -1\n10 10 9 7\n10 10 9 7\n10 10 9 7\n10 10 9 7\n"⟩

/-- networks/8x6 -/
def net8x6 : ShippedNetwork := ⟨8, 6, "1 1 0 0\n2 2 0 0\n3 3 0 0\n4 4 0 0\n5 5 2 1\n0 5 2 1\n6 6 4 3\n0 6 4 3\n7 7 6 5\n7 7 6 5\n7 7 6 5\n8 8 7 -1\n8 8 7 -1\n9 9 8 7\n9 9 8 7\n9 9 8 7\n9 9 8 7\n"⟩

/-- networks/8x7 -/
def net8x7 : ShippedNetwork := ⟨8, 7, "1 1 0 0\n2 2 0 0\n3 3 0 0\n4 4 0 0\n5 5 2 1\n5 5 2 1\n6 6 4 3\n6 6 4 3\n7 7 6 5\n7 7 6 5\n7 7 6 5\n0 7 6 5\n8 8 7 -1\n9 9 8 7\n9 9 8 7\n10 10 9 7\n10 10 9 7\n10 10 9 7\n10 10 9 7\n"⟩

/-- networks/8x8 -/
def net8x8 : ShippedNetwork := ⟨8, 8, "0 0 1 2\n0 0 1 2\n0 0 1 2\n0 0 1 2\n1 1 3 5\n1 1 3 5\n3 3 7 7\n5 5 7 7\n2 2 4 6\n2 2 4 6\n4 4 7 7\n6 6 7 7\n"⟩

/-- /repo/networks: all files. -/
def shippedNetworks : List ShippedNetwork :=
  [net10x10, net1x2, net1x3, net1x4, net1x5, net1x6, net1x7, net1x8, net2x1, net2x2, net2x3, net2x4, net2x5, net2x6, net2x7, net2x8, net3x1, net3x2, net3x3, net3x4, net3x5, net3x6, net3x7, net3x8, net4x1, net4x2, net4x3, net4x4, net4x5, net4x6, net4x7, net4x8, net5x1, net5x2, net5x3, net5x4, net5x5, net5x6, net5x7, net5x8, net6x1, net6x2, net6x3, net6x4, net6x5, net6x6, net6x7, net6x8, net7x1, net7x2, net7x3, net7x4, net7x5, net7x6, net7x7, net7x8, net8x1, net8x2, net8x3, net8x4, net8x5, net8x6, net8x7, net8x8]

end FSat
