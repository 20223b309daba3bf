import Verif.Lemmas.NetworkCheck
/-!
The linear combinations for the networks in /repo/networks, written by tools/gen_networks.py.  Nothing rests on this file but what
`certified` says of it.
-/

namespace FSat

def cert10x10 : List (List Int × List PairProof) := [
  ([15], [
    ⟨10, 11, 2, [(1, .node 10), (-1, .node 11), (-1, .colour 7), (1, .colour 11)], []⟩,
    ⟨10, 14, 4, [(1, .node 8), (1, .node 9), (2, .node 10), (-1, .node 12), (-1, .node 13), (-2, .node 14), (-1, .colour 3), (1, .colour 5), (-2, .colour 7), (2, .colour 9)], [(1, (8, false), (12, false))]⟩,
    ⟨11, 14, 4, [(1, .node 8), (1, .node 9), (2, .node 11), (-1, .node 12), (-1, .node 13), (-2, .node 14), (-1, .colour 3), (1, .colour 5), (2, .colour 9), (-2, .colour 11)], [(1, (8, false), (12, false))]⟩,
    ⟨10, 15, 4, [(1, .node 8), (1, .node 9), (2, .node 10), (-1, .node 12), (-1, .node 13), (-2, .node 15), (-1, .colour 3), (1, .colour 5), (-2, .colour 7), (2, .colour 13)], [(1, (8, false), (12, false))]⟩,
    ⟨11, 15, 4, [(1, .node 8), (1, .node 9), (2, .node 11), (-1, .node 12), (-1, .node 13), (-2, .node 15), (-1, .colour 3), (1, .colour 5), (-2, .colour 11), (2, .colour 13)], [(1, (8, false), (12, false))]⟩,
    ⟨14, 15, 2, [(1, .node 14), (-1, .node 15), (-1, .colour 9), (1, .colour 13)], []⟩,
    ⟨10, 21, 8, [(1, .node 5), (1, .node 6), (1, .node 7), (2, .node 8), (2, .node 9), (4, .node 10), (-1, .node 16), (-1, .node 17), (-1, .node 18), (-2, .node 19), (-2, .node 20), (-4, .node 21), (-1, .colour 1), (1, .colour 2), (-2, .colour 3), (2, .colour 4), (-4, .colour 7), (4, .colour 8)], [(1, (5, false), (16, false)), (2, (8, false), (19, false))]⟩,
    ⟨11, 21, 8, [(1, .node 5), (1, .node 6), (1, .node 7), (2, .node 8), (2, .node 9), (4, .node 11), (-1, .node 16), (-1, .node 17), (-1, .node 18), (-2, .node 19), (-2, .node 20), (-4, .node 21), (-1, .colour 1), (1, .colour 2), (-2, .colour 3), (2, .colour 4), (4, .colour 8), (-4, .colour 11)], [(1, (5, false), (16, false)), (2, (8, false), (19, false))]⟩,
    ⟨14, 21, 8, [(1, .node 5), (1, .node 6), (1, .node 7), (2, .node 12), (2, .node 13), (4, .node 14), (-1, .node 16), (-1, .node 17), (-1, .node 18), (-2, .node 19), (-2, .node 20), (-4, .node 21), (-1, .colour 1), (1, .colour 2), (2, .colour 4), (-2, .colour 5), (4, .colour 8), (-4, .colour 9)], [(1, (5, false), (16, false)), (2, (12, false), (19, false))]⟩,
    ⟨15, 21, 8, [(1, .node 5), (1, .node 6), (1, .node 7), (2, .node 12), (2, .node 13), (4, .node 15), (-1, .node 16), (-1, .node 17), (-1, .node 18), (-2, .node 19), (-2, .node 20), (-4, .node 21), (-1, .colour 1), (1, .colour 2), (2, .colour 4), (-2, .colour 5), (4, .colour 8), (-4, .colour 13)], [(1, (5, false), (16, false)), (2, (12, false), (19, false))]⟩,
    ⟨10, 22, 8, [(1, .node 5), (1, .node 6), (1, .node 7), (2, .node 8), (2, .node 9), (4, .node 10), (-1, .node 16), (-1, .node 17), (-1, .node 18), (-2, .node 19), (-2, .node 20), (-4, .node 22), (-1, .colour 1), (1, .colour 2), (-2, .colour 3), (2, .colour 4), (-4, .colour 7), (4, .colour 12)], [(1, (5, false), (16, false)), (2, (8, false), (19, false))]⟩,
    ⟨11, 22, 8, [(1, .node 5), (1, .node 6), (1, .node 7), (2, .node 8), (2, .node 9), (4, .node 11), (-1, .node 16), (-1, .node 17), (-1, .node 18), (-2, .node 19), (-2, .node 20), (-4, .node 22), (-1, .colour 1), (1, .colour 2), (-2, .colour 3), (2, .colour 4), (-4, .colour 11), (4, .colour 12)], [(1, (5, false), (16, false)), (2, (8, false), (19, false))]⟩,
    ⟨14, 22, 8, [(1, .node 5), (1, .node 6), (1, .node 7), (2, .node 12), (2, .node 13), (4, .node 14), (-1, .node 16), (-1, .node 17), (-1, .node 18), (-2, .node 19), (-2, .node 20), (-4, .node 22), (-1, .colour 1), (1, .colour 2), (2, .colour 4), (-2, .colour 5), (-4, .colour 9), (4, .colour 12)], [(1, (5, false), (16, false)), (2, (12, false), (19, false))]⟩,
    ⟨15, 22, 8, [(1, .node 5), (1, .node 6), (1, .node 7), (2, .node 12), (2, .node 13), (4, .node 15), (-1, .node 16), (-1, .node 17), (-1, .node 18), (-2, .node 19), (-2, .node 20), (-4, .node 22), (-1, .colour 1), (1, .colour 2), (2, .colour 4), (-2, .colour 5), (4, .colour 12), (-4, .colour 13)], [(1, (5, false), (16, false)), (2, (12, false), (19, false))]⟩,
    ⟨21, 22, 2, [(1, .node 21), (-1, .node 22), (-1, .colour 8), (1, .colour 12)], []⟩,
    ⟨10, 25, 8, [(1, .node 5), (1, .node 6), (1, .node 7), (2, .node 8), (2, .node 9), (4, .node 10), (-1, .node 16), (-1, .node 17), (-1, .node 18), (-2, .node 23), (-2, .node 24), (-4, .node 25), (-1, .colour 1), (1, .colour 2), (-2, .colour 3), (2, .colour 6), (-4, .colour 7), (4, .colour 10)], [(1, (5, false), (16, false)), (2, (8, false), (23, false))]⟩,
    ⟨11, 25, 8, [(1, .node 5), (1, .node 6), (1, .node 7), (2, .node 8), (2, .node 9), (4, .node 11), (-1, .node 16), (-1, .node 17), (-1, .node 18), (-2, .node 23), (-2, .node 24), (-4, .node 25), (-1, .colour 1), (1, .colour 2), (-2, .colour 3), (2, .colour 6), (4, .colour 10), (-4, .colour 11)], [(1, (5, false), (16, false)), (2, (8, false), (23, false))]⟩,
    ⟨14, 25, 8, [(1, .node 5), (1, .node 6), (1, .node 7), (2, .node 12), (2, .node 13), (4, .node 14), (-1, .node 16), (-1, .node 17), (-1, .node 18), (-2, .node 23), (-2, .node 24), (-4, .node 25), (-1, .colour 1), (1, .colour 2), (-2, .colour 5), (2, .colour 6), (-4, .colour 9), (4, .colour 10)], [(1, (5, false), (16, false)), (2, (12, false), (23, false))]⟩,
    ⟨15, 25, 8, [(1, .node 5), (1, .node 6), (1, .node 7), (2, .node 12), (2, .node 13), (4, .node 15), (-1, .node 16), (-1, .node 17), (-1, .node 18), (-2, .node 23), (-2, .node 24), (-4, .node 25), (-1, .colour 1), (1, .colour 2), (-2, .colour 5), (2, .colour 6), (4, .colour 10), (-4, .colour 13)], [(1, (5, false), (16, false)), (2, (12, false), (23, false))]⟩,
    ⟨21, 25, 4, [(1, .node 19), (1, .node 20), (2, .node 21), (-1, .node 23), (-1, .node 24), (-2, .node 25), (-1, .colour 4), (1, .colour 6), (-2, .colour 8), (2, .colour 10)], [(1, (19, false), (23, false))]⟩,
    ⟨22, 25, 4, [(1, .node 19), (1, .node 20), (2, .node 22), (-1, .node 23), (-1, .node 24), (-2, .node 25), (-1, .colour 4), (1, .colour 6), (2, .colour 10), (-2, .colour 12)], [(1, (19, false), (23, false))]⟩,
    ⟨10, 26, 8, [(1, .node 5), (1, .node 6), (1, .node 7), (2, .node 8), (2, .node 9), (4, .node 10), (-1, .node 16), (-1, .node 17), (-1, .node 18), (-2, .node 23), (-2, .node 24), (-4, .node 26), (-1, .colour 1), (1, .colour 2), (-2, .colour 3), (2, .colour 6), (-4, .colour 7), (4, .colour 14)], [(1, (5, false), (16, false)), (2, (8, false), (23, false))]⟩,
    ⟨11, 26, 8, [(1, .node 5), (1, .node 6), (1, .node 7), (2, .node 8), (2, .node 9), (4, .node 11), (-1, .node 16), (-1, .node 17), (-1, .node 18), (-2, .node 23), (-2, .node 24), (-4, .node 26), (-1, .colour 1), (1, .colour 2), (-2, .colour 3), (2, .colour 6), (-4, .colour 11), (4, .colour 14)], [(1, (5, false), (16, false)), (2, (8, false), (23, false))]⟩,
    ⟨14, 26, 8, [(1, .node 5), (1, .node 6), (1, .node 7), (2, .node 12), (2, .node 13), (4, .node 14), (-1, .node 16), (-1, .node 17), (-1, .node 18), (-2, .node 23), (-2, .node 24), (-4, .node 26), (-1, .colour 1), (1, .colour 2), (-2, .colour 5), (2, .colour 6), (-4, .colour 9), (4, .colour 14)], [(1, (5, false), (16, false)), (2, (12, false), (23, false))]⟩,
    ⟨15, 26, 8, [(1, .node 5), (1, .node 6), (1, .node 7), (2, .node 12), (2, .node 13), (4, .node 15), (-1, .node 16), (-1, .node 17), (-1, .node 18), (-2, .node 23), (-2, .node 24), (-4, .node 26), (-1, .colour 1), (1, .colour 2), (-2, .colour 5), (2, .colour 6), (-4, .colour 13), (4, .colour 14)], [(1, (5, false), (16, false)), (2, (12, false), (23, false))]⟩,
    ⟨21, 26, 4, [(1, .node 19), (1, .node 20), (2, .node 21), (-1, .node 23), (-1, .node 24), (-2, .node 26), (-1, .colour 4), (1, .colour 6), (-2, .colour 8), (2, .colour 14)], [(1, (19, false), (23, false))]⟩,
    ⟨22, 26, 4, [(1, .node 19), (1, .node 20), (2, .node 22), (-1, .node 23), (-1, .node 24), (-2, .node 26), (-1, .colour 4), (1, .colour 6), (-2, .colour 12), (2, .colour 14)], [(1, (19, false), (23, false))]⟩,
    ⟨25, 26, 2, [(1, .node 25), (-1, .node 26), (-1, .colour 10), (1, .colour 14)], []⟩])]

def cert10x10Back : List (List Int × List PairProof) := [
  ([7], []),
  ([8], []),
  ([9], []),
  ([10], []),
  ([11], []),
  ([3], [
    ⟨8, 9, 2, [(1, .node 8), (-1, .node 9), (1, .colour 7), (1, .colour 11), (2, .used 7 8 false 10), (2, .used 11 8 true 11)], []⟩]),
  ([12], []),
  ([4], [
    ⟨19, 20, 2, [(1, .node 19), (-1, .node 20), (1, .colour 8), (1, .colour 12), (2, .used 8 19 false 21), (2, .used 12 19 true 22)], []⟩]),
  ([13], []),
  ([5], [
    ⟨12, 13, 2, [(1, .node 12), (-1, .node 13), (1, .colour 9), (1, .colour 13), (2, .used 9 12 false 14), (2, .used 13 12 true 15)], []⟩]),
  ([1], [
    ⟨5, 6, 2, [(1, .node 5), (-1, .node 6), (1, .used 3 5 false 8), (-1, .used 3 6 false 8), (1, .used 5 5 true 12), (-1, .used 5 6 true 12)], []⟩,
    ⟨5, 7, 2, [(1, .node 5), (-1, .node 7), (1, .node 8), (-1, .node 9), (1, .node 12), (-1, .node 13), (1, .colour 3), (1, .colour 5), (1, .colour 7), (1, .colour 9), (1, .colour 11), (1, .colour 13), (2, .used 7 8 false 10), (2, .used 9 12 false 14), (2, .used 11 8 true 11), (2, .used 3 5 false 8), (1, .used 3 6 false 8), (2, .used 13 12 true 15), (2, .used 5 5 true 12), (1, .used 5 6 true 12)], []⟩,
    ⟨6, 7, 2, [(1, .node 6), (-1, .node 7), (1, .node 8), (-1, .node 9), (1, .node 12), (-1, .node 13), (1, .colour 3), (1, .colour 5), (1, .colour 7), (1, .colour 9), (1, .colour 11), (1, .colour 13), (2, .used 7 8 false 10), (2, .used 9 12 false 14), (2, .used 11 8 true 11), (1, .used 3 5 false 8), (2, .used 3 6 false 8), (2, .used 13 12 true 15), (1, .used 5 5 true 12), (2, .used 5 6 true 12)], []⟩]),
  ([14], []),
  ([6], [
    ⟨23, 24, 2, [(1, .node 23), (-1, .node 24), (1, .colour 10), (1, .colour 14), (2, .used 10 23 false 25), (2, .used 14 23 true 26)], []⟩]),
  ([2], [
    ⟨16, 17, 2, [(1, .node 16), (-1, .node 17), (1, .used 4 16 false 19), (-1, .used 4 17 false 19), (1, .used 6 16 true 23), (-1, .used 6 17 true 23)], []⟩,
    ⟨16, 18, 2, [(1, .node 16), (-1, .node 18), (1, .node 19), (-1, .node 20), (1, .node 23), (-1, .node 24), (1, .colour 4), (1, .colour 6), (1, .colour 8), (1, .colour 10), (1, .colour 12), (1, .colour 14), (2, .used 8 19 false 21), (2, .used 10 23 false 25), (2, .used 12 19 true 22), (2, .used 4 16 false 19), (1, .used 4 17 false 19), (2, .used 14 23 true 26), (2, .used 6 16 true 23), (1, .used 6 17 true 23)], []⟩,
    ⟨17, 18, 2, [(1, .node 17), (-1, .node 18), (1, .node 19), (-1, .node 20), (1, .node 23), (-1, .node 24), (1, .colour 4), (1, .colour 6), (1, .colour 8), (1, .colour 10), (1, .colour 12), (1, .colour 14), (2, .used 8 19 false 21), (2, .used 10 23 false 25), (2, .used 12 19 true 22), (1, .used 4 16 false 19), (2, .used 4 17 false 19), (2, .used 14 23 true 26), (1, .used 6 16 true 23), (2, .used 6 17 true 23)], []⟩]),
  ([0], [
    ⟨0, 1, 2, [(1, .node 0), (-1, .node 1), (1, .used 1 0 false 5), (-1, .used 1 1 false 5), (1, .used 2 0 true 16), (-1, .used 2 1 true 16)], []⟩,
    ⟨0, 2, 2, [(1, .node 0), (-1, .node 2), (1, .used 1 0 false 5), (-1, .used 1 2 false 5), (1, .used 2 0 true 16), (-1, .used 2 2 true 16)], []⟩,
    ⟨1, 2, 2, [(1, .node 1), (-1, .node 2), (1, .used 1 1 false 5), (-1, .used 1 2 false 5), (1, .used 2 1 true 16), (-1, .used 2 2 true 16)], []⟩,
    ⟨0, 3, 2, [(1, .node 0), (-1, .node 3), (1, .used 1 0 false 5), (-1, .used 1 3 false 5), (1, .used 2 0 true 16), (-1, .used 2 3 true 16)], []⟩,
    ⟨1, 3, 2, [(1, .node 1), (-1, .node 3), (1, .used 1 1 false 5), (-1, .used 1 3 false 5), (1, .used 2 1 true 16), (-1, .used 2 3 true 16)], []⟩,
    ⟨2, 3, 2, [(1, .node 2), (-1, .node 3), (1, .used 1 2 false 5), (-1, .used 1 3 false 5), (1, .used 2 2 true 16), (-1, .used 2 3 true 16)], []⟩,
    ⟨0, 4, 2, [(1, .node 0), (-1, .node 4), (2, .node 5), (-1, .node 6), (-1, .node 7), (1, .node 8), (-1, .node 9), (1, .node 12), (-1, .node 13), (2, .node 16), (-1, .node 17), (-1, .node 18), (1, .node 19), (-1, .node 20), (1, .node 23), (-1, .node 24), (1, .colour 1), (1, .colour 2), (1, .colour 3), (1, .colour 4), (1, .colour 5), (1, .colour 6), (1, .colour 7), (1, .colour 8), (1, .colour 9), (1, .colour 10), (1, .colour 11), (1, .colour 12), (1, .colour 13), (1, .colour 14), (2, .used 7 8 false 10), (2, .used 8 19 false 21), (2, .used 9 12 false 14), (2, .used 10 23 false 25), (2, .used 11 8 true 11), (3, .used 3 5 false 8), (2, .used 12 19 true 22), (3, .used 4 16 false 19), (2, .used 13 12 true 15), (3, .used 5 5 true 12), (2, .used 1 0 false 5), (1, .used 1 1 false 5), (1, .used 1 2 false 5), (1, .used 1 3 false 5), (2, .used 14 23 true 26), (3, .used 6 16 true 23), (2, .used 2 0 true 16), (1, .used 2 1 true 16), (1, .used 2 2 true 16), (1, .used 2 3 true 16)], []⟩,
    ⟨1, 4, 2, [(1, .node 1), (-1, .node 4), (2, .node 5), (-1, .node 6), (-1, .node 7), (1, .node 8), (-1, .node 9), (1, .node 12), (-1, .node 13), (2, .node 16), (-1, .node 17), (-1, .node 18), (1, .node 19), (-1, .node 20), (1, .node 23), (-1, .node 24), (1, .colour 1), (1, .colour 2), (1, .colour 3), (1, .colour 4), (1, .colour 5), (1, .colour 6), (1, .colour 7), (1, .colour 8), (1, .colour 9), (1, .colour 10), (1, .colour 11), (1, .colour 12), (1, .colour 13), (1, .colour 14), (2, .used 7 8 false 10), (2, .used 8 19 false 21), (2, .used 9 12 false 14), (2, .used 10 23 false 25), (2, .used 11 8 true 11), (3, .used 3 5 false 8), (2, .used 12 19 true 22), (3, .used 4 16 false 19), (2, .used 13 12 true 15), (3, .used 5 5 true 12), (1, .used 1 0 false 5), (2, .used 1 1 false 5), (1, .used 1 2 false 5), (1, .used 1 3 false 5), (2, .used 14 23 true 26), (3, .used 6 16 true 23), (1, .used 2 0 true 16), (2, .used 2 1 true 16), (1, .used 2 2 true 16), (1, .used 2 3 true 16)], []⟩,
    ⟨2, 4, 2, [(1, .node 2), (-1, .node 4), (2, .node 5), (-1, .node 6), (-1, .node 7), (1, .node 8), (-1, .node 9), (1, .node 12), (-1, .node 13), (2, .node 16), (-1, .node 17), (-1, .node 18), (1, .node 19), (-1, .node 20), (1, .node 23), (-1, .node 24), (1, .colour 1), (1, .colour 2), (1, .colour 3), (1, .colour 4), (1, .colour 5), (1, .colour 6), (1, .colour 7), (1, .colour 8), (1, .colour 9), (1, .colour 10), (1, .colour 11), (1, .colour 12), (1, .colour 13), (1, .colour 14), (2, .used 7 8 false 10), (2, .used 8 19 false 21), (2, .used 9 12 false 14), (2, .used 10 23 false 25), (2, .used 11 8 true 11), (3, .used 3 5 false 8), (2, .used 12 19 true 22), (3, .used 4 16 false 19), (2, .used 13 12 true 15), (3, .used 5 5 true 12), (1, .used 1 0 false 5), (1, .used 1 1 false 5), (2, .used 1 2 false 5), (1, .used 1 3 false 5), (2, .used 14 23 true 26), (3, .used 6 16 true 23), (1, .used 2 0 true 16), (1, .used 2 1 true 16), (2, .used 2 2 true 16), (1, .used 2 3 true 16)], []⟩,
    ⟨3, 4, 2, [(1, .node 3), (-1, .node 4), (2, .node 5), (-1, .node 6), (-1, .node 7), (1, .node 8), (-1, .node 9), (1, .node 12), (-1, .node 13), (2, .node 16), (-1, .node 17), (-1, .node 18), (1, .node 19), (-1, .node 20), (1, .node 23), (-1, .node 24), (1, .colour 1), (1, .colour 2), (1, .colour 3), (1, .colour 4), (1, .colour 5), (1, .colour 6), (1, .colour 7), (1, .colour 8), (1, .colour 9), (1, .colour 10), (1, .colour 11), (1, .colour 12), (1, .colour 13), (1, .colour 14), (2, .used 7 8 false 10), (2, .used 8 19 false 21), (2, .used 9 12 false 14), (2, .used 10 23 false 25), (2, .used 11 8 true 11), (3, .used 3 5 false 8), (2, .used 12 19 true 22), (3, .used 4 16 false 19), (2, .used 13 12 true 15), (3, .used 5 5 true 12), (1, .used 1 0 false 5), (1, .used 1 1 false 5), (1, .used 1 2 false 5), (2, .used 1 3 false 5), (2, .used 14 23 true 26), (3, .used 6 16 true 23), (1, .used 2 0 true 16), (1, .used 2 1 true 16), (1, .used 2 2 true 16), (2, .used 2 3 true 16)], []⟩])]

def cert1x2 : List (List Int × List PairProof) := [
  ([1], [])]

def cert1x2Back : List (List Int × List PairProof) := [
  ([0], [])]

def cert1x3 : List (List Int × List PairProof) := [
  ([1], []),
  ([2], [
    ⟨1, 2, 2, [(1, .node 1), (-1, .node 2), (1, .colour 1), (2, .used 1 1 true 0)], []⟩])]

def cert1x3Back : List (List Int × List PairProof) := [
  ([0], [])]

def cert1x4 : List (List Int × List PairProof) := [
  ([1], []),
  ([2], [
    ⟨1, 2, 2, [(1, .node 1), (-1, .node 2), (1, .colour 1), (2, .used 1 1 true 0)], []⟩])]

def cert1x4Back : List (List Int × List PairProof) := [
  ([0], [])]

def cert1x5 : List (List Int × List PairProof) := [
  ([1], []),
  ([2], [
    ⟨1, 2, 2, [(1, .node 1), (-1, .node 2), (1, .colour 1), (2, .used 1 1 true 0)], []⟩]),
  ([3], [
    ⟨3, 4, 2, [(1, .node 3), (-1, .node 4), (1, .used 2 3 true 1), (-1, .used 2 4 true 1)], []⟩,
    ⟨3, 5, 2, [(1, .node 3), (-1, .node 5), (1, .used 2 3 true 1), (-1, .used 2 5 true 1)], []⟩,
    ⟨4, 5, 2, [(1, .node 4), (-1, .node 5), (1, .used 2 4 true 1), (-1, .used 2 5 true 1)], []⟩])]

def cert1x5Back : List (List Int × List PairProof) := [
  ([0], [])]

def cert1x6 : List (List Int × List PairProof) := [
  ([1], []),
  ([2], [
    ⟨1, 2, 2, [(1, .node 1), (-1, .node 2), (1, .colour 1), (2, .used 1 1 true 0)], []⟩]),
  ([3], [
    ⟨3, 4, 2, [(1, .node 3), (-1, .node 4), (1, .used 2 3 true 1), (-1, .used 2 4 true 1)], []⟩,
    ⟨3, 5, 4, [(1, .node 1), (-1, .node 2), (2, .node 3), (-2, .node 5), (1, .colour 1), (2, .colour 2), (2, .used 1 1 true 0), (4, .used 2 3 true 1), (2, .used 2 4 true 1)], []⟩,
    ⟨4, 5, 4, [(1, .node 1), (-1, .node 2), (2, .node 4), (-2, .node 5), (1, .colour 1), (2, .colour 2), (2, .used 1 1 true 0), (2, .used 2 3 true 1), (4, .used 2 4 true 1)], []⟩])]

def cert1x6Back : List (List Int × List PairProof) := [
  ([0], [])]

def cert1x7 : List (List Int × List PairProof) := [
  ([1], []),
  ([2], [
    ⟨1, 2, 2, [(1, .node 1), (-1, .node 2), (1, .colour 1), (2, .used 1 1 true 0)], []⟩]),
  ([3], [
    ⟨3, 4, 2, [(1, .node 3), (-1, .node 4), (1, .used 2 3 true 1), (-1, .used 2 4 true 1)], []⟩,
    ⟨3, 5, 2, [(1, .node 3), (-1, .node 5), (1, .used 2 3 true 1), (-1, .used 2 5 true 1)], []⟩,
    ⟨4, 5, 2, [(1, .node 4), (-1, .node 5), (1, .used 2 4 true 1), (-1, .used 2 5 true 1)], []⟩,
    ⟨3, 6, 2, [(1, .node 1), (-1, .node 2), (1, .node 3), (-1, .node 6), (1, .colour 1), (1, .colour 2), (2, .used 1 1 true 0), (2, .used 2 3 true 1), (1, .used 2 4 true 1), (1, .used 2 5 true 1)], []⟩,
    ⟨4, 6, 2, [(1, .node 1), (-1, .node 2), (1, .node 4), (-1, .node 6), (1, .colour 1), (1, .colour 2), (2, .used 1 1 true 0), (1, .used 2 3 true 1), (2, .used 2 4 true 1), (1, .used 2 5 true 1)], []⟩,
    ⟨5, 6, 2, [(1, .node 1), (-1, .node 2), (1, .node 5), (-1, .node 6), (1, .colour 1), (1, .colour 2), (2, .used 1 1 true 0), (1, .used 2 3 true 1), (1, .used 2 4 true 1), (2, .used 2 5 true 1)], []⟩])]

def cert1x7Back : List (List Int × List PairProof) := [
  ([0], [])]

def cert1x8 : List (List Int × List PairProof) := [
  ([1], []),
  ([2], [
    ⟨1, 2, 2, [(1, .node 1), (-1, .node 2), (1, .colour 1), (2, .used 1 1 true 0)], []⟩]),
  ([3], [
    ⟨3, 4, 2, [(1, .node 3), (-1, .node 4), (1, .used 2 3 true 1), (-1, .used 2 4 true 1)], []⟩,
    ⟨3, 5, 2, [(1, .node 3), (-1, .node 5), (1, .used 2 3 true 1), (-1, .used 2 5 true 1)], []⟩,
    ⟨4, 5, 2, [(1, .node 4), (-1, .node 5), (1, .used 2 4 true 1), (-1, .used 2 5 true 1)], []⟩,
    ⟨3, 6, 2, [(1, .node 1), (-1, .node 2), (1, .node 3), (-1, .node 6), (1, .colour 1), (1, .colour 2), (2, .used 1 1 true 0), (2, .used 2 3 true 1), (1, .used 2 4 true 1), (1, .used 2 5 true 1)], []⟩,
    ⟨4, 6, 2, [(1, .node 1), (-1, .node 2), (1, .node 4), (-1, .node 6), (1, .colour 1), (1, .colour 2), (2, .used 1 1 true 0), (1, .used 2 3 true 1), (2, .used 2 4 true 1), (1, .used 2 5 true 1)], []⟩,
    ⟨5, 6, 2, [(1, .node 1), (-1, .node 2), (1, .node 5), (-1, .node 6), (1, .colour 1), (1, .colour 2), (2, .used 1 1 true 0), (1, .used 2 3 true 1), (1, .used 2 4 true 1), (2, .used 2 5 true 1)], []⟩])]

def cert1x8Back : List (List Int × List PairProof) := [
  ([0], [])]

def cert2x1 : List (List Int × List PairProof) := [
  ([1], [])]

def cert2x1Back : List (List Int × List PairProof) := [
  ([0], [])]

def cert2x2 : List (List Int × List PairProof) := [
  ([1], [])]

def cert2x2Back : List (List Int × List PairProof) := [
  ([0], [])]

def cert2x3 : List (List Int × List PairProof) := [
  ([1], []),
  ([2], []),
  ([3], [
    ⟨2, 3, 2, [(1, .node 2), (-1, .node 3), (1, .colour 1), (1, .colour 2), (2, .used 1 2 true 0), (2, .used 2 2 false 1)], []⟩])]

def cert2x3Back : List (List Int × List PairProof) := [
  ([0], [])]

def cert2x4 : List (List Int × List PairProof) := [
  ([1], []),
  ([2], [
    ⟨1, 2, 2, [(1, .node 1), (-1, .node 2), (1, .colour 1), (2, .used 1 1 true 0)], []⟩])]

def cert2x4Back : List (List Int × List PairProof) := [
  ([0], [])]

def cert2x5 : List (List Int × List PairProof) := [
  ([1], []),
  ([2], []),
  ([3], [
    ⟨2, 3, 2, [(1, .node 2), (-1, .node 3), (1, .colour 1), (1, .colour 2), (2, .used 1 2 false 0), (2, .used 2 2 true 1)], []⟩]),
  ([4], [
    ⟨4, 5, 2, [(1, .node 4), (-1, .node 5), (1, .used 3 4 true 2), (-1, .used 3 5 true 2)], []⟩,
    ⟨4, 6, 2, [(1, .node 2), (-1, .node 3), (1, .node 4), (-1, .node 6), (1, .colour 1), (1, .colour 2), (1, .colour 3), (2, .used 1 2 false 0), (2, .used 2 2 true 1), (1, .used 3 1 false 2), (2, .used 3 4 true 2), (1, .used 3 5 true 2)], []⟩,
    ⟨5, 6, 2, [(1, .node 2), (-1, .node 3), (1, .node 5), (-1, .node 6), (1, .colour 1), (1, .colour 2), (1, .colour 3), (2, .used 1 2 false 0), (2, .used 2 2 true 1), (1, .used 3 1 false 2), (1, .used 3 4 true 2), (2, .used 3 5 true 2)], []⟩])]

def cert2x5Back : List (List Int × List PairProof) := [
  ([0], [])]

def cert2x6 : List (List Int × List PairProof) := [
  ([1], []),
  ([2, 3], [
    ⟨1, 2, 2, [(1, .node 1), (-1, .node 2), (1, .colour 1), (2, .used 1 1 false 0)], [(1, (1, true), (2, true))]⟩,
    ⟨3, 4, 2, [(1, .node 3), (-1, .node 4)], [(1, (3, true), (4, true))]⟩,
    ⟨3, 5, 2, [(1, .node 3), (-1, .node 5)], [(1, (3, true), (5, true))]⟩,
    ⟨4, 5, 2, [(1, .node 4), (-1, .node 5)], [(1, (4, true), (5, true))]⟩,
    ⟨3, 6, 2, [(1, .node 3), (-1, .node 6)], [(1, (3, true), (6, true))]⟩,
    ⟨4, 6, 2, [(1, .node 4), (-1, .node 6)], [(1, (4, true), (6, true))]⟩,
    ⟨5, 6, 2, [(1, .node 5), (-1, .node 6)], [(1, (5, true), (6, true))]⟩])]

def cert2x6Back : List (List Int × List PairProof) := [
  ([0], [])]

def cert2x7 : List (List Int × List PairProof) := [
  ([1], []),
  ([2], []),
  ([3], [
    ⟨2, 3, 2, [(1, .node 2), (-1, .node 3), (1, .colour 1), (1, .colour 2), (2, .used 1 2 false 0), (2, .used 2 2 true 1)], []⟩]),
  ([4], [
    ⟨4, 5, 2, [(1, .node 4), (-1, .node 5), (1, .used 3 4 true 2), (-1, .used 3 5 true 2)], []⟩,
    ⟨4, 6, 2, [(1, .node 4), (-1, .node 6), (1, .used 3 4 true 2), (-1, .used 3 6 true 2)], []⟩,
    ⟨5, 6, 2, [(1, .node 5), (-1, .node 6), (1, .used 3 5 true 2), (-1, .used 3 6 true 2)], []⟩,
    ⟨4, 7, 2, [(1, .node 2), (-1, .node 3), (1, .node 4), (-1, .node 7), (1, .colour 1), (1, .colour 2), (1, .colour 3), (2, .used 1 2 false 0), (2, .used 2 2 true 1), (2, .used 3 4 true 2), (1, .used 3 5 true 2), (1, .used 3 6 true 2)], []⟩,
    ⟨5, 7, 2, [(1, .node 2), (-1, .node 3), (1, .node 5), (-1, .node 7), (1, .colour 1), (1, .colour 2), (1, .colour 3), (2, .used 1 2 false 0), (2, .used 2 2 true 1), (1, .used 3 4 true 2), (2, .used 3 5 true 2), (1, .used 3 6 true 2)], []⟩,
    ⟨6, 7, 2, [(1, .node 2), (-1, .node 3), (1, .node 6), (-1, .node 7), (1, .colour 1), (1, .colour 2), (1, .colour 3), (2, .used 1 2 false 0), (2, .used 2 2 true 1), (1, .used 3 4 true 2), (1, .used 3 5 true 2), (2, .used 3 6 true 2)], []⟩])]

def cert2x7Back : List (List Int × List PairProof) := [
  ([0], [])]

def cert2x8 : List (List Int × List PairProof) := [
  ([1], []),
  ([2], [
    ⟨1, 2, 2, [(1, .node 1), (-1, .node 2), (1, .colour 1), (2, .used 1 1 true 0)], []⟩]),
  ([3], [
    ⟨3, 4, 2, [(1, .node 3), (-1, .node 4), (1, .used 2 3 true 1), (-1, .used 2 4 true 1)], []⟩,
    ⟨3, 5, 2, [(1, .node 3), (-1, .node 5), (1, .used 2 3 true 1), (-1, .used 2 5 true 1)], []⟩,
    ⟨4, 5, 2, [(1, .node 4), (-1, .node 5), (1, .used 2 4 true 1), (-1, .used 2 5 true 1)], []⟩,
    ⟨3, 6, 2, [(1, .node 1), (-1, .node 2), (1, .node 3), (-1, .node 6), (1, .colour 1), (1, .colour 2), (2, .used 1 1 true 0), (2, .used 2 3 true 1), (1, .used 2 4 true 1), (1, .used 2 5 true 1)], []⟩,
    ⟨4, 6, 2, [(1, .node 1), (-1, .node 2), (1, .node 4), (-1, .node 6), (1, .colour 1), (1, .colour 2), (2, .used 1 1 true 0), (1, .used 2 3 true 1), (2, .used 2 4 true 1), (1, .used 2 5 true 1)], []⟩,
    ⟨5, 6, 2, [(1, .node 1), (-1, .node 2), (1, .node 5), (-1, .node 6), (1, .colour 1), (1, .colour 2), (2, .used 1 1 true 0), (1, .used 2 3 true 1), (1, .used 2 4 true 1), (2, .used 2 5 true 1)], []⟩])]

def cert2x8Back : List (List Int × List PairProof) := [
  ([0], [])]

def cert3x1 : List (List Int × List PairProof) := [
  ([0], [])]

def cert3x1Back : List (List Int × List PairProof) := [
  ([1], []),
  ([2], [
    ⟨1, 2, 2, [(1, .node 1), (-1, .node 2), (1, .colour 1), (2, .used 1 1 false 0)], []⟩])]

def cert3x2 : List (List Int × List PairProof) := [
  ([0], [])]

def cert3x2Back : List (List Int × List PairProof) := [
  ([1], []),
  ([2], []),
  ([3], [
    ⟨2, 3, 2, [(1, .node 2), (-1, .node 3), (1, .colour 1), (1, .colour 2), (2, .used 1 2 true 0), (2, .used 2 2 false 1)], []⟩])]

def cert3x3 : List (List Int × List PairProof) := [
  ([1], []),
  ([2], []),
  ([3], [
    ⟨2, 3, 2, [(1, .node 2), (-1, .node 3), (1, .colour 1), (1, .colour 2), (2, .used 1 2 true 0), (2, .used 2 2 false 1)], []⟩])]

def cert3x3Back : List (List Int × List PairProof) := [
  ([0], [
    ⟨0, 1, 2, [(1, .node 0), (-1, .node 1), (-1, .colour 1), (1, .colour 2)], []⟩])]

def cert3x4 : List (List Int × List PairProof) := [
  ([1], []),
  ([2], []),
  ([3], [
    ⟨2, 3, 2, [(1, .node 2), (-1, .node 3), (1, .colour 1), (1, .colour 2), (2, .used 1 2 false 0), (2, .used 2 2 true 1)], []⟩]),
  ([4], []),
  ([5], [
    ⟨5, 6, 4, [(1, .node 2), (-1, .node 3), (2, .node 5), (-2, .node 6), (1, .colour 1), (1, .colour 2), (2, .colour 3), (2, .colour 4), (2, .used 1 2 false 0), (2, .used 2 2 true 1), (2, .used 3 4 true 2), (4, .used 3 5 false 2), (4, .used 4 5 true 4)], []⟩])]

def cert3x4Back : List (List Int × List PairProof) := [
  ([0], [
    ⟨0, 1, 2, [(1, .node 0), (-1, .node 1), (-1, .colour 1), (1, .colour 2)], []⟩])]

def cert3x5 : List (List Int × List PairProof) := [
  ([1], []),
  ([2], []),
  ([3], [
    ⟨2, 3, 2, [(1, .node 2), (-1, .node 3), (1, .colour 1), (1, .colour 2), (2, .used 1 2 false 0), (2, .used 2 2 true 1)], []⟩]),
  ([4], []),
  ([5], [
    ⟨5, 6, 2, [(1, .node 5), (-1, .node 6), (1, .colour 4), (2, .used 4 5 true 4)], []⟩]),
  ([6], [
    ⟨7, 8, 2, [(1, .node 7), (-1, .node 8), (1, .used 3 7 false 2), (-1, .used 3 8 false 2), (1, .used 5 7 true 5), (-1, .used 5 8 true 5)], []⟩,
    ⟨7, 9, 4, [(1, .node 2), (-1, .node 3), (2, .node 5), (-2, .node 6), (2, .node 7), (-2, .node 9), (1, .colour 1), (1, .colour 2), (2, .colour 3), (2, .colour 4), (2, .colour 5), (2, .used 1 2 false 0), (2, .used 2 2 true 1), (4, .used 3 7 false 2), (2, .used 3 8 false 2), (4, .used 4 5 true 4), (2, .used 5 4 false 5), (4, .used 5 7 true 5), (2, .used 5 8 true 5)], []⟩,
    ⟨8, 9, 4, [(1, .node 2), (-1, .node 3), (2, .node 5), (-2, .node 6), (2, .node 8), (-2, .node 9), (1, .colour 1), (1, .colour 2), (2, .colour 3), (2, .colour 4), (2, .colour 5), (2, .used 1 2 false 0), (2, .used 2 2 true 1), (2, .used 3 7 false 2), (4, .used 3 8 false 2), (4, .used 4 5 true 4), (2, .used 5 4 false 5), (2, .used 5 7 true 5), (4, .used 5 8 true 5)], []⟩])]

def cert3x5Back : List (List Int × List PairProof) := [
  ([0], [
    ⟨0, 1, 2, [(1, .node 0), (-1, .node 1), (-1, .colour 1), (1, .colour 2)], []⟩])]

def cert3x6 : List (List Int × List PairProof) := [
  ([1], []),
  ([2], []),
  ([3], [
    ⟨2, 3, 2, [(1, .node 2), (-1, .node 3), (1, .colour 1), (1, .colour 2), (2, .used 1 2 false 0), (2, .used 2 2 true 1)], []⟩]),
  ([4], [
    ⟨4, 5, 2, [(1, .node 4), (-1, .node 5), (1, .used 3 4 true 2), (-1, .used 3 5 true 2)], []⟩,
    ⟨4, 6, 4, [(1, .node 2), (-1, .node 3), (2, .node 4), (-2, .node 6), (1, .colour 1), (1, .colour 2), (2, .colour 3), (2, .used 1 2 false 0), (2, .used 2 2 true 1), (4, .used 3 4 true 2), (2, .used 3 5 true 2)], []⟩,
    ⟨5, 6, 4, [(1, .node 2), (-1, .node 3), (2, .node 5), (-2, .node 6), (1, .colour 1), (1, .colour 2), (2, .colour 3), (2, .used 1 2 false 0), (2, .used 2 2 true 1), (2, .used 3 4 true 2), (4, .used 3 5 true 2)], []⟩])]

def cert3x6Back : List (List Int × List PairProof) := [
  ([0], [
    ⟨0, 1, 2, [(1, .node 0), (-1, .node 1), (-1, .colour 1), (1, .colour 2)], []⟩])]

def cert3x7 : List (List Int × List PairProof) := [
  ([1], []),
  ([2], []),
  ([3], [
    ⟨2, 3, 2, [(1, .node 2), (-1, .node 3), (1, .colour 1), (1, .colour 2), (2, .used 1 2 false 0), (2, .used 2 2 true 1)], []⟩]),
  ([4], []),
  ([5], [
    ⟨5, 6, 4, [(1, .node 2), (-1, .node 3), (2, .node 5), (-2, .node 6), (1, .colour 1), (1, .colour 2), (2, .colour 3), (2, .colour 4), (2, .used 1 2 false 0), (2, .used 2 2 true 1), (2, .used 3 4 false 2), (4, .used 3 5 false 2), (4, .used 4 5 true 4)], []⟩]),
  ([6], [
    ⟨7, 8, 2, [(1, .node 7), (-1, .node 8), (1, .used 5 7 true 5), (-1, .used 5 8 true 5)], []⟩,
    ⟨7, 9, 2, [(1, .node 7), (-1, .node 9), (1, .used 5 7 true 5), (-1, .used 5 9 true 5)], []⟩,
    ⟨8, 9, 2, [(1, .node 8), (-1, .node 9), (1, .used 5 8 true 5), (-1, .used 5 9 true 5)], []⟩,
    ⟨7, 10, 4, [(1, .node 2), (-1, .node 3), (2, .node 5), (-2, .node 6), (2, .node 7), (-2, .node 10), (1, .colour 1), (1, .colour 2), (2, .colour 3), (2, .colour 4), (2, .colour 5), (2, .used 1 2 false 0), (2, .used 2 2 true 1), (2, .used 3 4 false 2), (4, .used 3 5 false 2), (4, .used 4 5 true 4), (4, .used 5 7 true 5), (2, .used 5 8 true 5), (2, .used 5 9 true 5)], []⟩,
    ⟨8, 10, 4, [(1, .node 2), (-1, .node 3), (2, .node 5), (-2, .node 6), (2, .node 8), (-2, .node 10), (1, .colour 1), (1, .colour 2), (2, .colour 3), (2, .colour 4), (2, .colour 5), (2, .used 1 2 false 0), (2, .used 2 2 true 1), (2, .used 3 4 false 2), (4, .used 3 5 false 2), (4, .used 4 5 true 4), (2, .used 5 7 true 5), (4, .used 5 8 true 5), (2, .used 5 9 true 5)], []⟩,
    ⟨9, 10, 4, [(1, .node 2), (-1, .node 3), (2, .node 5), (-2, .node 6), (2, .node 9), (-2, .node 10), (1, .colour 1), (1, .colour 2), (2, .colour 3), (2, .colour 4), (2, .colour 5), (2, .used 1 2 false 0), (2, .used 2 2 true 1), (2, .used 3 4 false 2), (4, .used 3 5 false 2), (4, .used 4 5 true 4), (2, .used 5 7 true 5), (2, .used 5 8 true 5), (4, .used 5 9 true 5)], []⟩])]

def cert3x7Back : List (List Int × List PairProof) := [
  ([0], [
    ⟨0, 1, 2, [(1, .node 0), (-1, .node 1), (-1, .colour 1), (1, .colour 2)], []⟩])]

def cert3x8 : List (List Int × List PairProof) := [
  ([1], []),
  ([2], []),
  ([3], [
    ⟨2, 3, 2, [(1, .node 2), (-1, .node 3), (1, .colour 1), (1, .colour 2), (2, .used 1 2 false 0), (2, .used 2 2 true 1)], []⟩]),
  ([4], []),
  ([5], [
    ⟨5, 6, 4, [(1, .node 2), (-1, .node 3), (2, .node 5), (-2, .node 6), (1, .colour 1), (1, .colour 2), (2, .colour 3), (2, .colour 4), (2, .used 1 2 false 0), (2, .used 2 2 true 1), (2, .used 3 4 true 2), (4, .used 3 5 false 2), (4, .used 4 5 true 4)], []⟩]),
  ([6], [
    ⟨7, 8, 2, [(1, .node 7), (-1, .node 8), (1, .used 5 7 true 5), (-1, .used 5 8 true 5)], []⟩,
    ⟨7, 9, 2, [(1, .node 7), (-1, .node 9), (1, .used 5 7 true 5), (-1, .used 5 9 true 5)], []⟩,
    ⟨8, 9, 2, [(1, .node 8), (-1, .node 9), (1, .used 5 8 true 5), (-1, .used 5 9 true 5)], []⟩,
    ⟨7, 10, 4, [(1, .node 2), (-1, .node 3), (2, .node 5), (-2, .node 6), (2, .node 7), (-2, .node 10), (1, .colour 1), (1, .colour 2), (2, .colour 3), (2, .colour 4), (2, .colour 5), (2, .used 1 2 false 0), (2, .used 2 2 true 1), (2, .used 3 4 true 2), (4, .used 3 5 false 2), (4, .used 4 5 true 4), (4, .used 5 7 true 5), (2, .used 5 8 true 5), (2, .used 5 9 true 5)], []⟩,
    ⟨8, 10, 4, [(1, .node 2), (-1, .node 3), (2, .node 5), (-2, .node 6), (2, .node 8), (-2, .node 10), (1, .colour 1), (1, .colour 2), (2, .colour 3), (2, .colour 4), (2, .colour 5), (2, .used 1 2 false 0), (2, .used 2 2 true 1), (2, .used 3 4 true 2), (4, .used 3 5 false 2), (4, .used 4 5 true 4), (2, .used 5 7 true 5), (4, .used 5 8 true 5), (2, .used 5 9 true 5)], []⟩,
    ⟨9, 10, 4, [(1, .node 2), (-1, .node 3), (2, .node 5), (-2, .node 6), (2, .node 9), (-2, .node 10), (1, .colour 1), (1, .colour 2), (2, .colour 3), (2, .colour 4), (2, .colour 5), (2, .used 1 2 false 0), (2, .used 2 2 true 1), (2, .used 3 4 true 2), (4, .used 3 5 false 2), (4, .used 4 5 true 4), (2, .used 5 7 true 5), (2, .used 5 8 true 5), (4, .used 5 9 true 5)], []⟩])]

def cert3x8Back : List (List Int × List PairProof) := [
  ([0], [
    ⟨0, 1, 2, [(1, .node 0), (-1, .node 1), (-1, .colour 1), (1, .colour 2)], []⟩])]

def cert4x1 : List (List Int × List PairProof) := [
  ([3], [])]

def cert4x1Back : List (List Int × List PairProof) := [
  ([0], [
    ⟨0, 1, 2, [(1, .node 0), (-1, .node 1), (-1, .colour 1), (1, .colour 2)], []⟩])]

def cert4x2 : List (List Int × List PairProof) := [
  ([3], [])]

def cert4x2Back : List (List Int × List PairProof) := [
  ([0], [
    ⟨0, 1, 2, [(1, .node 0), (-1, .node 1), (-1, .colour 1), (1, .colour 2)], []⟩])]

def cert4x3 : List (List Int × List PairProof) := [
  ([0], [
    ⟨0, 1, 2, [(1, .node 0), (-1, .node 1), (-1, .colour 1), (1, .colour 2)], []⟩])]

def cert4x3Back : List (List Int × List PairProof) := [
  ([1], []),
  ([2], []),
  ([3], [
    ⟨2, 3, 2, [(1, .node 2), (-1, .node 3), (1, .colour 1), (1, .colour 2), (2, .used 1 2 true 0), (2, .used 2 2 false 1)], []⟩]),
  ([4], []),
  ([5], [
    ⟨5, 6, 4, [(1, .node 2), (-1, .node 3), (2, .node 5), (-2, .node 6), (1, .colour 1), (1, .colour 2), (2, .colour 3), (2, .colour 4), (2, .used 1 2 true 0), (2, .used 2 2 false 1), (2, .used 3 4 false 2), (4, .used 3 5 true 2), (4, .used 4 5 false 4)], []⟩])]

def cert4x4 : List (List Int × List PairProof) := [
  ([3], []),
  ([4], []),
  ([5], [
    ⟨4, 5, 2, [(1, .node 4), (-1, .node 5), (1, .colour 3), (1, .colour 4), (2, .used 3 4 false 3), (2, .used 4 4 true 2)], []⟩])]

def cert4x4Back : List (List Int × List PairProof) := [
  ([1], []),
  ([2], []),
  ([0], [
    ⟨0, 1, 2, [(1, .node 0), (-1, .node 1), (1, .colour 1), (1, .colour 2), (2, .used 1 0 false 2), (2, .used 2 0 true 3)], []⟩])]

def cert4x5 : List (List Int × List PairProof) := [
  ([1], []),
  ([2], []),
  ([3], [
    ⟨2, 3, 2, [(1, .node 2), (-1, .node 3), (1, .colour 1), (1, .colour 2), (2, .used 1 2 false 0), (2, .used 2 2 true 1)], []⟩]),
  ([5], []),
  ([6], []),
  ([7], [
    ⟨6, 7, 2, [(1, .node 6), (-1, .node 7), (1, .colour 5), (1, .colour 6), (2, .used 5 6 false 4), (2, .used 6 6 true 5)], []⟩]),
  ([8], [
    ⟨8, 9, 2, [(1, .node 8), (-1, .node 9), (1, .used 3 8 false 2), (-1, .used 3 9 false 2), (1, .used 7 8 true 6), (-1, .used 7 9 true 6)], []⟩,
    ⟨8, 10, 4, [(1, .node 2), (-1, .node 3), (1, .node 6), (-1, .node 7), (2, .node 8), (-2, .node 10), (1, .colour 1), (1, .colour 2), (2, .colour 3), (1, .colour 5), (1, .colour 6), (2, .colour 7), (2, .used 1 2 false 0), (2, .used 2 2 true 1), (4, .used 3 8 false 2), (2, .used 3 9 false 2), (2, .used 5 6 false 4), (2, .used 6 6 true 5), (4, .used 7 8 true 6), (2, .used 7 9 true 6)], []⟩,
    ⟨9, 10, 4, [(1, .node 2), (-1, .node 3), (1, .node 6), (-1, .node 7), (2, .node 9), (-2, .node 10), (1, .colour 1), (1, .colour 2), (2, .colour 3), (1, .colour 5), (1, .colour 6), (2, .colour 7), (2, .used 1 2 false 0), (2, .used 2 2 true 1), (2, .used 3 8 false 2), (4, .used 3 9 false 2), (2, .used 5 6 false 4), (2, .used 6 6 true 5), (2, .used 7 8 true 6), (4, .used 7 9 true 6)], []⟩])]

def cert4x5Back : List (List Int × List PairProof) := [
  ([0], [
    ⟨0, 1, 2, [(1, .node 0), (-1, .node 1), (-1, .colour 1), (1, .colour 2)], []⟩])]

def cert4x6 : List (List Int × List PairProof) := [
  ([1], []),
  ([2], []),
  ([3], [
    ⟨2, 3, 2, [(1, .node 2), (-1, .node 3), (1, .colour 1), (1, .colour 2), (2, .used 1 2 false 0), (2, .used 2 2 true 1)], []⟩]),
  ([4], []),
  ([5], [
    ⟨5, 6, 2, [(1, .node 5), (-1, .node 6), (1, .colour 4), (2, .used 4 5 true 4)], []⟩]),
  ([6], [
    ⟨7, 8, 2, [(1, .node 7), (-1, .node 8), (1, .used 3 7 false 2), (-1, .used 3 8 false 2), (1, .used 5 7 true 5), (-1, .used 5 8 true 5)], []⟩,
    ⟨7, 9, 2, [(1, .node 2), (-1, .node 3), (1, .node 5), (-1, .node 6), (1, .node 7), (-1, .node 9), (1, .colour 1), (1, .colour 2), (1, .colour 3), (1, .colour 4), (1, .colour 5), (2, .used 1 2 false 0), (2, .used 2 2 true 1), (1, .used 3 4 false 2), (2, .used 3 7 false 2), (1, .used 3 8 false 2), (2, .used 4 5 true 4), (1, .used 5 4 true 5), (2, .used 5 7 true 5), (1, .used 5 8 true 5)], []⟩,
    ⟨8, 9, 2, [(1, .node 2), (-1, .node 3), (1, .node 5), (-1, .node 6), (1, .node 8), (-1, .node 9), (1, .colour 1), (1, .colour 2), (1, .colour 3), (1, .colour 4), (1, .colour 5), (2, .used 1 2 false 0), (2, .used 2 2 true 1), (1, .used 3 4 false 2), (1, .used 3 7 false 2), (2, .used 3 8 false 2), (2, .used 4 5 true 4), (1, .used 5 4 true 5), (1, .used 5 7 true 5), (2, .used 5 8 true 5)], []⟩])]

def cert4x6Back : List (List Int × List PairProof) := [
  ([0], [
    ⟨0, 1, 2, [(1, .node 0), (-1, .node 1), (-1, .colour 1), (1, .colour 2)], []⟩])]

def cert4x7 : List (List Int × List PairProof) := [
  ([1], []),
  ([2], []),
  ([3], [
    ⟨2, 3, 2, [(1, .node 2), (-1, .node 3), (1, .colour 1), (1, .colour 2), (2, .used 1 2 false 0), (2, .used 2 2 true 1)], []⟩]),
  ([4], []),
  ([5], [
    ⟨5, 6, 2, [(1, .node 5), (-1, .node 6), (1, .colour 4), (2, .used 4 5 true 4)], []⟩]),
  ([6], [
    ⟨7, 8, 2, [(1, .node 7), (-1, .node 8), (1, .used 3 7 false 2), (-1, .used 3 8 false 2), (1, .used 5 7 true 5), (-1, .used 5 8 true 5)], []⟩,
    ⟨7, 9, 2, [(1, .node 7), (-1, .node 9), (1, .used 3 7 false 2), (-1, .used 3 9 false 2), (1, .used 5 7 true 5), (-1, .used 5 9 true 5)], []⟩,
    ⟨8, 9, 2, [(1, .node 8), (-1, .node 9), (1, .used 3 8 false 2), (-1, .used 3 9 false 2), (1, .used 5 8 true 5), (-1, .used 5 9 true 5)], []⟩,
    ⟨7, 10, 2, [(1, .node 2), (-1, .node 3), (1, .node 5), (-1, .node 6), (1, .node 7), (-1, .node 10), (1, .colour 1), (1, .colour 2), (1, .colour 3), (1, .colour 4), (1, .colour 5), (2, .used 1 2 false 0), (2, .used 2 2 true 1), (2, .used 3 7 false 2), (1, .used 3 8 false 2), (1, .used 3 9 false 2), (2, .used 4 5 true 4), (2, .used 5 7 true 5), (1, .used 5 8 true 5), (1, .used 5 9 true 5)], []⟩,
    ⟨8, 10, 2, [(1, .node 2), (-1, .node 3), (1, .node 5), (-1, .node 6), (1, .node 8), (-1, .node 10), (1, .colour 1), (1, .colour 2), (1, .colour 3), (1, .colour 4), (1, .colour 5), (2, .used 1 2 false 0), (2, .used 2 2 true 1), (1, .used 3 7 false 2), (2, .used 3 8 false 2), (1, .used 3 9 false 2), (2, .used 4 5 true 4), (1, .used 5 7 true 5), (2, .used 5 8 true 5), (1, .used 5 9 true 5)], []⟩,
    ⟨9, 10, 2, [(1, .node 2), (-1, .node 3), (1, .node 5), (-1, .node 6), (1, .node 9), (-1, .node 10), (1, .colour 1), (1, .colour 2), (1, .colour 3), (1, .colour 4), (1, .colour 5), (2, .used 1 2 false 0), (2, .used 2 2 true 1), (1, .used 3 7 false 2), (1, .used 3 8 false 2), (2, .used 3 9 false 2), (2, .used 4 5 true 4), (1, .used 5 7 true 5), (1, .used 5 8 true 5), (2, .used 5 9 true 5)], []⟩])]

def cert4x7Back : List (List Int × List PairProof) := [
  ([0], [
    ⟨0, 1, 2, [(1, .node 0), (-1, .node 1), (-1, .colour 1), (1, .colour 2)], []⟩])]

def cert4x8 : List (List Int × List PairProof) := [
  ([1], []),
  ([2], []),
  ([3], [
    ⟨2, 3, 2, [(1, .node 2), (-1, .node 3), (1, .colour 1), (1, .colour 2), (2, .used 1 2 false 0), (2, .used 2 2 true 1)], []⟩]),
  ([4], [
    ⟨4, 5, 2, [(1, .node 4), (-1, .node 5), (1, .used 3 4 true 2), (-1, .used 3 5 true 2)], []⟩,
    ⟨4, 6, 2, [(1, .node 4), (-1, .node 6), (1, .used 3 4 true 2), (-1, .used 3 6 true 2)], []⟩,
    ⟨5, 6, 2, [(1, .node 5), (-1, .node 6), (1, .used 3 5 true 2), (-1, .used 3 6 true 2)], []⟩,
    ⟨4, 7, 2, [(1, .node 2), (-1, .node 3), (1, .node 4), (-1, .node 7), (1, .colour 1), (1, .colour 2), (1, .colour 3), (2, .used 1 2 false 0), (2, .used 2 2 true 1), (2, .used 3 4 true 2), (1, .used 3 5 true 2), (1, .used 3 6 true 2)], []⟩,
    ⟨5, 7, 2, [(1, .node 2), (-1, .node 3), (1, .node 5), (-1, .node 7), (1, .colour 1), (1, .colour 2), (1, .colour 3), (2, .used 1 2 false 0), (2, .used 2 2 true 1), (1, .used 3 4 true 2), (2, .used 3 5 true 2), (1, .used 3 6 true 2)], []⟩,
    ⟨6, 7, 2, [(1, .node 2), (-1, .node 3), (1, .node 6), (-1, .node 7), (1, .colour 1), (1, .colour 2), (1, .colour 3), (2, .used 1 2 false 0), (2, .used 2 2 true 1), (1, .used 3 4 true 2), (1, .used 3 5 true 2), (2, .used 3 6 true 2)], []⟩])]

def cert4x8Back : List (List Int × List PairProof) := [
  ([0], [
    ⟨0, 1, 2, [(1, .node 0), (-1, .node 1), (-1, .colour 1), (1, .colour 2)], []⟩])]

def cert5x1 : List (List Int × List PairProof) := [
  ([0], [])]

def cert5x1Back : List (List Int × List PairProof) := [
  ([1], []),
  ([2], [
    ⟨1, 2, 2, [(1, .node 1), (-1, .node 2), (1, .colour 1), (2, .used 1 1 false 0)], []⟩]),
  ([3], [
    ⟨3, 4, 2, [(1, .node 3), (-1, .node 4), (1, .used 2 3 false 1), (-1, .used 2 4 false 1)], []⟩,
    ⟨3, 5, 2, [(1, .node 3), (-1, .node 5), (1, .used 2 3 false 1), (-1, .used 2 5 false 1)], []⟩,
    ⟨4, 5, 2, [(1, .node 4), (-1, .node 5), (1, .used 2 4 false 1), (-1, .used 2 5 false 1)], []⟩])]

def cert5x2 : List (List Int × List PairProof) := [
  ([0], [])]

def cert5x2Back : List (List Int × List PairProof) := [
  ([1], []),
  ([2], []),
  ([3], [
    ⟨2, 3, 2, [(1, .node 2), (-1, .node 3), (1, .colour 1), (1, .colour 2), (2, .used 1 2 true 0), (2, .used 2 2 false 1)], []⟩]),
  ([4], [
    ⟨4, 5, 2, [(1, .node 4), (-1, .node 5), (1, .used 3 4 false 2), (-1, .used 3 5 false 2)], []⟩,
    ⟨4, 6, 2, [(1, .node 2), (-1, .node 3), (1, .node 4), (-1, .node 6), (1, .colour 1), (1, .colour 2), (1, .colour 3), (2, .used 1 2 true 0), (2, .used 2 2 false 1), (1, .used 3 1 true 2), (2, .used 3 4 false 2), (1, .used 3 5 false 2)], []⟩,
    ⟨5, 6, 2, [(1, .node 2), (-1, .node 3), (1, .node 5), (-1, .node 6), (1, .colour 1), (1, .colour 2), (1, .colour 3), (2, .used 1 2 true 0), (2, .used 2 2 false 1), (1, .used 3 1 true 2), (1, .used 3 4 false 2), (2, .used 3 5 false 2)], []⟩])]

def cert5x3 : List (List Int × List PairProof) := [
  ([0], [
    ⟨0, 1, 2, [(1, .node 0), (-1, .node 1), (-1, .colour 1), (1, .colour 2)], []⟩])]

def cert5x3Back : List (List Int × List PairProof) := [
  ([1], []),
  ([2], []),
  ([3], [
    ⟨2, 3, 2, [(1, .node 2), (-1, .node 3), (1, .colour 1), (1, .colour 2), (2, .used 1 2 true 0), (2, .used 2 2 false 1)], []⟩]),
  ([4], []),
  ([5], [
    ⟨5, 6, 2, [(1, .node 5), (-1, .node 6), (1, .colour 4), (2, .used 4 5 false 4)], []⟩]),
  ([6], [
    ⟨7, 8, 2, [(1, .node 7), (-1, .node 8), (1, .used 3 7 true 2), (-1, .used 3 8 true 2), (1, .used 5 7 false 5), (-1, .used 5 8 false 5)], []⟩,
    ⟨7, 9, 4, [(1, .node 2), (-1, .node 3), (2, .node 5), (-2, .node 6), (2, .node 7), (-2, .node 9), (1, .colour 1), (1, .colour 2), (2, .colour 3), (2, .colour 4), (2, .colour 5), (2, .used 1 2 true 0), (2, .used 2 2 false 1), (4, .used 3 7 true 2), (2, .used 3 8 true 2), (4, .used 4 5 false 4), (2, .used 5 4 true 5), (4, .used 5 7 false 5), (2, .used 5 8 false 5)], []⟩,
    ⟨8, 9, 4, [(1, .node 2), (-1, .node 3), (2, .node 5), (-2, .node 6), (2, .node 8), (-2, .node 9), (1, .colour 1), (1, .colour 2), (2, .colour 3), (2, .colour 4), (2, .colour 5), (2, .used 1 2 true 0), (2, .used 2 2 false 1), (2, .used 3 7 true 2), (4, .used 3 8 true 2), (4, .used 4 5 false 4), (2, .used 5 4 true 5), (2, .used 5 7 false 5), (4, .used 5 8 false 5)], []⟩])]

def cert5x4 : List (List Int × List PairProof) := [
  ([0], [
    ⟨0, 1, 2, [(1, .node 0), (-1, .node 1), (-1, .colour 1), (1, .colour 2)], []⟩])]

def cert5x4Back : List (List Int × List PairProof) := [
  ([1], []),
  ([2], []),
  ([3], [
    ⟨2, 3, 2, [(1, .node 2), (-1, .node 3), (1, .colour 1), (1, .colour 2), (2, .used 1 2 true 0), (2, .used 2 2 false 1)], []⟩]),
  ([5], []),
  ([6], []),
  ([7], [
    ⟨6, 7, 2, [(1, .node 6), (-1, .node 7), (1, .colour 5), (1, .colour 6), (2, .used 5 6 true 4), (2, .used 6 6 false 5)], []⟩]),
  ([8], [
    ⟨8, 9, 2, [(1, .node 8), (-1, .node 9), (1, .used 3 8 true 2), (-1, .used 3 9 true 2), (1, .used 7 8 false 6), (-1, .used 7 9 false 6)], []⟩,
    ⟨8, 10, 4, [(1, .node 2), (-1, .node 3), (1, .node 6), (-1, .node 7), (2, .node 8), (-2, .node 10), (1, .colour 1), (1, .colour 2), (2, .colour 3), (1, .colour 5), (1, .colour 6), (2, .colour 7), (2, .used 1 2 true 0), (2, .used 2 2 false 1), (4, .used 3 8 true 2), (2, .used 3 9 true 2), (2, .used 5 6 true 4), (2, .used 6 6 false 5), (4, .used 7 8 false 6), (2, .used 7 9 false 6)], []⟩,
    ⟨9, 10, 4, [(1, .node 2), (-1, .node 3), (1, .node 6), (-1, .node 7), (2, .node 9), (-2, .node 10), (1, .colour 1), (1, .colour 2), (2, .colour 3), (1, .colour 5), (1, .colour 6), (2, .colour 7), (2, .used 1 2 true 0), (2, .used 2 2 false 1), (2, .used 3 8 true 2), (4, .used 3 9 true 2), (2, .used 5 6 true 4), (2, .used 6 6 false 5), (2, .used 7 8 false 6), (4, .used 7 9 false 6)], []⟩])]

def cert5x5 : List (List Int × List PairProof) := [
  ([7], [
    ⟨5, 6, 2, [(1, .node 5), (-1, .node 6), (-1, .colour 3), (1, .colour 5)], []⟩,
    ⟨5, 9, 4, [(1, .node 3), (1, .node 4), (2, .node 5), (-1, .node 7), (-1, .node 8), (-2, .node 9), (-1, .colour 1), (1, .colour 2), (-2, .colour 3), (2, .colour 4)], [(1, (3, false), (7, false))]⟩,
    ⟨6, 9, 4, [(1, .node 3), (1, .node 4), (2, .node 6), (-1, .node 7), (-1, .node 8), (-2, .node 9), (-1, .colour 1), (1, .colour 2), (2, .colour 4), (-2, .colour 5)], [(1, (3, false), (7, false))]⟩,
    ⟨5, 10, 4, [(1, .node 3), (1, .node 4), (2, .node 5), (-1, .node 7), (-1, .node 8), (-2, .node 10), (-1, .colour 1), (1, .colour 2), (-2, .colour 3), (2, .colour 6)], [(1, (3, false), (7, false))]⟩,
    ⟨6, 10, 4, [(1, .node 3), (1, .node 4), (2, .node 6), (-1, .node 7), (-1, .node 8), (-2, .node 10), (-1, .colour 1), (1, .colour 2), (-2, .colour 5), (2, .colour 6)], [(1, (3, false), (7, false))]⟩,
    ⟨9, 10, 2, [(1, .node 9), (-1, .node 10), (-1, .colour 4), (1, .colour 6)], []⟩])]

def cert5x5Back : List (List Int × List PairProof) := [
  ([3], []),
  ([4], []),
  ([5], []),
  ([1], [
    ⟨3, 4, 2, [(1, .node 3), (-1, .node 4), (1, .colour 3), (1, .colour 5), (2, .used 3 3 false 5), (2, .used 5 3 true 6)], []⟩]),
  ([6], []),
  ([2], [
    ⟨7, 8, 2, [(1, .node 7), (-1, .node 8), (1, .colour 4), (1, .colour 6), (2, .used 4 7 false 9), (2, .used 6 7 true 10)], []⟩]),
  ([0], [
    ⟨0, 1, 2, [(1, .node 0), (-1, .node 1), (1, .used 1 0 false 3), (-1, .used 1 1 false 3), (1, .used 2 0 true 7), (-1, .used 2 1 true 7)], []⟩,
    ⟨0, 2, 2, [(1, .node 0), (-1, .node 2), (1, .node 3), (-1, .node 4), (1, .node 7), (-1, .node 8), (1, .colour 1), (1, .colour 2), (1, .colour 3), (1, .colour 4), (1, .colour 5), (1, .colour 6), (2, .used 3 3 false 5), (2, .used 4 7 false 9), (2, .used 5 3 true 6), (2, .used 1 0 false 3), (1, .used 1 1 false 3), (2, .used 6 7 true 10), (2, .used 2 0 true 7), (1, .used 2 1 true 7)], []⟩,
    ⟨1, 2, 2, [(1, .node 1), (-1, .node 2), (1, .node 3), (-1, .node 4), (1, .node 7), (-1, .node 8), (1, .colour 1), (1, .colour 2), (1, .colour 3), (1, .colour 4), (1, .colour 5), (1, .colour 6), (2, .used 3 3 false 5), (2, .used 4 7 false 9), (2, .used 5 3 true 6), (1, .used 1 0 false 3), (2, .used 1 1 false 3), (2, .used 6 7 true 10), (1, .used 2 0 true 7), (2, .used 2 1 true 7)], []⟩])]

def cert5x6 : List (List Int × List PairProof) := [
  ([1], []),
  ([2], []),
  ([3], []),
  ([4], []),
  ([5], [
    ⟨4, 5, 2, [(1, .node 4), (-1, .node 5), (1, .colour 1), (1, .colour 2), (2, .used 1 4 false 0), (2, .used 2 4 true 1)], []⟩]),
  ([6], [
    ⟨6, 7, 2, [(1, .node 6), (-1, .node 7), (1, .colour 3), (1, .colour 4), (2, .used 3 6 false 2), (2, .used 4 6 true 3)], []⟩]),
  ([7], [
    ⟨8, 9, 2, [(1, .node 8), (-1, .node 9), (1, .used 5 8 false 4), (-1, .used 5 9 false 4), (1, .used 6 8 true 6), (-1, .used 6 9 true 6)], []⟩,
    ⟨8, 10, 4, [(1, .node 4), (-1, .node 5), (1, .node 6), (-1, .node 7), (2, .node 8), (-2, .node 10), (1, .colour 1), (1, .colour 2), (1, .colour 3), (1, .colour 4), (2, .colour 5), (2, .colour 6), (2, .used 1 4 false 0), (2, .used 2 4 true 1), (2, .used 3 6 false 2), (2, .used 4 6 true 3), (4, .used 5 8 false 4), (2, .used 5 9 false 4), (4, .used 6 8 true 6), (2, .used 6 9 true 6)], []⟩,
    ⟨9, 10, 4, [(1, .node 4), (-1, .node 5), (1, .node 6), (-1, .node 7), (2, .node 9), (-2, .node 10), (1, .colour 1), (1, .colour 2), (1, .colour 3), (1, .colour 4), (2, .colour 5), (2, .colour 6), (2, .used 1 4 false 0), (2, .used 2 4 true 1), (2, .used 3 6 false 2), (2, .used 4 6 true 3), (2, .used 5 8 false 4), (4, .used 5 9 false 4), (2, .used 6 8 true 6), (4, .used 6 9 true 6)], []⟩]),
  ([8], []),
  ([9], [
    ⟨12, 13, 2, [(1, .node 12), (-1, .node 13), (1, .colour 8), (1, .used 7 12 false 8), (-1, .used 7 13 false 8), (2, .used 8 12 true 11)], []⟩]),
  ([10], [
    ⟨14, 15, 2, [(1, .node 14), (-1, .node 15), (1, .used 7 14 false 8), (-1, .used 7 15 false 8), (1, .used 9 14 true 12), (-1, .used 9 15 true 12)], []⟩,
    ⟨14, 16, 8, [(1, .node 4), (-1, .node 5), (1, .node 6), (-1, .node 7), (6, .node 8), (-4, .node 9), (-2, .node 10), (4, .node 12), (-4, .node 13), (4, .node 14), (-4, .node 16), (1, .colour 1), (1, .colour 2), (1, .colour 3), (1, .colour 4), (2, .colour 5), (2, .colour 6), (4, .colour 7), (4, .colour 8), (4, .colour 9), (2, .used 1 4 false 0), (2, .used 2 4 true 1), (2, .used 3 6 false 2), (2, .used 4 6 true 3), (8, .used 5 8 false 4), (-2, .used 5 9 false 4), (8, .used 6 8 true 6), (-2, .used 6 9 true 6), (8, .used 7 12 false 8), (8, .used 7 14 false 8), (4, .used 7 15 false 8), (8, .used 8 12 true 11), (4, .used 9 11 true 12), (8, .used 9 14 true 12), (4, .used 9 15 true 12)], []⟩,
    ⟨15, 16, 8, [(1, .node 4), (-1, .node 5), (1, .node 6), (-1, .node 7), (6, .node 8), (-4, .node 9), (-2, .node 10), (4, .node 12), (-4, .node 13), (4, .node 15), (-4, .node 16), (1, .colour 1), (1, .colour 2), (1, .colour 3), (1, .colour 4), (2, .colour 5), (2, .colour 6), (4, .colour 7), (4, .colour 8), (4, .colour 9), (2, .used 1 4 false 0), (2, .used 2 4 true 1), (2, .used 3 6 false 2), (2, .used 4 6 true 3), (8, .used 5 8 false 4), (-2, .used 5 9 false 4), (8, .used 6 8 true 6), (-2, .used 6 9 true 6), (8, .used 7 12 false 8), (4, .used 7 14 false 8), (8, .used 7 15 false 8), (8, .used 8 12 true 11), (4, .used 9 11 true 12), (4, .used 9 14 true 12), (8, .used 9 15 true 12)], []⟩])]

def cert5x6Back : List (List Int × List PairProof) := [
  ([0], [
    ⟨0, 1, 2, [(1, .node 0), (-1, .node 1), (-1, .colour 1), (1, .colour 2)], []⟩,
    ⟨0, 2, 4, [(2, .node 0), (-2, .node 2), (1, .node 4), (1, .node 5), (-1, .node 6), (-1, .node 7), (-2, .colour 1), (2, .colour 3), (-1, .colour 5), (1, .colour 6)], [(1, (5, true), (7, true))]⟩,
    ⟨1, 2, 4, [(2, .node 1), (-2, .node 2), (1, .node 4), (1, .node 5), (-1, .node 6), (-1, .node 7), (-2, .colour 2), (2, .colour 3), (-1, .colour 5), (1, .colour 6)], [(1, (5, true), (7, true))]⟩,
    ⟨0, 3, 4, [(2, .node 0), (-2, .node 3), (1, .node 4), (1, .node 5), (-1, .node 6), (-1, .node 7), (-2, .colour 1), (2, .colour 4), (-1, .colour 5), (1, .colour 6)], [(1, (5, true), (7, true))]⟩,
    ⟨1, 3, 4, [(2, .node 1), (-2, .node 3), (1, .node 4), (1, .node 5), (-1, .node 6), (-1, .node 7), (-2, .colour 2), (2, .colour 4), (-1, .colour 5), (1, .colour 6)], [(1, (5, true), (7, true))]⟩,
    ⟨2, 3, 2, [(1, .node 2), (-1, .node 3), (-1, .colour 3), (1, .colour 4)], []⟩])]

def cert5x7 : List (List Int × List PairProof) := [
  ([1], []),
  ([2], []),
  ([3], []),
  ([4], []),
  ([5], [
    ⟨4, 5, 2, [(1, .node 4), (-1, .node 5), (1, .colour 1), (1, .colour 2), (2, .used 1 4 false 0), (2, .used 2 4 true 1)], []⟩]),
  ([6], [
    ⟨6, 7, 2, [(1, .node 6), (-1, .node 7), (1, .colour 3), (1, .colour 4), (2, .used 3 6 false 2), (2, .used 4 6 true 3)], []⟩]),
  ([7], [
    ⟨8, 9, 2, [(1, .node 8), (-1, .node 9), (1, .used 5 8 false 4), (-1, .used 5 9 false 4), (1, .used 6 8 true 6), (-1, .used 6 9 true 6)], []⟩,
    ⟨8, 10, 4, [(1, .node 4), (-1, .node 5), (1, .node 6), (-1, .node 7), (2, .node 8), (-2, .node 10), (1, .colour 1), (1, .colour 2), (1, .colour 3), (1, .colour 4), (2, .colour 5), (2, .colour 6), (2, .used 1 4 false 0), (2, .used 2 4 true 1), (2, .used 3 6 false 2), (2, .used 4 6 true 3), (4, .used 5 8 false 4), (2, .used 5 9 false 4), (4, .used 6 8 true 6), (2, .used 6 9 true 6)], []⟩,
    ⟨9, 10, 4, [(1, .node 4), (-1, .node 5), (1, .node 6), (-1, .node 7), (2, .node 9), (-2, .node 10), (1, .colour 1), (1, .colour 2), (1, .colour 3), (1, .colour 4), (2, .colour 5), (2, .colour 6), (2, .used 1 4 false 0), (2, .used 2 4 true 1), (2, .used 3 6 false 2), (2, .used 4 6 true 3), (2, .used 5 8 false 4), (4, .used 5 9 false 4), (2, .used 6 8 true 6), (4, .used 6 9 true 6)], []⟩]),
  ([8], []),
  ([9], [
    ⟨12, 13, 2, [(1, .node 12), (-1, .node 13), (1, .colour 8), (2, .used 8 12 true 11)], []⟩]),
  ([10], [
    ⟨14, 15, 2, [(1, .node 14), (-1, .node 15), (1, .used 7 14 false 8), (-1, .used 7 15 false 8), (1, .used 9 14 true 12), (-1, .used 9 15 true 12)], []⟩,
    ⟨14, 16, 2, [(1, .node 14), (-1, .node 16), (1, .used 7 14 false 8), (-1, .used 7 16 false 8), (1, .used 9 14 true 12), (-1, .used 9 16 true 12)], []⟩,
    ⟨15, 16, 2, [(1, .node 15), (-1, .node 16), (1, .used 7 15 false 8), (-1, .used 7 16 false 8), (1, .used 9 15 true 12), (-1, .used 9 16 true 12)], []⟩,
    ⟨14, 17, 8, [(1, .node 4), (-1, .node 5), (1, .node 6), (-1, .node 7), (6, .node 8), (-4, .node 9), (-2, .node 10), (4, .node 12), (-4, .node 13), (4, .node 14), (-4, .node 17), (1, .colour 1), (1, .colour 2), (1, .colour 3), (1, .colour 4), (2, .colour 5), (2, .colour 6), (4, .colour 7), (4, .colour 8), (4, .colour 9), (2, .used 1 4 false 0), (2, .used 2 4 true 1), (2, .used 3 6 false 2), (2, .used 4 6 true 3), (8, .used 5 8 false 4), (-2, .used 5 9 false 4), (8, .used 6 8 true 6), (-2, .used 6 9 true 6), (4, .used 7 11 false 8), (8, .used 7 14 false 8), (4, .used 7 15 false 8), (4, .used 7 16 false 8), (8, .used 8 12 true 11), (8, .used 9 14 true 12), (4, .used 9 15 true 12), (4, .used 9 16 true 12)], []⟩,
    ⟨15, 17, 8, [(1, .node 4), (-1, .node 5), (1, .node 6), (-1, .node 7), (6, .node 8), (-4, .node 9), (-2, .node 10), (4, .node 12), (-4, .node 13), (4, .node 15), (-4, .node 17), (1, .colour 1), (1, .colour 2), (1, .colour 3), (1, .colour 4), (2, .colour 5), (2, .colour 6), (4, .colour 7), (4, .colour 8), (4, .colour 9), (2, .used 1 4 false 0), (2, .used 2 4 true 1), (2, .used 3 6 false 2), (2, .used 4 6 true 3), (8, .used 5 8 false 4), (-2, .used 5 9 false 4), (8, .used 6 8 true 6), (-2, .used 6 9 true 6), (4, .used 7 11 false 8), (4, .used 7 14 false 8), (8, .used 7 15 false 8), (4, .used 7 16 false 8), (8, .used 8 12 true 11), (4, .used 9 14 true 12), (8, .used 9 15 true 12), (4, .used 9 16 true 12)], []⟩,
    ⟨16, 17, 8, [(1, .node 4), (-1, .node 5), (1, .node 6), (-1, .node 7), (6, .node 8), (-4, .node 9), (-2, .node 10), (4, .node 12), (-4, .node 13), (4, .node 16), (-4, .node 17), (1, .colour 1), (1, .colour 2), (1, .colour 3), (1, .colour 4), (2, .colour 5), (2, .colour 6), (4, .colour 7), (4, .colour 8), (4, .colour 9), (2, .used 1 4 false 0), (2, .used 2 4 true 1), (2, .used 3 6 false 2), (2, .used 4 6 true 3), (8, .used 5 8 false 4), (-2, .used 5 9 false 4), (8, .used 6 8 true 6), (-2, .used 6 9 true 6), (4, .used 7 11 false 8), (4, .used 7 14 false 8), (4, .used 7 15 false 8), (8, .used 7 16 false 8), (8, .used 8 12 true 11), (4, .used 9 14 true 12), (4, .used 9 15 true 12), (8, .used 9 16 true 12)], []⟩])]

def cert5x7Back : List (List Int × List PairProof) := [
  ([0], [
    ⟨0, 1, 2, [(1, .node 0), (-1, .node 1), (-1, .colour 1), (1, .colour 2)], []⟩,
    ⟨0, 2, 4, [(2, .node 0), (-2, .node 2), (1, .node 4), (1, .node 5), (-1, .node 6), (-1, .node 7), (-2, .colour 1), (2, .colour 3), (-1, .colour 5), (1, .colour 6)], [(1, (5, true), (7, true))]⟩,
    ⟨1, 2, 4, [(2, .node 1), (-2, .node 2), (1, .node 4), (1, .node 5), (-1, .node 6), (-1, .node 7), (-2, .colour 2), (2, .colour 3), (-1, .colour 5), (1, .colour 6)], [(1, (5, true), (7, true))]⟩,
    ⟨0, 3, 4, [(2, .node 0), (-2, .node 3), (1, .node 4), (1, .node 5), (-1, .node 6), (-1, .node 7), (-2, .colour 1), (2, .colour 4), (-1, .colour 5), (1, .colour 6)], [(1, (5, true), (7, true))]⟩,
    ⟨1, 3, 4, [(2, .node 1), (-2, .node 3), (1, .node 4), (1, .node 5), (-1, .node 6), (-1, .node 7), (-2, .colour 2), (2, .colour 4), (-1, .colour 5), (1, .colour 6)], [(1, (5, true), (7, true))]⟩,
    ⟨2, 3, 2, [(1, .node 2), (-1, .node 3), (-1, .colour 3), (1, .colour 4)], []⟩])]

def cert5x8 : List (List Int × List PairProof) := [
  ([1], []),
  ([2], []),
  ([3], []),
  ([4], []),
  ([5], [
    ⟨4, 5, 2, [(1, .node 4), (-1, .node 5), (1, .colour 1), (1, .colour 2), (2, .used 1 4 false 0), (2, .used 2 4 true 1)], []⟩]),
  ([6], [
    ⟨6, 7, 2, [(1, .node 6), (-1, .node 7), (1, .colour 3), (1, .colour 4), (2, .used 3 6 false 2), (2, .used 4 6 true 3)], []⟩]),
  ([7], [
    ⟨8, 9, 2, [(1, .node 8), (-1, .node 9), (1, .used 5 8 false 4), (-1, .used 5 9 false 4), (1, .used 6 8 true 6), (-1, .used 6 9 true 6)], []⟩,
    ⟨8, 10, 4, [(1, .node 4), (-1, .node 5), (1, .node 6), (-1, .node 7), (2, .node 8), (-2, .node 10), (1, .colour 1), (1, .colour 2), (1, .colour 3), (1, .colour 4), (2, .colour 5), (2, .colour 6), (2, .used 1 4 false 0), (2, .used 2 4 true 1), (2, .used 3 6 false 2), (2, .used 4 6 true 3), (4, .used 5 8 false 4), (2, .used 5 9 false 4), (4, .used 6 8 true 6), (2, .used 6 9 true 6)], []⟩,
    ⟨9, 10, 4, [(1, .node 4), (-1, .node 5), (1, .node 6), (-1, .node 7), (2, .node 9), (-2, .node 10), (1, .colour 1), (1, .colour 2), (1, .colour 3), (1, .colour 4), (2, .colour 5), (2, .colour 6), (2, .used 1 4 false 0), (2, .used 2 4 true 1), (2, .used 3 6 false 2), (2, .used 4 6 true 3), (2, .used 5 8 false 4), (4, .used 5 9 false 4), (2, .used 6 8 true 6), (4, .used 6 9 true 6)], []⟩]),
  ([8], []),
  ([9], [
    ⟨12, 13, 2, [(1, .node 12), (-1, .node 13), (1, .colour 8), (2, .used 8 12 true 11)], []⟩]),
  ([10], [
    ⟨14, 15, 2, [(1, .node 14), (-1, .node 15), (1, .used 7 14 false 8), (-1, .used 7 15 false 8), (1, .used 9 14 true 12), (-1, .used 9 15 true 12)], []⟩,
    ⟨14, 16, 2, [(1, .node 14), (-1, .node 16), (1, .used 7 14 false 8), (-1, .used 7 16 false 8), (1, .used 9 14 true 12), (-1, .used 9 16 true 12)], []⟩,
    ⟨15, 16, 2, [(1, .node 15), (-1, .node 16), (1, .used 7 15 false 8), (-1, .used 7 16 false 8), (1, .used 9 15 true 12), (-1, .used 9 16 true 12)], []⟩,
    ⟨14, 17, 8, [(1, .node 4), (-1, .node 5), (1, .node 6), (-1, .node 7), (6, .node 8), (-4, .node 9), (-2, .node 10), (4, .node 12), (-4, .node 13), (4, .node 14), (-4, .node 17), (1, .colour 1), (1, .colour 2), (1, .colour 3), (1, .colour 4), (2, .colour 5), (2, .colour 6), (4, .colour 7), (4, .colour 8), (4, .colour 9), (2, .used 1 4 false 0), (2, .used 2 4 true 1), (2, .used 3 6 false 2), (2, .used 4 6 true 3), (8, .used 5 8 false 4), (-2, .used 5 9 false 4), (8, .used 6 8 true 6), (-2, .used 6 9 true 6), (4, .used 7 11 true 8), (8, .used 7 14 false 8), (4, .used 7 15 false 8), (4, .used 7 16 false 8), (8, .used 8 12 true 11), (8, .used 9 14 true 12), (4, .used 9 15 true 12), (4, .used 9 16 true 12)], []⟩,
    ⟨15, 17, 8, [(1, .node 4), (-1, .node 5), (1, .node 6), (-1, .node 7), (6, .node 8), (-4, .node 9), (-2, .node 10), (4, .node 12), (-4, .node 13), (4, .node 15), (-4, .node 17), (1, .colour 1), (1, .colour 2), (1, .colour 3), (1, .colour 4), (2, .colour 5), (2, .colour 6), (4, .colour 7), (4, .colour 8), (4, .colour 9), (2, .used 1 4 false 0), (2, .used 2 4 true 1), (2, .used 3 6 false 2), (2, .used 4 6 true 3), (8, .used 5 8 false 4), (-2, .used 5 9 false 4), (8, .used 6 8 true 6), (-2, .used 6 9 true 6), (4, .used 7 11 true 8), (4, .used 7 14 false 8), (8, .used 7 15 false 8), (4, .used 7 16 false 8), (8, .used 8 12 true 11), (4, .used 9 14 true 12), (8, .used 9 15 true 12), (4, .used 9 16 true 12)], []⟩,
    ⟨16, 17, 8, [(1, .node 4), (-1, .node 5), (1, .node 6), (-1, .node 7), (6, .node 8), (-4, .node 9), (-2, .node 10), (4, .node 12), (-4, .node 13), (4, .node 16), (-4, .node 17), (1, .colour 1), (1, .colour 2), (1, .colour 3), (1, .colour 4), (2, .colour 5), (2, .colour 6), (4, .colour 7), (4, .colour 8), (4, .colour 9), (2, .used 1 4 false 0), (2, .used 2 4 true 1), (2, .used 3 6 false 2), (2, .used 4 6 true 3), (8, .used 5 8 false 4), (-2, .used 5 9 false 4), (8, .used 6 8 true 6), (-2, .used 6 9 true 6), (4, .used 7 11 true 8), (4, .used 7 14 false 8), (4, .used 7 15 false 8), (8, .used 7 16 false 8), (8, .used 8 12 true 11), (4, .used 9 14 true 12), (4, .used 9 15 true 12), (8, .used 9 16 true 12)], []⟩])]

def cert5x8Back : List (List Int × List PairProof) := [
  ([0], [
    ⟨0, 1, 2, [(1, .node 0), (-1, .node 1), (-1, .colour 1), (1, .colour 2)], []⟩,
    ⟨0, 2, 4, [(2, .node 0), (-2, .node 2), (1, .node 4), (1, .node 5), (-1, .node 6), (-1, .node 7), (-2, .colour 1), (2, .colour 3), (-1, .colour 5), (1, .colour 6)], [(1, (5, true), (7, true))]⟩,
    ⟨1, 2, 4, [(2, .node 1), (-2, .node 2), (1, .node 4), (1, .node 5), (-1, .node 6), (-1, .node 7), (-2, .colour 2), (2, .colour 3), (-1, .colour 5), (1, .colour 6)], [(1, (5, true), (7, true))]⟩,
    ⟨0, 3, 4, [(2, .node 0), (-2, .node 3), (1, .node 4), (1, .node 5), (-1, .node 6), (-1, .node 7), (-2, .colour 1), (2, .colour 4), (-1, .colour 5), (1, .colour 6)], [(1, (5, true), (7, true))]⟩,
    ⟨1, 3, 4, [(2, .node 1), (-2, .node 3), (1, .node 4), (1, .node 5), (-1, .node 6), (-1, .node 7), (-2, .colour 2), (2, .colour 4), (-1, .colour 5), (1, .colour 6)], [(1, (5, true), (7, true))]⟩,
    ⟨2, 3, 2, [(1, .node 2), (-1, .node 3), (-1, .colour 3), (1, .colour 4)], []⟩])]

def cert6x1 : List (List Int × List PairProof) := [
  ([0], [])]

def cert6x1Back : List (List Int × List PairProof) := [
  ([1], []),
  ([2], [
    ⟨1, 2, 2, [(1, .node 1), (-1, .node 2), (1, .colour 1), (2, .used 1 1 false 0)], []⟩]),
  ([3], [
    ⟨3, 4, 2, [(1, .node 3), (-1, .node 4), (1, .used 2 3 false 1), (-1, .used 2 4 false 1)], []⟩,
    ⟨3, 5, 4, [(1, .node 1), (-1, .node 2), (2, .node 3), (-2, .node 5), (1, .colour 1), (2, .colour 2), (2, .used 1 1 false 0), (4, .used 2 3 false 1), (2, .used 2 4 false 1)], []⟩,
    ⟨4, 5, 4, [(1, .node 1), (-1, .node 2), (2, .node 4), (-2, .node 5), (1, .colour 1), (2, .colour 2), (2, .used 1 1 false 0), (2, .used 2 3 false 1), (4, .used 2 4 false 1)], []⟩])]

def cert6x2 : List (List Int × List PairProof) := [
  ([0], [])]

def cert6x2Back : List (List Int × List PairProof) := [
  ([1], []),
  ([2, 3], [
    ⟨1, 2, 2, [(1, .node 1), (-1, .node 2), (1, .colour 1), (2, .used 1 1 true 0)], [(1, (1, false), (2, false))]⟩,
    ⟨3, 4, 2, [(1, .node 3), (-1, .node 4)], [(1, (3, false), (4, false))]⟩,
    ⟨3, 5, 2, [(1, .node 3), (-1, .node 5)], [(1, (3, false), (5, false))]⟩,
    ⟨4, 5, 2, [(1, .node 4), (-1, .node 5)], [(1, (4, false), (5, false))]⟩,
    ⟨3, 6, 2, [(1, .node 3), (-1, .node 6)], [(1, (3, false), (6, false))]⟩,
    ⟨4, 6, 2, [(1, .node 4), (-1, .node 6)], [(1, (4, false), (6, false))]⟩,
    ⟨5, 6, 2, [(1, .node 5), (-1, .node 6)], [(1, (5, false), (6, false))]⟩])]

def cert6x3 : List (List Int × List PairProof) := [
  ([0], [
    ⟨0, 1, 2, [(1, .node 0), (-1, .node 1), (-1, .colour 1), (1, .colour 2)], []⟩])]

def cert6x3Back : List (List Int × List PairProof) := [
  ([1], []),
  ([2], []),
  ([3], [
    ⟨2, 3, 2, [(1, .node 2), (-1, .node 3), (1, .colour 1), (1, .colour 2), (2, .used 1 2 true 0), (2, .used 2 2 false 1)], []⟩]),
  ([4], [
    ⟨4, 5, 2, [(1, .node 4), (-1, .node 5), (1, .used 3 4 false 2), (-1, .used 3 5 false 2)], []⟩,
    ⟨4, 6, 4, [(1, .node 2), (-1, .node 3), (2, .node 4), (-2, .node 6), (1, .colour 1), (1, .colour 2), (2, .colour 3), (2, .used 1 2 true 0), (2, .used 2 2 false 1), (4, .used 3 4 false 2), (2, .used 3 5 false 2)], []⟩,
    ⟨5, 6, 4, [(1, .node 2), (-1, .node 3), (2, .node 5), (-2, .node 6), (1, .colour 1), (1, .colour 2), (2, .colour 3), (2, .used 1 2 true 0), (2, .used 2 2 false 1), (2, .used 3 4 false 2), (4, .used 3 5 false 2)], []⟩])]

def cert6x4 : List (List Int × List PairProof) := [
  ([0], [
    ⟨0, 1, 2, [(1, .node 0), (-1, .node 1), (-1, .colour 1), (1, .colour 2)], []⟩])]

def cert6x4Back : List (List Int × List PairProof) := [
  ([1], []),
  ([2], []),
  ([3], [
    ⟨2, 3, 2, [(1, .node 2), (-1, .node 3), (1, .colour 1), (1, .colour 2), (2, .used 1 2 true 0), (2, .used 2 2 false 1)], []⟩]),
  ([4], []),
  ([5], [
    ⟨5, 6, 2, [(1, .node 5), (-1, .node 6), (1, .colour 4), (2, .used 4 5 false 4)], []⟩]),
  ([6], [
    ⟨7, 8, 2, [(1, .node 7), (-1, .node 8), (1, .used 3 7 true 2), (-1, .used 3 8 true 2), (1, .used 5 7 false 5), (-1, .used 5 8 false 5)], []⟩,
    ⟨7, 9, 2, [(1, .node 2), (-1, .node 3), (1, .node 5), (-1, .node 6), (1, .node 7), (-1, .node 9), (1, .colour 1), (1, .colour 2), (1, .colour 3), (1, .colour 4), (1, .colour 5), (2, .used 1 2 true 0), (2, .used 2 2 false 1), (1, .used 3 4 true 2), (2, .used 3 7 true 2), (1, .used 3 8 true 2), (2, .used 4 5 false 4), (1, .used 5 4 false 5), (2, .used 5 7 false 5), (1, .used 5 8 false 5)], []⟩,
    ⟨8, 9, 2, [(1, .node 2), (-1, .node 3), (1, .node 5), (-1, .node 6), (1, .node 8), (-1, .node 9), (1, .colour 1), (1, .colour 2), (1, .colour 3), (1, .colour 4), (1, .colour 5), (2, .used 1 2 true 0), (2, .used 2 2 false 1), (1, .used 3 4 true 2), (1, .used 3 7 true 2), (2, .used 3 8 true 2), (2, .used 4 5 false 4), (1, .used 5 4 false 5), (1, .used 5 7 false 5), (2, .used 5 8 false 5)], []⟩])]

def cert6x5 : List (List Int × List PairProof) := [
  ([0], [
    ⟨0, 1, 2, [(1, .node 0), (-1, .node 1), (-1, .colour 1), (1, .colour 2)], []⟩,
    ⟨0, 2, 4, [(2, .node 0), (-2, .node 2), (1, .node 4), (1, .node 5), (-1, .node 6), (-1, .node 7), (-2, .colour 1), (2, .colour 3), (-1, .colour 5), (1, .colour 6)], [(1, (5, false), (7, false))]⟩,
    ⟨1, 2, 4, [(2, .node 1), (-2, .node 2), (1, .node 4), (1, .node 5), (-1, .node 6), (-1, .node 7), (-2, .colour 2), (2, .colour 3), (-1, .colour 5), (1, .colour 6)], [(1, (5, false), (7, false))]⟩,
    ⟨0, 3, 4, [(2, .node 0), (-2, .node 3), (1, .node 4), (1, .node 5), (-1, .node 6), (-1, .node 7), (-2, .colour 1), (2, .colour 4), (-1, .colour 5), (1, .colour 6)], [(1, (5, false), (7, false))]⟩,
    ⟨1, 3, 4, [(2, .node 1), (-2, .node 3), (1, .node 4), (1, .node 5), (-1, .node 6), (-1, .node 7), (-2, .colour 2), (2, .colour 4), (-1, .colour 5), (1, .colour 6)], [(1, (5, false), (7, false))]⟩,
    ⟨2, 3, 2, [(1, .node 2), (-1, .node 3), (-1, .colour 3), (1, .colour 4)], []⟩])]

def cert6x5Back : List (List Int × List PairProof) := [
  ([1], []),
  ([2], []),
  ([3], []),
  ([4], []),
  ([5], [
    ⟨4, 5, 2, [(1, .node 4), (-1, .node 5), (1, .colour 1), (1, .colour 2), (2, .used 1 4 true 0), (2, .used 2 4 false 1)], []⟩]),
  ([6], [
    ⟨6, 7, 2, [(1, .node 6), (-1, .node 7), (1, .colour 3), (1, .colour 4), (2, .used 3 6 true 2), (2, .used 4 6 false 3)], []⟩]),
  ([7], [
    ⟨8, 9, 2, [(1, .node 8), (-1, .node 9), (1, .used 5 8 true 4), (-1, .used 5 9 true 4), (1, .used 6 8 false 6), (-1, .used 6 9 false 6)], []⟩,
    ⟨8, 10, 4, [(1, .node 4), (-1, .node 5), (1, .node 6), (-1, .node 7), (2, .node 8), (-2, .node 10), (1, .colour 1), (1, .colour 2), (1, .colour 3), (1, .colour 4), (2, .colour 5), (2, .colour 6), (2, .used 1 4 true 0), (2, .used 2 4 false 1), (2, .used 3 6 true 2), (2, .used 4 6 false 3), (4, .used 5 8 true 4), (2, .used 5 9 true 4), (4, .used 6 8 false 6), (2, .used 6 9 false 6)], []⟩,
    ⟨9, 10, 4, [(1, .node 4), (-1, .node 5), (1, .node 6), (-1, .node 7), (2, .node 9), (-2, .node 10), (1, .colour 1), (1, .colour 2), (1, .colour 3), (1, .colour 4), (2, .colour 5), (2, .colour 6), (2, .used 1 4 true 0), (2, .used 2 4 false 1), (2, .used 3 6 true 2), (2, .used 4 6 false 3), (2, .used 5 8 true 4), (4, .used 5 9 true 4), (2, .used 6 8 false 6), (4, .used 6 9 false 6)], []⟩]),
  ([8], []),
  ([9], [
    ⟨12, 13, 2, [(1, .node 12), (-1, .node 13), (1, .colour 8), (1, .used 7 12 true 8), (-1, .used 7 13 true 8), (2, .used 8 12 false 11)], []⟩]),
  ([10], [
    ⟨14, 15, 2, [(1, .node 14), (-1, .node 15), (1, .used 7 14 true 8), (-1, .used 7 15 true 8), (1, .used 9 14 false 12), (-1, .used 9 15 false 12)], []⟩,
    ⟨14, 16, 8, [(1, .node 4), (-1, .node 5), (1, .node 6), (-1, .node 7), (6, .node 8), (-4, .node 9), (-2, .node 10), (4, .node 12), (-4, .node 13), (4, .node 14), (-4, .node 16), (1, .colour 1), (1, .colour 2), (1, .colour 3), (1, .colour 4), (2, .colour 5), (2, .colour 6), (4, .colour 7), (4, .colour 8), (4, .colour 9), (2, .used 1 4 true 0), (2, .used 2 4 false 1), (2, .used 3 6 true 2), (2, .used 4 6 false 3), (8, .used 5 8 true 4), (-2, .used 5 9 true 4), (8, .used 6 8 false 6), (-2, .used 6 9 false 6), (8, .used 7 12 true 8), (8, .used 7 14 true 8), (4, .used 7 15 true 8), (8, .used 8 12 false 11), (4, .used 9 11 false 12), (8, .used 9 14 false 12), (4, .used 9 15 false 12)], []⟩,
    ⟨15, 16, 8, [(1, .node 4), (-1, .node 5), (1, .node 6), (-1, .node 7), (6, .node 8), (-4, .node 9), (-2, .node 10), (4, .node 12), (-4, .node 13), (4, .node 15), (-4, .node 16), (1, .colour 1), (1, .colour 2), (1, .colour 3), (1, .colour 4), (2, .colour 5), (2, .colour 6), (4, .colour 7), (4, .colour 8), (4, .colour 9), (2, .used 1 4 true 0), (2, .used 2 4 false 1), (2, .used 3 6 true 2), (2, .used 4 6 false 3), (8, .used 5 8 true 4), (-2, .used 5 9 true 4), (8, .used 6 8 false 6), (-2, .used 6 9 false 6), (8, .used 7 12 true 8), (4, .used 7 14 true 8), (8, .used 7 15 true 8), (8, .used 8 12 false 11), (4, .used 9 11 false 12), (4, .used 9 14 false 12), (8, .used 9 15 false 12)], []⟩])]

def cert6x6 : List (List Int × List PairProof) := [
  ([7], [
    ⟨5, 6, 2, [(1, .node 5), (-1, .node 6), (-1, .colour 3), (1, .colour 5)], []⟩,
    ⟨5, 9, 4, [(1, .node 3), (1, .node 4), (2, .node 5), (-1, .node 7), (-1, .node 8), (-2, .node 9), (-1, .colour 1), (1, .colour 2), (-2, .colour 3), (2, .colour 4)], [(1, (3, false), (7, false))]⟩,
    ⟨6, 9, 4, [(1, .node 3), (1, .node 4), (2, .node 6), (-1, .node 7), (-1, .node 8), (-2, .node 9), (-1, .colour 1), (1, .colour 2), (2, .colour 4), (-2, .colour 5)], [(1, (3, false), (7, false))]⟩,
    ⟨5, 10, 4, [(1, .node 3), (1, .node 4), (2, .node 5), (-1, .node 7), (-1, .node 8), (-2, .node 10), (-1, .colour 1), (1, .colour 2), (-2, .colour 3), (2, .colour 6)], [(1, (3, false), (7, false))]⟩,
    ⟨6, 10, 4, [(1, .node 3), (1, .node 4), (2, .node 6), (-1, .node 7), (-1, .node 8), (-2, .node 10), (-1, .colour 1), (1, .colour 2), (-2, .colour 5), (2, .colour 6)], [(1, (3, false), (7, false))]⟩,
    ⟨9, 10, 2, [(1, .node 9), (-1, .node 10), (-1, .colour 4), (1, .colour 6)], []⟩])]

def cert6x6Back : List (List Int × List PairProof) := [
  ([3], []),
  ([4], []),
  ([5], []),
  ([1], [
    ⟨3, 4, 2, [(1, .node 3), (-1, .node 4), (1, .colour 3), (1, .colour 5), (2, .used 3 3 false 5), (2, .used 5 3 true 6)], []⟩]),
  ([6], []),
  ([2], [
    ⟨7, 8, 2, [(1, .node 7), (-1, .node 8), (1, .colour 4), (1, .colour 6), (2, .used 4 7 false 9), (2, .used 6 7 true 10)], []⟩]),
  ([0], [
    ⟨0, 1, 2, [(1, .node 0), (-1, .node 1), (1, .used 1 0 false 3), (-1, .used 1 1 false 3), (1, .used 2 0 true 7), (-1, .used 2 1 true 7)], []⟩,
    ⟨0, 2, 2, [(1, .node 0), (-1, .node 2), (1, .node 3), (-1, .node 4), (1, .node 7), (-1, .node 8), (1, .colour 1), (1, .colour 2), (1, .colour 3), (1, .colour 4), (1, .colour 5), (1, .colour 6), (2, .used 3 3 false 5), (2, .used 4 7 false 9), (2, .used 5 3 true 6), (2, .used 1 0 false 3), (1, .used 1 1 false 3), (2, .used 6 7 true 10), (2, .used 2 0 true 7), (1, .used 2 1 true 7)], []⟩,
    ⟨1, 2, 2, [(1, .node 1), (-1, .node 2), (1, .node 3), (-1, .node 4), (1, .node 7), (-1, .node 8), (1, .colour 1), (1, .colour 2), (1, .colour 3), (1, .colour 4), (1, .colour 5), (1, .colour 6), (2, .used 3 3 false 5), (2, .used 4 7 false 9), (2, .used 5 3 true 6), (1, .used 1 0 false 3), (2, .used 1 1 false 3), (2, .used 6 7 true 10), (1, .used 2 0 true 7), (2, .used 2 1 true 7)], []⟩])]

def cert6x7 : List (List Int × List PairProof) := [
  ([1], []),
  ([2], []),
  ([3], []),
  ([4], []),
  ([5], [
    ⟨4, 5, 2, [(1, .node 4), (-1, .node 5), (1, .colour 1), (1, .colour 2), (2, .used 1 4 false 0), (2, .used 2 4 true 1)], []⟩]),
  ([6], [
    ⟨6, 7, 2, [(1, .node 6), (-1, .node 7), (1, .colour 3), (1, .colour 4), (2, .used 3 6 false 2), (2, .used 4 6 true 3)], []⟩]),
  ([7], [
    ⟨8, 9, 2, [(1, .node 8), (-1, .node 9), (1, .used 5 8 false 4), (-1, .used 5 9 false 4), (1, .used 6 8 true 6), (-1, .used 6 9 true 6)], []⟩,
    ⟨8, 10, 4, [(1, .node 4), (-1, .node 5), (1, .node 6), (-1, .node 7), (2, .node 8), (-2, .node 10), (1, .colour 1), (1, .colour 2), (1, .colour 3), (1, .colour 4), (2, .colour 5), (2, .colour 6), (2, .used 1 4 false 0), (2, .used 2 4 true 1), (2, .used 3 6 false 2), (2, .used 4 6 true 3), (4, .used 5 8 false 4), (2, .used 5 9 false 4), (4, .used 6 8 true 6), (2, .used 6 9 true 6)], []⟩,
    ⟨9, 10, 4, [(1, .node 4), (-1, .node 5), (1, .node 6), (-1, .node 7), (2, .node 9), (-2, .node 10), (1, .colour 1), (1, .colour 2), (1, .colour 3), (1, .colour 4), (2, .colour 5), (2, .colour 6), (2, .used 1 4 false 0), (2, .used 2 4 true 1), (2, .used 3 6 false 2), (2, .used 4 6 true 3), (2, .used 5 8 false 4), (4, .used 5 9 false 4), (2, .used 6 8 true 6), (4, .used 6 9 true 6)], []⟩]),
  ([8], []),
  ([9], [
    ⟨12, 13, 2, [(1, .node 12), (-1, .node 13), (1, .colour 8), (1, .used 7 12 false 8), (-1, .used 7 13 false 8), (2, .used 8 12 true 11)], []⟩]),
  ([10], [
    ⟨14, 15, 2, [(1, .node 14), (-1, .node 15), (1, .used 7 14 false 8), (-1, .used 7 15 false 8), (1, .used 9 14 true 12), (-1, .used 9 15 true 12)], []⟩,
    ⟨14, 16, 2, [(1, .node 14), (-1, .node 16), (1, .used 7 14 false 8), (-1, .used 7 16 false 8), (1, .used 9 14 true 12), (-1, .used 9 16 true 12)], []⟩,
    ⟨15, 16, 2, [(1, .node 15), (-1, .node 16), (1, .used 7 15 false 8), (-1, .used 7 16 false 8), (1, .used 9 15 true 12), (-1, .used 9 16 true 12)], []⟩,
    ⟨14, 17, 4, [(1, .node 4), (-1, .node 5), (1, .node 6), (-1, .node 7), (4, .node 8), (-2, .node 9), (-2, .node 10), (2, .node 12), (-2, .node 13), (2, .node 14), (-2, .node 17), (1, .colour 1), (1, .colour 2), (1, .colour 3), (1, .colour 4), (2, .colour 5), (2, .colour 6), (2, .colour 7), (2, .colour 8), (2, .colour 9), (2, .used 1 4 false 0), (2, .used 2 4 true 1), (2, .used 3 6 false 2), (2, .used 4 6 true 3), (6, .used 5 8 false 4), (6, .used 6 8 true 6), (4, .used 7 12 false 8), (4, .used 7 14 false 8), (2, .used 7 15 false 8), (2, .used 7 16 false 8), (4, .used 8 12 true 11), (4, .used 9 14 true 12), (2, .used 9 15 true 12), (2, .used 9 16 true 12)], []⟩,
    ⟨15, 17, 4, [(1, .node 4), (-1, .node 5), (1, .node 6), (-1, .node 7), (4, .node 8), (-2, .node 9), (-2, .node 10), (2, .node 12), (-2, .node 13), (2, .node 15), (-2, .node 17), (1, .colour 1), (1, .colour 2), (1, .colour 3), (1, .colour 4), (2, .colour 5), (2, .colour 6), (2, .colour 7), (2, .colour 8), (2, .colour 9), (2, .used 1 4 false 0), (2, .used 2 4 true 1), (2, .used 3 6 false 2), (2, .used 4 6 true 3), (6, .used 5 8 false 4), (6, .used 6 8 true 6), (4, .used 7 12 false 8), (2, .used 7 14 false 8), (4, .used 7 15 false 8), (2, .used 7 16 false 8), (4, .used 8 12 true 11), (2, .used 9 14 true 12), (4, .used 9 15 true 12), (2, .used 9 16 true 12)], []⟩,
    ⟨16, 17, 4, [(1, .node 4), (-1, .node 5), (1, .node 6), (-1, .node 7), (4, .node 8), (-2, .node 9), (-2, .node 10), (2, .node 12), (-2, .node 13), (2, .node 16), (-2, .node 17), (1, .colour 1), (1, .colour 2), (1, .colour 3), (1, .colour 4), (2, .colour 5), (2, .colour 6), (2, .colour 7), (2, .colour 8), (2, .colour 9), (2, .used 1 4 false 0), (2, .used 2 4 true 1), (2, .used 3 6 false 2), (2, .used 4 6 true 3), (6, .used 5 8 false 4), (6, .used 6 8 true 6), (4, .used 7 12 false 8), (2, .used 7 14 false 8), (2, .used 7 15 false 8), (4, .used 7 16 false 8), (4, .used 8 12 true 11), (2, .used 9 14 true 12), (2, .used 9 15 true 12), (4, .used 9 16 true 12)], []⟩])]

def cert6x7Back : List (List Int × List PairProof) := [
  ([0], [
    ⟨0, 1, 2, [(1, .node 0), (-1, .node 1), (-1, .colour 1), (1, .colour 2)], []⟩,
    ⟨0, 2, 4, [(2, .node 0), (-2, .node 2), (1, .node 4), (1, .node 5), (-1, .node 6), (-1, .node 7), (-2, .colour 1), (2, .colour 3), (-1, .colour 5), (1, .colour 6)], [(1, (5, true), (7, true))]⟩,
    ⟨1, 2, 4, [(2, .node 1), (-2, .node 2), (1, .node 4), (1, .node 5), (-1, .node 6), (-1, .node 7), (-2, .colour 2), (2, .colour 3), (-1, .colour 5), (1, .colour 6)], [(1, (5, true), (7, true))]⟩,
    ⟨0, 3, 4, [(2, .node 0), (-2, .node 3), (1, .node 4), (1, .node 5), (-1, .node 6), (-1, .node 7), (-2, .colour 1), (2, .colour 4), (-1, .colour 5), (1, .colour 6)], [(1, (5, true), (7, true))]⟩,
    ⟨1, 3, 4, [(2, .node 1), (-2, .node 3), (1, .node 4), (1, .node 5), (-1, .node 6), (-1, .node 7), (-2, .colour 2), (2, .colour 4), (-1, .colour 5), (1, .colour 6)], [(1, (5, true), (7, true))]⟩,
    ⟨2, 3, 2, [(1, .node 2), (-1, .node 3), (-1, .colour 3), (1, .colour 4)], []⟩])]

def cert6x8 : List (List Int × List PairProof) := [
  ([1], []),
  ([2], []),
  ([3], []),
  ([4], []),
  ([5], [
    ⟨4, 5, 2, [(1, .node 4), (-1, .node 5), (1, .colour 1), (1, .colour 2), (2, .used 1 4 false 0), (2, .used 2 4 true 1)], []⟩]),
  ([6], [
    ⟨6, 7, 2, [(1, .node 6), (-1, .node 7), (1, .colour 3), (1, .colour 4), (2, .used 3 6 false 2), (2, .used 4 6 true 3)], []⟩]),
  ([7], [
    ⟨8, 9, 2, [(1, .node 8), (-1, .node 9), (1, .used 5 8 false 4), (-1, .used 5 9 false 4), (1, .used 6 8 true 6), (-1, .used 6 9 true 6)], []⟩,
    ⟨8, 10, 4, [(1, .node 4), (-1, .node 5), (1, .node 6), (-1, .node 7), (2, .node 8), (-2, .node 10), (1, .colour 1), (1, .colour 2), (1, .colour 3), (1, .colour 4), (2, .colour 5), (2, .colour 6), (2, .used 1 4 false 0), (2, .used 2 4 true 1), (2, .used 3 6 false 2), (2, .used 4 6 true 3), (4, .used 5 8 false 4), (2, .used 5 9 false 4), (4, .used 6 8 true 6), (2, .used 6 9 true 6)], []⟩,
    ⟨9, 10, 4, [(1, .node 4), (-1, .node 5), (1, .node 6), (-1, .node 7), (2, .node 9), (-2, .node 10), (1, .colour 1), (1, .colour 2), (1, .colour 3), (1, .colour 4), (2, .colour 5), (2, .colour 6), (2, .used 1 4 false 0), (2, .used 2 4 true 1), (2, .used 3 6 false 2), (2, .used 4 6 true 3), (2, .used 5 8 false 4), (4, .used 5 9 false 4), (2, .used 6 8 true 6), (4, .used 6 9 true 6)], []⟩]),
  ([8], [
    ⟨11, 12, 2, [(1, .node 11), (-1, .node 12), (1, .used 7 11 true 8), (-1, .used 7 12 true 8)], []⟩]),
  ([9], [
    ⟨13, 14, 2, [(1, .node 13), (-1, .node 14), (1, .used 7 13 false 8), (-1, .used 7 14 false 8), (1, .used 8 13 true 11), (-1, .used 8 14 true 11)], []⟩,
    ⟨13, 15, 2, [(1, .node 13), (-1, .node 15), (1, .used 7 13 false 8), (-1, .used 7 15 false 8), (1, .used 8 13 true 11), (-1, .used 8 15 true 11)], []⟩,
    ⟨14, 15, 2, [(1, .node 14), (-1, .node 15), (1, .used 7 14 false 8), (-1, .used 7 15 false 8), (1, .used 8 14 true 11), (-1, .used 8 15 true 11)], []⟩,
    ⟨13, 16, 4, [(1, .node 4), (-1, .node 5), (1, .node 6), (-1, .node 7), (4, .node 8), (-2, .node 9), (-2, .node 10), (2, .node 11), (-2, .node 12), (2, .node 13), (-2, .node 16), (1, .colour 1), (1, .colour 2), (1, .colour 3), (1, .colour 4), (2, .colour 5), (2, .colour 6), (2, .colour 7), (2, .colour 8), (2, .used 1 4 false 0), (2, .used 2 4 true 1), (2, .used 3 6 false 2), (2, .used 4 6 true 3), (6, .used 5 8 false 4), (6, .used 6 8 true 6), (4, .used 7 11 true 8), (4, .used 7 13 false 8), (2, .used 7 14 false 8), (2, .used 7 15 false 8), (4, .used 8 13 true 11), (2, .used 8 14 true 11), (2, .used 8 15 true 11)], []⟩,
    ⟨14, 16, 4, [(1, .node 4), (-1, .node 5), (1, .node 6), (-1, .node 7), (4, .node 8), (-2, .node 9), (-2, .node 10), (2, .node 11), (-2, .node 12), (2, .node 14), (-2, .node 16), (1, .colour 1), (1, .colour 2), (1, .colour 3), (1, .colour 4), (2, .colour 5), (2, .colour 6), (2, .colour 7), (2, .colour 8), (2, .used 1 4 false 0), (2, .used 2 4 true 1), (2, .used 3 6 false 2), (2, .used 4 6 true 3), (6, .used 5 8 false 4), (6, .used 6 8 true 6), (4, .used 7 11 true 8), (2, .used 7 13 false 8), (4, .used 7 14 false 8), (2, .used 7 15 false 8), (2, .used 8 13 true 11), (4, .used 8 14 true 11), (2, .used 8 15 true 11)], []⟩,
    ⟨15, 16, 4, [(1, .node 4), (-1, .node 5), (1, .node 6), (-1, .node 7), (4, .node 8), (-2, .node 9), (-2, .node 10), (2, .node 11), (-2, .node 12), (2, .node 15), (-2, .node 16), (1, .colour 1), (1, .colour 2), (1, .colour 3), (1, .colour 4), (2, .colour 5), (2, .colour 6), (2, .colour 7), (2, .colour 8), (2, .used 1 4 false 0), (2, .used 2 4 true 1), (2, .used 3 6 false 2), (2, .used 4 6 true 3), (6, .used 5 8 false 4), (6, .used 6 8 true 6), (4, .used 7 11 true 8), (2, .used 7 13 false 8), (2, .used 7 14 false 8), (4, .used 7 15 false 8), (2, .used 8 13 true 11), (2, .used 8 14 true 11), (4, .used 8 15 true 11)], []⟩])]

def cert6x8Back : List (List Int × List PairProof) := [
  ([0], [
    ⟨0, 1, 2, [(1, .node 0), (-1, .node 1), (-1, .colour 1), (1, .colour 2)], []⟩,
    ⟨0, 2, 4, [(2, .node 0), (-2, .node 2), (1, .node 4), (1, .node 5), (-1, .node 6), (-1, .node 7), (-2, .colour 1), (2, .colour 3), (-1, .colour 5), (1, .colour 6)], [(1, (5, true), (7, true))]⟩,
    ⟨1, 2, 4, [(2, .node 1), (-2, .node 2), (1, .node 4), (1, .node 5), (-1, .node 6), (-1, .node 7), (-2, .colour 2), (2, .colour 3), (-1, .colour 5), (1, .colour 6)], [(1, (5, true), (7, true))]⟩,
    ⟨0, 3, 4, [(2, .node 0), (-2, .node 3), (1, .node 4), (1, .node 5), (-1, .node 6), (-1, .node 7), (-2, .colour 1), (2, .colour 4), (-1, .colour 5), (1, .colour 6)], [(1, (5, true), (7, true))]⟩,
    ⟨1, 3, 4, [(2, .node 1), (-2, .node 3), (1, .node 4), (1, .node 5), (-1, .node 6), (-1, .node 7), (-2, .colour 2), (2, .colour 4), (-1, .colour 5), (1, .colour 6)], [(1, (5, true), (7, true))]⟩,
    ⟨2, 3, 2, [(1, .node 2), (-1, .node 3), (-1, .colour 3), (1, .colour 4)], []⟩])]

def cert7x1 : List (List Int × List PairProof) := [
  ([0], [])]

def cert7x1Back : List (List Int × List PairProof) := [
  ([1], []),
  ([2], [
    ⟨1, 2, 2, [(1, .node 1), (-1, .node 2), (1, .colour 1), (2, .used 1 1 false 0)], []⟩]),
  ([3], [
    ⟨3, 4, 2, [(1, .node 3), (-1, .node 4), (1, .used 2 3 false 1), (-1, .used 2 4 false 1)], []⟩,
    ⟨3, 5, 2, [(1, .node 3), (-1, .node 5), (1, .used 2 3 false 1), (-1, .used 2 5 false 1)], []⟩,
    ⟨4, 5, 2, [(1, .node 4), (-1, .node 5), (1, .used 2 4 false 1), (-1, .used 2 5 false 1)], []⟩,
    ⟨3, 6, 2, [(1, .node 1), (-1, .node 2), (1, .node 3), (-1, .node 6), (1, .colour 1), (1, .colour 2), (2, .used 1 1 false 0), (2, .used 2 3 false 1), (1, .used 2 4 false 1), (1, .used 2 5 false 1)], []⟩,
    ⟨4, 6, 2, [(1, .node 1), (-1, .node 2), (1, .node 4), (-1, .node 6), (1, .colour 1), (1, .colour 2), (2, .used 1 1 false 0), (1, .used 2 3 false 1), (2, .used 2 4 false 1), (1, .used 2 5 false 1)], []⟩,
    ⟨5, 6, 2, [(1, .node 1), (-1, .node 2), (1, .node 5), (-1, .node 6), (1, .colour 1), (1, .colour 2), (2, .used 1 1 false 0), (1, .used 2 3 false 1), (1, .used 2 4 false 1), (2, .used 2 5 false 1)], []⟩])]

def cert7x2 : List (List Int × List PairProof) := [
  ([0], [])]

def cert7x2Back : List (List Int × List PairProof) := [
  ([1], []),
  ([2], []),
  ([3], [
    ⟨2, 3, 2, [(1, .node 2), (-1, .node 3), (1, .colour 1), (1, .colour 2), (2, .used 1 2 true 0), (2, .used 2 2 false 1)], []⟩]),
  ([4], [
    ⟨4, 5, 2, [(1, .node 4), (-1, .node 5), (1, .used 3 4 false 2), (-1, .used 3 5 false 2)], []⟩,
    ⟨4, 6, 2, [(1, .node 4), (-1, .node 6), (1, .used 3 4 false 2), (-1, .used 3 6 false 2)], []⟩,
    ⟨5, 6, 2, [(1, .node 5), (-1, .node 6), (1, .used 3 5 false 2), (-1, .used 3 6 false 2)], []⟩,
    ⟨4, 7, 2, [(1, .node 2), (-1, .node 3), (1, .node 4), (-1, .node 7), (1, .colour 1), (1, .colour 2), (1, .colour 3), (2, .used 1 2 true 0), (2, .used 2 2 false 1), (2, .used 3 4 false 2), (1, .used 3 5 false 2), (1, .used 3 6 false 2)], []⟩,
    ⟨5, 7, 2, [(1, .node 2), (-1, .node 3), (1, .node 5), (-1, .node 7), (1, .colour 1), (1, .colour 2), (1, .colour 3), (2, .used 1 2 true 0), (2, .used 2 2 false 1), (1, .used 3 4 false 2), (2, .used 3 5 false 2), (1, .used 3 6 false 2)], []⟩,
    ⟨6, 7, 2, [(1, .node 2), (-1, .node 3), (1, .node 6), (-1, .node 7), (1, .colour 1), (1, .colour 2), (1, .colour 3), (2, .used 1 2 true 0), (2, .used 2 2 false 1), (1, .used 3 4 false 2), (1, .used 3 5 false 2), (2, .used 3 6 false 2)], []⟩])]

def cert7x3 : List (List Int × List PairProof) := [
  ([0], [
    ⟨0, 1, 2, [(1, .node 0), (-1, .node 1), (-1, .colour 1), (1, .colour 2)], []⟩])]

def cert7x3Back : List (List Int × List PairProof) := [
  ([1], []),
  ([2], []),
  ([3], [
    ⟨2, 3, 2, [(1, .node 2), (-1, .node 3), (1, .colour 1), (1, .colour 2), (2, .used 1 2 true 0), (2, .used 2 2 false 1)], []⟩]),
  ([4], []),
  ([5], [
    ⟨5, 6, 4, [(1, .node 2), (-1, .node 3), (2, .node 5), (-2, .node 6), (1, .colour 1), (1, .colour 2), (2, .colour 3), (2, .colour 4), (2, .used 1 2 true 0), (2, .used 2 2 false 1), (2, .used 3 4 true 2), (4, .used 3 5 true 2), (4, .used 4 5 false 4)], []⟩]),
  ([6], [
    ⟨7, 8, 2, [(1, .node 7), (-1, .node 8), (1, .used 5 7 false 5), (-1, .used 5 8 false 5)], []⟩,
    ⟨7, 9, 2, [(1, .node 7), (-1, .node 9), (1, .used 5 7 false 5), (-1, .used 5 9 false 5)], []⟩,
    ⟨8, 9, 2, [(1, .node 8), (-1, .node 9), (1, .used 5 8 false 5), (-1, .used 5 9 false 5)], []⟩,
    ⟨7, 10, 4, [(1, .node 2), (-1, .node 3), (2, .node 5), (-2, .node 6), (2, .node 7), (-2, .node 10), (1, .colour 1), (1, .colour 2), (2, .colour 3), (2, .colour 4), (2, .colour 5), (2, .used 1 2 true 0), (2, .used 2 2 false 1), (2, .used 3 4 true 2), (4, .used 3 5 true 2), (4, .used 4 5 false 4), (4, .used 5 7 false 5), (2, .used 5 8 false 5), (2, .used 5 9 false 5)], []⟩,
    ⟨8, 10, 4, [(1, .node 2), (-1, .node 3), (2, .node 5), (-2, .node 6), (2, .node 8), (-2, .node 10), (1, .colour 1), (1, .colour 2), (2, .colour 3), (2, .colour 4), (2, .colour 5), (2, .used 1 2 true 0), (2, .used 2 2 false 1), (2, .used 3 4 true 2), (4, .used 3 5 true 2), (4, .used 4 5 false 4), (2, .used 5 7 false 5), (4, .used 5 8 false 5), (2, .used 5 9 false 5)], []⟩,
    ⟨9, 10, 4, [(1, .node 2), (-1, .node 3), (2, .node 5), (-2, .node 6), (2, .node 9), (-2, .node 10), (1, .colour 1), (1, .colour 2), (2, .colour 3), (2, .colour 4), (2, .colour 5), (2, .used 1 2 true 0), (2, .used 2 2 false 1), (2, .used 3 4 true 2), (4, .used 3 5 true 2), (4, .used 4 5 false 4), (2, .used 5 7 false 5), (2, .used 5 8 false 5), (4, .used 5 9 false 5)], []⟩])]

def cert7x4 : List (List Int × List PairProof) := [
  ([0], [
    ⟨0, 1, 2, [(1, .node 0), (-1, .node 1), (-1, .colour 1), (1, .colour 2)], []⟩])]

def cert7x4Back : List (List Int × List PairProof) := [
  ([1], []),
  ([2], []),
  ([3], [
    ⟨2, 3, 2, [(1, .node 2), (-1, .node 3), (1, .colour 1), (1, .colour 2), (2, .used 1 2 true 0), (2, .used 2 2 false 1)], []⟩]),
  ([4], []),
  ([5], [
    ⟨5, 6, 2, [(1, .node 5), (-1, .node 6), (1, .colour 4), (2, .used 4 5 false 4)], []⟩]),
  ([6], [
    ⟨7, 8, 2, [(1, .node 7), (-1, .node 8), (1, .used 3 7 true 2), (-1, .used 3 8 true 2), (1, .used 5 7 false 5), (-1, .used 5 8 false 5)], []⟩,
    ⟨7, 9, 2, [(1, .node 7), (-1, .node 9), (1, .used 3 7 true 2), (-1, .used 3 9 true 2), (1, .used 5 7 false 5), (-1, .used 5 9 false 5)], []⟩,
    ⟨8, 9, 2, [(1, .node 8), (-1, .node 9), (1, .used 3 8 true 2), (-1, .used 3 9 true 2), (1, .used 5 8 false 5), (-1, .used 5 9 false 5)], []⟩,
    ⟨7, 10, 2, [(1, .node 2), (-1, .node 3), (1, .node 5), (-1, .node 6), (1, .node 7), (-1, .node 10), (1, .colour 1), (1, .colour 2), (1, .colour 3), (1, .colour 4), (1, .colour 5), (2, .used 1 2 true 0), (2, .used 2 2 false 1), (2, .used 3 7 true 2), (1, .used 3 8 true 2), (1, .used 3 9 true 2), (2, .used 4 5 false 4), (2, .used 5 7 false 5), (1, .used 5 8 false 5), (1, .used 5 9 false 5)], []⟩,
    ⟨8, 10, 2, [(1, .node 2), (-1, .node 3), (1, .node 5), (-1, .node 6), (1, .node 8), (-1, .node 10), (1, .colour 1), (1, .colour 2), (1, .colour 3), (1, .colour 4), (1, .colour 5), (2, .used 1 2 true 0), (2, .used 2 2 false 1), (1, .used 3 7 true 2), (2, .used 3 8 true 2), (1, .used 3 9 true 2), (2, .used 4 5 false 4), (1, .used 5 7 false 5), (2, .used 5 8 false 5), (1, .used 5 9 false 5)], []⟩,
    ⟨9, 10, 2, [(1, .node 2), (-1, .node 3), (1, .node 5), (-1, .node 6), (1, .node 9), (-1, .node 10), (1, .colour 1), (1, .colour 2), (1, .colour 3), (1, .colour 4), (1, .colour 5), (2, .used 1 2 true 0), (2, .used 2 2 false 1), (1, .used 3 7 true 2), (1, .used 3 8 true 2), (2, .used 3 9 true 2), (2, .used 4 5 false 4), (1, .used 5 7 false 5), (1, .used 5 8 false 5), (2, .used 5 9 false 5)], []⟩])]

def cert7x5 : List (List Int × List PairProof) := [
  ([0], [
    ⟨0, 1, 2, [(1, .node 0), (-1, .node 1), (-1, .colour 1), (1, .colour 2)], []⟩,
    ⟨0, 2, 4, [(2, .node 0), (-2, .node 2), (1, .node 4), (1, .node 5), (-1, .node 6), (-1, .node 7), (-2, .colour 1), (2, .colour 3), (-1, .colour 5), (1, .colour 6)], [(1, (5, false), (7, false))]⟩,
    ⟨1, 2, 4, [(2, .node 1), (-2, .node 2), (1, .node 4), (1, .node 5), (-1, .node 6), (-1, .node 7), (-2, .colour 2), (2, .colour 3), (-1, .colour 5), (1, .colour 6)], [(1, (5, false), (7, false))]⟩,
    ⟨0, 3, 4, [(2, .node 0), (-2, .node 3), (1, .node 4), (1, .node 5), (-1, .node 6), (-1, .node 7), (-2, .colour 1), (2, .colour 4), (-1, .colour 5), (1, .colour 6)], [(1, (5, false), (7, false))]⟩,
    ⟨1, 3, 4, [(2, .node 1), (-2, .node 3), (1, .node 4), (1, .node 5), (-1, .node 6), (-1, .node 7), (-2, .colour 2), (2, .colour 4), (-1, .colour 5), (1, .colour 6)], [(1, (5, false), (7, false))]⟩,
    ⟨2, 3, 2, [(1, .node 2), (-1, .node 3), (-1, .colour 3), (1, .colour 4)], []⟩])]

def cert7x5Back : List (List Int × List PairProof) := [
  ([1], []),
  ([2], []),
  ([3], []),
  ([4], []),
  ([5], [
    ⟨4, 5, 2, [(1, .node 4), (-1, .node 5), (1, .colour 1), (1, .colour 2), (2, .used 1 4 true 0), (2, .used 2 4 false 1)], []⟩]),
  ([6], [
    ⟨6, 7, 2, [(1, .node 6), (-1, .node 7), (1, .colour 3), (1, .colour 4), (2, .used 3 6 true 2), (2, .used 4 6 false 3)], []⟩]),
  ([7], [
    ⟨8, 9, 2, [(1, .node 8), (-1, .node 9), (1, .used 5 8 true 4), (-1, .used 5 9 true 4), (1, .used 6 8 false 6), (-1, .used 6 9 false 6)], []⟩,
    ⟨8, 10, 4, [(1, .node 4), (-1, .node 5), (1, .node 6), (-1, .node 7), (2, .node 8), (-2, .node 10), (1, .colour 1), (1, .colour 2), (1, .colour 3), (1, .colour 4), (2, .colour 5), (2, .colour 6), (2, .used 1 4 true 0), (2, .used 2 4 false 1), (2, .used 3 6 true 2), (2, .used 4 6 false 3), (4, .used 5 8 true 4), (2, .used 5 9 true 4), (4, .used 6 8 false 6), (2, .used 6 9 false 6)], []⟩,
    ⟨9, 10, 4, [(1, .node 4), (-1, .node 5), (1, .node 6), (-1, .node 7), (2, .node 9), (-2, .node 10), (1, .colour 1), (1, .colour 2), (1, .colour 3), (1, .colour 4), (2, .colour 5), (2, .colour 6), (2, .used 1 4 true 0), (2, .used 2 4 false 1), (2, .used 3 6 true 2), (2, .used 4 6 false 3), (2, .used 5 8 true 4), (4, .used 5 9 true 4), (2, .used 6 8 false 6), (4, .used 6 9 false 6)], []⟩]),
  ([8], []),
  ([9], [
    ⟨12, 13, 2, [(1, .node 12), (-1, .node 13), (1, .colour 8), (2, .used 8 12 false 11)], []⟩]),
  ([10], [
    ⟨14, 15, 2, [(1, .node 14), (-1, .node 15), (1, .used 7 14 true 8), (-1, .used 7 15 true 8), (1, .used 9 14 false 12), (-1, .used 9 15 false 12)], []⟩,
    ⟨14, 16, 2, [(1, .node 14), (-1, .node 16), (1, .used 7 14 true 8), (-1, .used 7 16 true 8), (1, .used 9 14 false 12), (-1, .used 9 16 false 12)], []⟩,
    ⟨15, 16, 2, [(1, .node 15), (-1, .node 16), (1, .used 7 15 true 8), (-1, .used 7 16 true 8), (1, .used 9 15 false 12), (-1, .used 9 16 false 12)], []⟩,
    ⟨14, 17, 8, [(1, .node 4), (-1, .node 5), (1, .node 6), (-1, .node 7), (6, .node 8), (-4, .node 9), (-2, .node 10), (4, .node 12), (-4, .node 13), (4, .node 14), (-4, .node 17), (1, .colour 1), (1, .colour 2), (1, .colour 3), (1, .colour 4), (2, .colour 5), (2, .colour 6), (4, .colour 7), (4, .colour 8), (4, .colour 9), (2, .used 1 4 true 0), (2, .used 2 4 false 1), (2, .used 3 6 true 2), (2, .used 4 6 false 3), (8, .used 5 8 true 4), (-2, .used 5 9 true 4), (8, .used 6 8 false 6), (-2, .used 6 9 false 6), (4, .used 7 11 true 8), (8, .used 7 14 true 8), (4, .used 7 15 true 8), (4, .used 7 16 true 8), (8, .used 8 12 false 11), (8, .used 9 14 false 12), (4, .used 9 15 false 12), (4, .used 9 16 false 12)], []⟩,
    ⟨15, 17, 8, [(1, .node 4), (-1, .node 5), (1, .node 6), (-1, .node 7), (6, .node 8), (-4, .node 9), (-2, .node 10), (4, .node 12), (-4, .node 13), (4, .node 15), (-4, .node 17), (1, .colour 1), (1, .colour 2), (1, .colour 3), (1, .colour 4), (2, .colour 5), (2, .colour 6), (4, .colour 7), (4, .colour 8), (4, .colour 9), (2, .used 1 4 true 0), (2, .used 2 4 false 1), (2, .used 3 6 true 2), (2, .used 4 6 false 3), (8, .used 5 8 true 4), (-2, .used 5 9 true 4), (8, .used 6 8 false 6), (-2, .used 6 9 false 6), (4, .used 7 11 true 8), (4, .used 7 14 true 8), (8, .used 7 15 true 8), (4, .used 7 16 true 8), (8, .used 8 12 false 11), (4, .used 9 14 false 12), (8, .used 9 15 false 12), (4, .used 9 16 false 12)], []⟩,
    ⟨16, 17, 8, [(1, .node 4), (-1, .node 5), (1, .node 6), (-1, .node 7), (6, .node 8), (-4, .node 9), (-2, .node 10), (4, .node 12), (-4, .node 13), (4, .node 16), (-4, .node 17), (1, .colour 1), (1, .colour 2), (1, .colour 3), (1, .colour 4), (2, .colour 5), (2, .colour 6), (4, .colour 7), (4, .colour 8), (4, .colour 9), (2, .used 1 4 true 0), (2, .used 2 4 false 1), (2, .used 3 6 true 2), (2, .used 4 6 false 3), (8, .used 5 8 true 4), (-2, .used 5 9 true 4), (8, .used 6 8 false 6), (-2, .used 6 9 false 6), (4, .used 7 11 true 8), (4, .used 7 14 true 8), (4, .used 7 15 true 8), (8, .used 7 16 true 8), (8, .used 8 12 false 11), (4, .used 9 14 false 12), (4, .used 9 15 false 12), (8, .used 9 16 false 12)], []⟩])]

def cert7x6 : List (List Int × List PairProof) := [
  ([0], [
    ⟨0, 1, 2, [(1, .node 0), (-1, .node 1), (-1, .colour 1), (1, .colour 2)], []⟩,
    ⟨0, 2, 4, [(2, .node 0), (-2, .node 2), (1, .node 4), (1, .node 5), (-1, .node 6), (-1, .node 7), (-2, .colour 1), (2, .colour 3), (-1, .colour 5), (1, .colour 6)], [(1, (5, false), (7, false))]⟩,
    ⟨1, 2, 4, [(2, .node 1), (-2, .node 2), (1, .node 4), (1, .node 5), (-1, .node 6), (-1, .node 7), (-2, .colour 2), (2, .colour 3), (-1, .colour 5), (1, .colour 6)], [(1, (5, false), (7, false))]⟩,
    ⟨0, 3, 4, [(2, .node 0), (-2, .node 3), (1, .node 4), (1, .node 5), (-1, .node 6), (-1, .node 7), (-2, .colour 1), (2, .colour 4), (-1, .colour 5), (1, .colour 6)], [(1, (5, false), (7, false))]⟩,
    ⟨1, 3, 4, [(2, .node 1), (-2, .node 3), (1, .node 4), (1, .node 5), (-1, .node 6), (-1, .node 7), (-2, .colour 2), (2, .colour 4), (-1, .colour 5), (1, .colour 6)], [(1, (5, false), (7, false))]⟩,
    ⟨2, 3, 2, [(1, .node 2), (-1, .node 3), (-1, .colour 3), (1, .colour 4)], []⟩])]

def cert7x6Back : List (List Int × List PairProof) := [
  ([1], []),
  ([2], []),
  ([3], []),
  ([4], []),
  ([5], [
    ⟨4, 5, 2, [(1, .node 4), (-1, .node 5), (1, .colour 1), (1, .colour 2), (2, .used 1 4 true 0), (2, .used 2 4 false 1)], []⟩]),
  ([6], [
    ⟨6, 7, 2, [(1, .node 6), (-1, .node 7), (1, .colour 3), (1, .colour 4), (2, .used 3 6 true 2), (2, .used 4 6 false 3)], []⟩]),
  ([7], [
    ⟨8, 9, 2, [(1, .node 8), (-1, .node 9), (1, .used 5 8 true 4), (-1, .used 5 9 true 4), (1, .used 6 8 false 6), (-1, .used 6 9 false 6)], []⟩,
    ⟨8, 10, 4, [(1, .node 4), (-1, .node 5), (1, .node 6), (-1, .node 7), (2, .node 8), (-2, .node 10), (1, .colour 1), (1, .colour 2), (1, .colour 3), (1, .colour 4), (2, .colour 5), (2, .colour 6), (2, .used 1 4 true 0), (2, .used 2 4 false 1), (2, .used 3 6 true 2), (2, .used 4 6 false 3), (4, .used 5 8 true 4), (2, .used 5 9 true 4), (4, .used 6 8 false 6), (2, .used 6 9 false 6)], []⟩,
    ⟨9, 10, 4, [(1, .node 4), (-1, .node 5), (1, .node 6), (-1, .node 7), (2, .node 9), (-2, .node 10), (1, .colour 1), (1, .colour 2), (1, .colour 3), (1, .colour 4), (2, .colour 5), (2, .colour 6), (2, .used 1 4 true 0), (2, .used 2 4 false 1), (2, .used 3 6 true 2), (2, .used 4 6 false 3), (2, .used 5 8 true 4), (4, .used 5 9 true 4), (2, .used 6 8 false 6), (4, .used 6 9 false 6)], []⟩]),
  ([8], []),
  ([9], [
    ⟨12, 13, 2, [(1, .node 12), (-1, .node 13), (1, .colour 8), (1, .used 7 12 true 8), (-1, .used 7 13 true 8), (2, .used 8 12 false 11)], []⟩]),
  ([10], [
    ⟨14, 15, 2, [(1, .node 14), (-1, .node 15), (1, .used 7 14 true 8), (-1, .used 7 15 true 8), (1, .used 9 14 false 12), (-1, .used 9 15 false 12)], []⟩,
    ⟨14, 16, 2, [(1, .node 14), (-1, .node 16), (1, .used 7 14 true 8), (-1, .used 7 16 true 8), (1, .used 9 14 false 12), (-1, .used 9 16 false 12)], []⟩,
    ⟨15, 16, 2, [(1, .node 15), (-1, .node 16), (1, .used 7 15 true 8), (-1, .used 7 16 true 8), (1, .used 9 15 false 12), (-1, .used 9 16 false 12)], []⟩,
    ⟨14, 17, 4, [(1, .node 4), (-1, .node 5), (1, .node 6), (-1, .node 7), (4, .node 8), (-2, .node 9), (-2, .node 10), (2, .node 12), (-2, .node 13), (2, .node 14), (-2, .node 17), (1, .colour 1), (1, .colour 2), (1, .colour 3), (1, .colour 4), (2, .colour 5), (2, .colour 6), (2, .colour 7), (2, .colour 8), (2, .colour 9), (2, .used 1 4 true 0), (2, .used 2 4 false 1), (2, .used 3 6 true 2), (2, .used 4 6 false 3), (6, .used 5 8 true 4), (6, .used 6 8 false 6), (4, .used 7 12 true 8), (4, .used 7 14 true 8), (2, .used 7 15 true 8), (2, .used 7 16 true 8), (4, .used 8 12 false 11), (4, .used 9 14 false 12), (2, .used 9 15 false 12), (2, .used 9 16 false 12)], []⟩,
    ⟨15, 17, 4, [(1, .node 4), (-1, .node 5), (1, .node 6), (-1, .node 7), (4, .node 8), (-2, .node 9), (-2, .node 10), (2, .node 12), (-2, .node 13), (2, .node 15), (-2, .node 17), (1, .colour 1), (1, .colour 2), (1, .colour 3), (1, .colour 4), (2, .colour 5), (2, .colour 6), (2, .colour 7), (2, .colour 8), (2, .colour 9), (2, .used 1 4 true 0), (2, .used 2 4 false 1), (2, .used 3 6 true 2), (2, .used 4 6 false 3), (6, .used 5 8 true 4), (6, .used 6 8 false 6), (4, .used 7 12 true 8), (2, .used 7 14 true 8), (4, .used 7 15 true 8), (2, .used 7 16 true 8), (4, .used 8 12 false 11), (2, .used 9 14 false 12), (4, .used 9 15 false 12), (2, .used 9 16 false 12)], []⟩,
    ⟨16, 17, 4, [(1, .node 4), (-1, .node 5), (1, .node 6), (-1, .node 7), (4, .node 8), (-2, .node 9), (-2, .node 10), (2, .node 12), (-2, .node 13), (2, .node 16), (-2, .node 17), (1, .colour 1), (1, .colour 2), (1, .colour 3), (1, .colour 4), (2, .colour 5), (2, .colour 6), (2, .colour 7), (2, .colour 8), (2, .colour 9), (2, .used 1 4 true 0), (2, .used 2 4 false 1), (2, .used 3 6 true 2), (2, .used 4 6 false 3), (6, .used 5 8 true 4), (6, .used 6 8 false 6), (4, .used 7 12 true 8), (2, .used 7 14 true 8), (2, .used 7 15 true 8), (4, .used 7 16 true 8), (4, .used 8 12 false 11), (2, .used 9 14 false 12), (2, .used 9 15 false 12), (4, .used 9 16 false 12)], []⟩])]

def cert7x7 : List (List Int × List PairProof) := [
  ([7], [
    ⟨6, 7, 2, [(1, .node 6), (-1, .node 7), (-1, .colour 3), (1, .colour 5)], []⟩,
    ⟨6, 10, 4, [(1, .node 4), (1, .node 5), (2, .node 6), (-1, .node 8), (-1, .node 9), (-2, .node 10), (-1, .colour 1), (1, .colour 2), (-2, .colour 3), (2, .colour 4)], []⟩,
    ⟨7, 10, 4, [(1, .node 4), (1, .node 5), (2, .node 7), (-1, .node 8), (-1, .node 9), (-2, .node 10), (-1, .colour 1), (1, .colour 2), (2, .colour 4), (-2, .colour 5)], []⟩,
    ⟨6, 11, 4, [(1, .node 4), (1, .node 5), (2, .node 6), (-1, .node 8), (-1, .node 9), (-2, .node 11), (-1, .colour 1), (1, .colour 2), (-2, .colour 3), (2, .colour 6)], []⟩,
    ⟨7, 11, 4, [(1, .node 4), (1, .node 5), (2, .node 7), (-1, .node 8), (-1, .node 9), (-2, .node 11), (-1, .colour 1), (1, .colour 2), (-2, .colour 5), (2, .colour 6)], []⟩,
    ⟨10, 11, 2, [(1, .node 10), (-1, .node 11), (-1, .colour 4), (1, .colour 6)], []⟩])]

def cert7x7Back : List (List Int × List PairProof) := [
  ([3], []),
  ([4], []),
  ([5], []),
  ([1], [
    ⟨4, 5, 2, [(1, .node 4), (-1, .node 5), (1, .colour 3), (1, .colour 5), (2, .used 3 4 false 6), (2, .used 5 4 true 7)], []⟩]),
  ([6], []),
  ([2], [
    ⟨8, 9, 2, [(1, .node 8), (-1, .node 9), (1, .colour 4), (1, .colour 6), (2, .used 4 8 false 10), (2, .used 6 8 true 11)], []⟩]),
  ([0], [
    ⟨0, 1, 2, [(1, .node 0), (-1, .node 1), (1, .used 1 0 false 4), (-1, .used 1 1 false 4), (1, .used 2 0 true 8), (-1, .used 2 1 true 8)], []⟩,
    ⟨0, 2, 2, [(1, .node 0), (-1, .node 2), (1, .used 1 0 false 4), (-1, .used 1 2 false 4), (1, .used 2 0 true 8), (-1, .used 2 2 true 8)], []⟩,
    ⟨1, 2, 2, [(1, .node 1), (-1, .node 2), (1, .used 1 1 false 4), (-1, .used 1 2 false 4), (1, .used 2 1 true 8), (-1, .used 2 2 true 8)], []⟩,
    ⟨0, 3, 2, [(1, .node 0), (-1, .node 3), (1, .node 4), (-1, .node 5), (1, .node 8), (-1, .node 9), (1, .colour 1), (1, .colour 2), (1, .colour 3), (1, .colour 4), (1, .colour 5), (1, .colour 6), (2, .used 3 4 false 6), (2, .used 4 8 false 10), (2, .used 5 4 true 7), (2, .used 1 0 false 4), (1, .used 1 1 false 4), (1, .used 1 2 false 4), (2, .used 6 8 true 11), (2, .used 2 0 true 8), (1, .used 2 1 true 8), (1, .used 2 2 true 8)], []⟩,
    ⟨1, 3, 2, [(1, .node 1), (-1, .node 3), (1, .node 4), (-1, .node 5), (1, .node 8), (-1, .node 9), (1, .colour 1), (1, .colour 2), (1, .colour 3), (1, .colour 4), (1, .colour 5), (1, .colour 6), (2, .used 3 4 false 6), (2, .used 4 8 false 10), (2, .used 5 4 true 7), (1, .used 1 0 false 4), (2, .used 1 1 false 4), (1, .used 1 2 false 4), (2, .used 6 8 true 11), (1, .used 2 0 true 8), (2, .used 2 1 true 8), (1, .used 2 2 true 8)], []⟩,
    ⟨2, 3, 2, [(1, .node 2), (-1, .node 3), (1, .node 4), (-1, .node 5), (1, .node 8), (-1, .node 9), (1, .colour 1), (1, .colour 2), (1, .colour 3), (1, .colour 4), (1, .colour 5), (1, .colour 6), (2, .used 3 4 false 6), (2, .used 4 8 false 10), (2, .used 5 4 true 7), (1, .used 1 0 false 4), (1, .used 1 1 false 4), (2, .used 1 2 false 4), (2, .used 6 8 true 11), (1, .used 2 0 true 8), (1, .used 2 1 true 8), (2, .used 2 2 true 8)], []⟩])]

def cert7x8 : List (List Int × List PairProof) := [
  ([1], []),
  ([2], []),
  ([3], []),
  ([4], []),
  ([5], [
    ⟨4, 5, 2, [(1, .node 4), (-1, .node 5), (1, .colour 1), (1, .colour 2), (2, .used 1 4 false 0), (2, .used 2 4 true 1)], []⟩]),
  ([6], [
    ⟨6, 7, 2, [(1, .node 6), (-1, .node 7), (1, .colour 3), (1, .colour 4), (2, .used 3 6 false 2), (2, .used 4 6 true 3)], []⟩]),
  ([7], [
    ⟨8, 9, 2, [(1, .node 8), (-1, .node 9), (1, .used 5 8 false 4), (-1, .used 5 9 false 4), (1, .used 6 8 true 6), (-1, .used 6 9 true 6)], []⟩,
    ⟨8, 10, 2, [(1, .node 8), (-1, .node 10), (1, .used 5 8 false 4), (-1, .used 5 10 false 4), (1, .used 6 8 true 6), (-1, .used 6 10 true 6)], []⟩,
    ⟨9, 10, 2, [(1, .node 9), (-1, .node 10), (1, .used 5 9 false 4), (-1, .used 5 10 false 4), (1, .used 6 9 true 6), (-1, .used 6 10 true 6)], []⟩,
    ⟨8, 11, 2, [(1, .node 4), (-1, .node 5), (1, .node 6), (-1, .node 7), (1, .node 8), (-1, .node 11), (1, .colour 1), (1, .colour 2), (1, .colour 3), (1, .colour 4), (1, .colour 5), (1, .colour 6), (2, .used 1 4 false 0), (2, .used 2 4 true 1), (2, .used 3 6 false 2), (2, .used 4 6 true 3), (2, .used 5 8 false 4), (1, .used 5 9 false 4), (1, .used 5 10 false 4), (2, .used 6 8 true 6), (1, .used 6 9 true 6), (1, .used 6 10 true 6)], []⟩,
    ⟨9, 11, 2, [(1, .node 4), (-1, .node 5), (1, .node 6), (-1, .node 7), (1, .node 9), (-1, .node 11), (1, .colour 1), (1, .colour 2), (1, .colour 3), (1, .colour 4), (1, .colour 5), (1, .colour 6), (2, .used 1 4 false 0), (2, .used 2 4 true 1), (2, .used 3 6 false 2), (2, .used 4 6 true 3), (1, .used 5 8 false 4), (2, .used 5 9 false 4), (1, .used 5 10 false 4), (1, .used 6 8 true 6), (2, .used 6 9 true 6), (1, .used 6 10 true 6)], []⟩,
    ⟨10, 11, 2, [(1, .node 4), (-1, .node 5), (1, .node 6), (-1, .node 7), (1, .node 10), (-1, .node 11), (1, .colour 1), (1, .colour 2), (1, .colour 3), (1, .colour 4), (1, .colour 5), (1, .colour 6), (2, .used 1 4 false 0), (2, .used 2 4 true 1), (2, .used 3 6 false 2), (2, .used 4 6 true 3), (1, .used 5 8 false 4), (1, .used 5 9 false 4), (2, .used 5 10 false 4), (1, .used 6 8 true 6), (1, .used 6 9 true 6), (2, .used 6 10 true 6)], []⟩]),
  ([8], []),
  ([9], [
    ⟨13, 14, 2, [(1, .node 13), (-1, .node 14), (1, .colour 8), (1, .used 7 13 false 8), (-1, .used 7 14 false 8), (2, .used 8 13 true 12)], []⟩]),
  ([10], [
    ⟨15, 16, 2, [(1, .node 15), (-1, .node 16), (1, .used 7 15 false 8), (-1, .used 7 16 false 8), (1, .used 9 15 true 13), (-1, .used 9 16 true 13)], []⟩,
    ⟨15, 17, 2, [(1, .node 15), (-1, .node 17), (1, .used 7 15 false 8), (-1, .used 7 17 false 8), (1, .used 9 15 true 13), (-1, .used 9 17 true 13)], []⟩,
    ⟨16, 17, 2, [(1, .node 16), (-1, .node 17), (1, .used 7 16 false 8), (-1, .used 7 17 false 8), (1, .used 9 16 true 13), (-1, .used 9 17 true 13)], []⟩,
    ⟨15, 18, 4, [(1, .node 4), (-1, .node 5), (1, .node 6), (-1, .node 7), (5, .node 8), (-2, .node 9), (-2, .node 10), (-1, .node 11), (2, .node 13), (-2, .node 14), (2, .node 15), (-2, .node 18), (1, .colour 1), (1, .colour 2), (1, .colour 3), (1, .colour 4), (1, .colour 5), (1, .colour 6), (2, .colour 7), (2, .colour 8), (2, .colour 9), (2, .used 1 4 false 0), (2, .used 2 4 true 1), (2, .used 3 6 false 2), (2, .used 4 6 true 3), (6, .used 5 8 false 4), (-1, .used 5 9 false 4), (-1, .used 5 10 false 4), (6, .used 6 8 true 6), (-1, .used 6 9 true 6), (-1, .used 6 10 true 6), (2, .used 7 12 true 8), (4, .used 7 13 false 8), (4, .used 7 15 false 8), (2, .used 7 16 false 8), (2, .used 7 17 false 8), (4, .used 8 13 true 12), (4, .used 9 15 true 13), (2, .used 9 16 true 13), (2, .used 9 17 true 13)], []⟩,
    ⟨16, 18, 4, [(1, .node 4), (-1, .node 5), (1, .node 6), (-1, .node 7), (5, .node 8), (-2, .node 9), (-2, .node 10), (-1, .node 11), (2, .node 13), (-2, .node 14), (2, .node 16), (-2, .node 18), (1, .colour 1), (1, .colour 2), (1, .colour 3), (1, .colour 4), (1, .colour 5), (1, .colour 6), (2, .colour 7), (2, .colour 8), (2, .colour 9), (2, .used 1 4 false 0), (2, .used 2 4 true 1), (2, .used 3 6 false 2), (2, .used 4 6 true 3), (6, .used 5 8 false 4), (-1, .used 5 9 false 4), (-1, .used 5 10 false 4), (6, .used 6 8 true 6), (-1, .used 6 9 true 6), (-1, .used 6 10 true 6), (2, .used 7 12 true 8), (4, .used 7 13 false 8), (2, .used 7 15 false 8), (4, .used 7 16 false 8), (2, .used 7 17 false 8), (4, .used 8 13 true 12), (2, .used 9 15 true 13), (4, .used 9 16 true 13), (2, .used 9 17 true 13)], []⟩,
    ⟨17, 18, 4, [(1, .node 4), (-1, .node 5), (1, .node 6), (-1, .node 7), (5, .node 8), (-2, .node 9), (-2, .node 10), (-1, .node 11), (2, .node 13), (-2, .node 14), (2, .node 17), (-2, .node 18), (1, .colour 1), (1, .colour 2), (1, .colour 3), (1, .colour 4), (1, .colour 5), (1, .colour 6), (2, .colour 7), (2, .colour 8), (2, .colour 9), (2, .used 1 4 false 0), (2, .used 2 4 true 1), (2, .used 3 6 false 2), (2, .used 4 6 true 3), (6, .used 5 8 false 4), (-1, .used 5 9 false 4), (-1, .used 5 10 false 4), (6, .used 6 8 true 6), (-1, .used 6 9 true 6), (-1, .used 6 10 true 6), (2, .used 7 12 true 8), (4, .used 7 13 false 8), (2, .used 7 15 false 8), (2, .used 7 16 false 8), (4, .used 7 17 false 8), (4, .used 8 13 true 12), (2, .used 9 15 true 13), (2, .used 9 16 true 13), (4, .used 9 17 true 13)], []⟩])]

def cert7x8Back : List (List Int × List PairProof) := [
  ([0], [
    ⟨0, 1, 2, [(1, .node 0), (-1, .node 1), (-1, .colour 1), (1, .colour 2)], []⟩,
    ⟨0, 2, 4, [(2, .node 0), (-2, .node 2), (1, .node 4), (1, .node 5), (-1, .node 6), (-1, .node 7), (-2, .colour 1), (2, .colour 3), (-1, .colour 5), (1, .colour 6)], []⟩,
    ⟨1, 2, 4, [(2, .node 1), (-2, .node 2), (1, .node 4), (1, .node 5), (-1, .node 6), (-1, .node 7), (-2, .colour 2), (2, .colour 3), (-1, .colour 5), (1, .colour 6)], []⟩,
    ⟨0, 3, 4, [(2, .node 0), (-2, .node 3), (1, .node 4), (1, .node 5), (-1, .node 6), (-1, .node 7), (-2, .colour 1), (2, .colour 4), (-1, .colour 5), (1, .colour 6)], []⟩,
    ⟨1, 3, 4, [(2, .node 1), (-2, .node 3), (1, .node 4), (1, .node 5), (-1, .node 6), (-1, .node 7), (-2, .colour 2), (2, .colour 4), (-1, .colour 5), (1, .colour 6)], []⟩,
    ⟨2, 3, 2, [(1, .node 2), (-1, .node 3), (-1, .colour 3), (1, .colour 4)], []⟩])]

def cert8x1 : List (List Int × List PairProof) := [
  ([0], [])]

def cert8x1Back : List (List Int × List PairProof) := [
  ([1], []),
  ([2], [
    ⟨1, 2, 2, [(1, .node 1), (-1, .node 2), (1, .colour 1), (2, .used 1 1 false 0)], []⟩]),
  ([3], [
    ⟨3, 4, 2, [(1, .node 3), (-1, .node 4), (1, .used 2 3 false 1), (-1, .used 2 4 false 1)], []⟩,
    ⟨3, 5, 2, [(1, .node 3), (-1, .node 5), (1, .used 2 3 false 1), (-1, .used 2 5 false 1)], []⟩,
    ⟨4, 5, 2, [(1, .node 4), (-1, .node 5), (1, .used 2 4 false 1), (-1, .used 2 5 false 1)], []⟩,
    ⟨3, 6, 2, [(1, .node 1), (-1, .node 2), (1, .node 3), (-1, .node 6), (1, .colour 1), (1, .colour 2), (2, .used 1 1 false 0), (2, .used 2 3 false 1), (1, .used 2 4 false 1), (1, .used 2 5 false 1)], []⟩,
    ⟨4, 6, 2, [(1, .node 1), (-1, .node 2), (1, .node 4), (-1, .node 6), (1, .colour 1), (1, .colour 2), (2, .used 1 1 false 0), (1, .used 2 3 false 1), (2, .used 2 4 false 1), (1, .used 2 5 false 1)], []⟩,
    ⟨5, 6, 2, [(1, .node 1), (-1, .node 2), (1, .node 5), (-1, .node 6), (1, .colour 1), (1, .colour 2), (2, .used 1 1 false 0), (1, .used 2 3 false 1), (1, .used 2 4 false 1), (2, .used 2 5 false 1)], []⟩])]

def cert8x2 : List (List Int × List PairProof) := [
  ([0], [])]

def cert8x2Back : List (List Int × List PairProof) := [
  ([1], []),
  ([2], [
    ⟨1, 2, 2, [(1, .node 1), (-1, .node 2), (1, .colour 1), (2, .used 1 1 false 0)], []⟩]),
  ([3], [
    ⟨3, 4, 2, [(1, .node 3), (-1, .node 4), (1, .used 2 3 false 1), (-1, .used 2 4 false 1)], []⟩,
    ⟨3, 5, 2, [(1, .node 3), (-1, .node 5), (1, .used 2 3 false 1), (-1, .used 2 5 false 1)], []⟩,
    ⟨4, 5, 2, [(1, .node 4), (-1, .node 5), (1, .used 2 4 false 1), (-1, .used 2 5 false 1)], []⟩,
    ⟨3, 6, 2, [(1, .node 1), (-1, .node 2), (1, .node 3), (-1, .node 6), (1, .colour 1), (1, .colour 2), (2, .used 1 1 false 0), (2, .used 2 3 false 1), (1, .used 2 4 false 1), (1, .used 2 5 false 1)], []⟩,
    ⟨4, 6, 2, [(1, .node 1), (-1, .node 2), (1, .node 4), (-1, .node 6), (1, .colour 1), (1, .colour 2), (2, .used 1 1 false 0), (1, .used 2 3 false 1), (2, .used 2 4 false 1), (1, .used 2 5 false 1)], []⟩,
    ⟨5, 6, 2, [(1, .node 1), (-1, .node 2), (1, .node 5), (-1, .node 6), (1, .colour 1), (1, .colour 2), (2, .used 1 1 false 0), (1, .used 2 3 false 1), (1, .used 2 4 false 1), (2, .used 2 5 false 1)], []⟩])]

def cert8x3 : List (List Int × List PairProof) := [
  ([0], [
    ⟨0, 1, 2, [(1, .node 0), (-1, .node 1), (-1, .colour 1), (1, .colour 2)], []⟩])]

def cert8x3Back : List (List Int × List PairProof) := [
  ([1], []),
  ([2], []),
  ([3], [
    ⟨2, 3, 2, [(1, .node 2), (-1, .node 3), (1, .colour 1), (1, .colour 2), (2, .used 1 2 true 0), (2, .used 2 2 false 1)], []⟩]),
  ([4], []),
  ([5], [
    ⟨5, 6, 4, [(1, .node 2), (-1, .node 3), (2, .node 5), (-2, .node 6), (1, .colour 1), (1, .colour 2), (2, .colour 3), (2, .colour 4), (2, .used 1 2 true 0), (2, .used 2 2 false 1), (2, .used 3 4 false 2), (4, .used 3 5 true 2), (4, .used 4 5 false 4)], []⟩]),
  ([6], [
    ⟨7, 8, 2, [(1, .node 7), (-1, .node 8), (1, .used 5 7 false 5), (-1, .used 5 8 false 5)], []⟩,
    ⟨7, 9, 2, [(1, .node 7), (-1, .node 9), (1, .used 5 7 false 5), (-1, .used 5 9 false 5)], []⟩,
    ⟨8, 9, 2, [(1, .node 8), (-1, .node 9), (1, .used 5 8 false 5), (-1, .used 5 9 false 5)], []⟩,
    ⟨7, 10, 4, [(1, .node 2), (-1, .node 3), (2, .node 5), (-2, .node 6), (2, .node 7), (-2, .node 10), (1, .colour 1), (1, .colour 2), (2, .colour 3), (2, .colour 4), (2, .colour 5), (2, .used 1 2 true 0), (2, .used 2 2 false 1), (2, .used 3 4 false 2), (4, .used 3 5 true 2), (4, .used 4 5 false 4), (4, .used 5 7 false 5), (2, .used 5 8 false 5), (2, .used 5 9 false 5)], []⟩,
    ⟨8, 10, 4, [(1, .node 2), (-1, .node 3), (2, .node 5), (-2, .node 6), (2, .node 8), (-2, .node 10), (1, .colour 1), (1, .colour 2), (2, .colour 3), (2, .colour 4), (2, .colour 5), (2, .used 1 2 true 0), (2, .used 2 2 false 1), (2, .used 3 4 false 2), (4, .used 3 5 true 2), (4, .used 4 5 false 4), (2, .used 5 7 false 5), (4, .used 5 8 false 5), (2, .used 5 9 false 5)], []⟩,
    ⟨9, 10, 4, [(1, .node 2), (-1, .node 3), (2, .node 5), (-2, .node 6), (2, .node 9), (-2, .node 10), (1, .colour 1), (1, .colour 2), (2, .colour 3), (2, .colour 4), (2, .colour 5), (2, .used 1 2 true 0), (2, .used 2 2 false 1), (2, .used 3 4 false 2), (4, .used 3 5 true 2), (4, .used 4 5 false 4), (2, .used 5 7 false 5), (2, .used 5 8 false 5), (4, .used 5 9 false 5)], []⟩])]

def cert8x4 : List (List Int × List PairProof) := [
  ([0], [
    ⟨0, 1, 2, [(1, .node 0), (-1, .node 1), (-1, .colour 1), (1, .colour 2)], []⟩])]

def cert8x4Back : List (List Int × List PairProof) := [
  ([1], []),
  ([2], []),
  ([3], [
    ⟨2, 3, 2, [(1, .node 2), (-1, .node 3), (1, .colour 1), (1, .colour 2), (2, .used 1 2 true 0), (2, .used 2 2 false 1)], []⟩]),
  ([4], [
    ⟨4, 5, 2, [(1, .node 4), (-1, .node 5), (1, .used 3 4 false 2), (-1, .used 3 5 false 2)], []⟩,
    ⟨4, 6, 2, [(1, .node 4), (-1, .node 6), (1, .used 3 4 false 2), (-1, .used 3 6 false 2)], []⟩,
    ⟨5, 6, 2, [(1, .node 5), (-1, .node 6), (1, .used 3 5 false 2), (-1, .used 3 6 false 2)], []⟩,
    ⟨4, 7, 2, [(1, .node 2), (-1, .node 3), (1, .node 4), (-1, .node 7), (1, .colour 1), (1, .colour 2), (1, .colour 3), (2, .used 1 2 true 0), (2, .used 2 2 false 1), (2, .used 3 4 false 2), (1, .used 3 5 false 2), (1, .used 3 6 false 2)], []⟩,
    ⟨5, 7, 2, [(1, .node 2), (-1, .node 3), (1, .node 5), (-1, .node 7), (1, .colour 1), (1, .colour 2), (1, .colour 3), (2, .used 1 2 true 0), (2, .used 2 2 false 1), (1, .used 3 4 false 2), (2, .used 3 5 false 2), (1, .used 3 6 false 2)], []⟩,
    ⟨6, 7, 2, [(1, .node 2), (-1, .node 3), (1, .node 6), (-1, .node 7), (1, .colour 1), (1, .colour 2), (1, .colour 3), (2, .used 1 2 true 0), (2, .used 2 2 false 1), (1, .used 3 4 false 2), (1, .used 3 5 false 2), (2, .used 3 6 false 2)], []⟩])]

def cert8x5 : List (List Int × List PairProof) := [
  ([0], [
    ⟨0, 1, 2, [(1, .node 0), (-1, .node 1), (-1, .colour 1), (1, .colour 2)], []⟩,
    ⟨0, 2, 4, [(2, .node 0), (-2, .node 2), (1, .node 4), (1, .node 5), (-1, .node 6), (-1, .node 7), (-2, .colour 1), (2, .colour 3), (-1, .colour 5), (1, .colour 6)], [(1, (5, false), (7, false))]⟩,
    ⟨1, 2, 4, [(2, .node 1), (-2, .node 2), (1, .node 4), (1, .node 5), (-1, .node 6), (-1, .node 7), (-2, .colour 2), (2, .colour 3), (-1, .colour 5), (1, .colour 6)], [(1, (5, false), (7, false))]⟩,
    ⟨0, 3, 4, [(2, .node 0), (-2, .node 3), (1, .node 4), (1, .node 5), (-1, .node 6), (-1, .node 7), (-2, .colour 1), (2, .colour 4), (-1, .colour 5), (1, .colour 6)], [(1, (5, false), (7, false))]⟩,
    ⟨1, 3, 4, [(2, .node 1), (-2, .node 3), (1, .node 4), (1, .node 5), (-1, .node 6), (-1, .node 7), (-2, .colour 2), (2, .colour 4), (-1, .colour 5), (1, .colour 6)], [(1, (5, false), (7, false))]⟩,
    ⟨2, 3, 2, [(1, .node 2), (-1, .node 3), (-1, .colour 3), (1, .colour 4)], []⟩])]

def cert8x5Back : List (List Int × List PairProof) := [
  ([1], []),
  ([2], []),
  ([3], []),
  ([4], []),
  ([5], [
    ⟨4, 5, 2, [(1, .node 4), (-1, .node 5), (1, .colour 1), (1, .colour 2), (2, .used 1 4 true 0), (2, .used 2 4 false 1)], []⟩]),
  ([6], [
    ⟨6, 7, 2, [(1, .node 6), (-1, .node 7), (1, .colour 3), (1, .colour 4), (2, .used 3 6 true 2), (2, .used 4 6 false 3)], []⟩]),
  ([7], [
    ⟨8, 9, 2, [(1, .node 8), (-1, .node 9), (1, .used 5 8 true 4), (-1, .used 5 9 true 4), (1, .used 6 8 false 6), (-1, .used 6 9 false 6)], []⟩,
    ⟨8, 10, 4, [(1, .node 4), (-1, .node 5), (1, .node 6), (-1, .node 7), (2, .node 8), (-2, .node 10), (1, .colour 1), (1, .colour 2), (1, .colour 3), (1, .colour 4), (2, .colour 5), (2, .colour 6), (2, .used 1 4 true 0), (2, .used 2 4 false 1), (2, .used 3 6 true 2), (2, .used 4 6 false 3), (4, .used 5 8 true 4), (2, .used 5 9 true 4), (4, .used 6 8 false 6), (2, .used 6 9 false 6)], []⟩,
    ⟨9, 10, 4, [(1, .node 4), (-1, .node 5), (1, .node 6), (-1, .node 7), (2, .node 9), (-2, .node 10), (1, .colour 1), (1, .colour 2), (1, .colour 3), (1, .colour 4), (2, .colour 5), (2, .colour 6), (2, .used 1 4 true 0), (2, .used 2 4 false 1), (2, .used 3 6 true 2), (2, .used 4 6 false 3), (2, .used 5 8 true 4), (4, .used 5 9 true 4), (2, .used 6 8 false 6), (4, .used 6 9 false 6)], []⟩]),
  ([8], []),
  ([9], [
    ⟨12, 13, 2, [(1, .node 12), (-1, .node 13), (1, .colour 8), (2, .used 8 12 false 11)], []⟩]),
  ([10], [
    ⟨14, 15, 2, [(1, .node 14), (-1, .node 15), (1, .used 7 14 true 8), (-1, .used 7 15 true 8), (1, .used 9 14 false 12), (-1, .used 9 15 false 12)], []⟩,
    ⟨14, 16, 2, [(1, .node 14), (-1, .node 16), (1, .used 7 14 true 8), (-1, .used 7 16 true 8), (1, .used 9 14 false 12), (-1, .used 9 16 false 12)], []⟩,
    ⟨15, 16, 2, [(1, .node 15), (-1, .node 16), (1, .used 7 15 true 8), (-1, .used 7 16 true 8), (1, .used 9 15 false 12), (-1, .used 9 16 false 12)], []⟩,
    ⟨14, 17, 8, [(1, .node 4), (-1, .node 5), (1, .node 6), (-1, .node 7), (6, .node 8), (-4, .node 9), (-2, .node 10), (4, .node 12), (-4, .node 13), (4, .node 14), (-4, .node 17), (1, .colour 1), (1, .colour 2), (1, .colour 3), (1, .colour 4), (2, .colour 5), (2, .colour 6), (4, .colour 7), (4, .colour 8), (4, .colour 9), (2, .used 1 4 true 0), (2, .used 2 4 false 1), (2, .used 3 6 true 2), (2, .used 4 6 false 3), (8, .used 5 8 true 4), (-2, .used 5 9 true 4), (8, .used 6 8 false 6), (-2, .used 6 9 false 6), (4, .used 7 11 false 8), (8, .used 7 14 true 8), (4, .used 7 15 true 8), (4, .used 7 16 true 8), (8, .used 8 12 false 11), (8, .used 9 14 false 12), (4, .used 9 15 false 12), (4, .used 9 16 false 12)], []⟩,
    ⟨15, 17, 8, [(1, .node 4), (-1, .node 5), (1, .node 6), (-1, .node 7), (6, .node 8), (-4, .node 9), (-2, .node 10), (4, .node 12), (-4, .node 13), (4, .node 15), (-4, .node 17), (1, .colour 1), (1, .colour 2), (1, .colour 3), (1, .colour 4), (2, .colour 5), (2, .colour 6), (4, .colour 7), (4, .colour 8), (4, .colour 9), (2, .used 1 4 true 0), (2, .used 2 4 false 1), (2, .used 3 6 true 2), (2, .used 4 6 false 3), (8, .used 5 8 true 4), (-2, .used 5 9 true 4), (8, .used 6 8 false 6), (-2, .used 6 9 false 6), (4, .used 7 11 false 8), (4, .used 7 14 true 8), (8, .used 7 15 true 8), (4, .used 7 16 true 8), (8, .used 8 12 false 11), (4, .used 9 14 false 12), (8, .used 9 15 false 12), (4, .used 9 16 false 12)], []⟩,
    ⟨16, 17, 8, [(1, .node 4), (-1, .node 5), (1, .node 6), (-1, .node 7), (6, .node 8), (-4, .node 9), (-2, .node 10), (4, .node 12), (-4, .node 13), (4, .node 16), (-4, .node 17), (1, .colour 1), (1, .colour 2), (1, .colour 3), (1, .colour 4), (2, .colour 5), (2, .colour 6), (4, .colour 7), (4, .colour 8), (4, .colour 9), (2, .used 1 4 true 0), (2, .used 2 4 false 1), (2, .used 3 6 true 2), (2, .used 4 6 false 3), (8, .used 5 8 true 4), (-2, .used 5 9 true 4), (8, .used 6 8 false 6), (-2, .used 6 9 false 6), (4, .used 7 11 false 8), (4, .used 7 14 true 8), (4, .used 7 15 true 8), (8, .used 7 16 true 8), (8, .used 8 12 false 11), (4, .used 9 14 false 12), (4, .used 9 15 false 12), (8, .used 9 16 false 12)], []⟩])]

def cert8x6 : List (List Int × List PairProof) := [
  ([0], [
    ⟨0, 1, 2, [(1, .node 0), (-1, .node 1), (-1, .colour 1), (1, .colour 2)], []⟩,
    ⟨0, 2, 4, [(2, .node 0), (-2, .node 2), (1, .node 4), (1, .node 5), (-1, .node 6), (-1, .node 7), (-2, .colour 1), (2, .colour 3), (-1, .colour 5), (1, .colour 6)], [(1, (5, false), (7, false))]⟩,
    ⟨1, 2, 4, [(2, .node 1), (-2, .node 2), (1, .node 4), (1, .node 5), (-1, .node 6), (-1, .node 7), (-2, .colour 2), (2, .colour 3), (-1, .colour 5), (1, .colour 6)], [(1, (5, false), (7, false))]⟩,
    ⟨0, 3, 4, [(2, .node 0), (-2, .node 3), (1, .node 4), (1, .node 5), (-1, .node 6), (-1, .node 7), (-2, .colour 1), (2, .colour 4), (-1, .colour 5), (1, .colour 6)], [(1, (5, false), (7, false))]⟩,
    ⟨1, 3, 4, [(2, .node 1), (-2, .node 3), (1, .node 4), (1, .node 5), (-1, .node 6), (-1, .node 7), (-2, .colour 2), (2, .colour 4), (-1, .colour 5), (1, .colour 6)], [(1, (5, false), (7, false))]⟩,
    ⟨2, 3, 2, [(1, .node 2), (-1, .node 3), (-1, .colour 3), (1, .colour 4)], []⟩])]

def cert8x6Back : List (List Int × List PairProof) := [
  ([1], []),
  ([2], []),
  ([3], []),
  ([4], []),
  ([5], [
    ⟨4, 5, 2, [(1, .node 4), (-1, .node 5), (1, .colour 1), (1, .colour 2), (2, .used 1 4 true 0), (2, .used 2 4 false 1)], []⟩]),
  ([6], [
    ⟨6, 7, 2, [(1, .node 6), (-1, .node 7), (1, .colour 3), (1, .colour 4), (2, .used 3 6 true 2), (2, .used 4 6 false 3)], []⟩]),
  ([7], [
    ⟨8, 9, 2, [(1, .node 8), (-1, .node 9), (1, .used 5 8 true 4), (-1, .used 5 9 true 4), (1, .used 6 8 false 6), (-1, .used 6 9 false 6)], []⟩,
    ⟨8, 10, 4, [(1, .node 4), (-1, .node 5), (1, .node 6), (-1, .node 7), (2, .node 8), (-2, .node 10), (1, .colour 1), (1, .colour 2), (1, .colour 3), (1, .colour 4), (2, .colour 5), (2, .colour 6), (2, .used 1 4 true 0), (2, .used 2 4 false 1), (2, .used 3 6 true 2), (2, .used 4 6 false 3), (4, .used 5 8 true 4), (2, .used 5 9 true 4), (4, .used 6 8 false 6), (2, .used 6 9 false 6)], []⟩,
    ⟨9, 10, 4, [(1, .node 4), (-1, .node 5), (1, .node 6), (-1, .node 7), (2, .node 9), (-2, .node 10), (1, .colour 1), (1, .colour 2), (1, .colour 3), (1, .colour 4), (2, .colour 5), (2, .colour 6), (2, .used 1 4 true 0), (2, .used 2 4 false 1), (2, .used 3 6 true 2), (2, .used 4 6 false 3), (2, .used 5 8 true 4), (4, .used 5 9 true 4), (2, .used 6 8 false 6), (4, .used 6 9 false 6)], []⟩]),
  ([8], [
    ⟨11, 12, 2, [(1, .node 11), (-1, .node 12), (1, .used 7 11 false 8), (-1, .used 7 12 false 8)], []⟩]),
  ([9], [
    ⟨13, 14, 2, [(1, .node 13), (-1, .node 14), (1, .used 7 13 true 8), (-1, .used 7 14 true 8), (1, .used 8 13 false 11), (-1, .used 8 14 false 11)], []⟩,
    ⟨13, 15, 2, [(1, .node 13), (-1, .node 15), (1, .used 7 13 true 8), (-1, .used 7 15 true 8), (1, .used 8 13 false 11), (-1, .used 8 15 false 11)], []⟩,
    ⟨14, 15, 2, [(1, .node 14), (-1, .node 15), (1, .used 7 14 true 8), (-1, .used 7 15 true 8), (1, .used 8 14 false 11), (-1, .used 8 15 false 11)], []⟩,
    ⟨13, 16, 4, [(1, .node 4), (-1, .node 5), (1, .node 6), (-1, .node 7), (4, .node 8), (-2, .node 9), (-2, .node 10), (2, .node 11), (-2, .node 12), (2, .node 13), (-2, .node 16), (1, .colour 1), (1, .colour 2), (1, .colour 3), (1, .colour 4), (2, .colour 5), (2, .colour 6), (2, .colour 7), (2, .colour 8), (2, .used 1 4 true 0), (2, .used 2 4 false 1), (2, .used 3 6 true 2), (2, .used 4 6 false 3), (6, .used 5 8 true 4), (6, .used 6 8 false 6), (4, .used 7 11 false 8), (4, .used 7 13 true 8), (2, .used 7 14 true 8), (2, .used 7 15 true 8), (4, .used 8 13 false 11), (2, .used 8 14 false 11), (2, .used 8 15 false 11)], []⟩,
    ⟨14, 16, 4, [(1, .node 4), (-1, .node 5), (1, .node 6), (-1, .node 7), (4, .node 8), (-2, .node 9), (-2, .node 10), (2, .node 11), (-2, .node 12), (2, .node 14), (-2, .node 16), (1, .colour 1), (1, .colour 2), (1, .colour 3), (1, .colour 4), (2, .colour 5), (2, .colour 6), (2, .colour 7), (2, .colour 8), (2, .used 1 4 true 0), (2, .used 2 4 false 1), (2, .used 3 6 true 2), (2, .used 4 6 false 3), (6, .used 5 8 true 4), (6, .used 6 8 false 6), (4, .used 7 11 false 8), (2, .used 7 13 true 8), (4, .used 7 14 true 8), (2, .used 7 15 true 8), (2, .used 8 13 false 11), (4, .used 8 14 false 11), (2, .used 8 15 false 11)], []⟩,
    ⟨15, 16, 4, [(1, .node 4), (-1, .node 5), (1, .node 6), (-1, .node 7), (4, .node 8), (-2, .node 9), (-2, .node 10), (2, .node 11), (-2, .node 12), (2, .node 15), (-2, .node 16), (1, .colour 1), (1, .colour 2), (1, .colour 3), (1, .colour 4), (2, .colour 5), (2, .colour 6), (2, .colour 7), (2, .colour 8), (2, .used 1 4 true 0), (2, .used 2 4 false 1), (2, .used 3 6 true 2), (2, .used 4 6 false 3), (6, .used 5 8 true 4), (6, .used 6 8 false 6), (4, .used 7 11 false 8), (2, .used 7 13 true 8), (2, .used 7 14 true 8), (4, .used 7 15 true 8), (2, .used 8 13 false 11), (2, .used 8 14 false 11), (4, .used 8 15 false 11)], []⟩])]

def cert8x7 : List (List Int × List PairProof) := [
  ([0], [
    ⟨0, 1, 2, [(1, .node 0), (-1, .node 1), (-1, .colour 1), (1, .colour 2)], []⟩,
    ⟨0, 2, 4, [(2, .node 0), (-2, .node 2), (1, .node 4), (1, .node 5), (-1, .node 6), (-1, .node 7), (-2, .colour 1), (2, .colour 3), (-1, .colour 5), (1, .colour 6)], []⟩,
    ⟨1, 2, 4, [(2, .node 1), (-2, .node 2), (1, .node 4), (1, .node 5), (-1, .node 6), (-1, .node 7), (-2, .colour 2), (2, .colour 3), (-1, .colour 5), (1, .colour 6)], []⟩,
    ⟨0, 3, 4, [(2, .node 0), (-2, .node 3), (1, .node 4), (1, .node 5), (-1, .node 6), (-1, .node 7), (-2, .colour 1), (2, .colour 4), (-1, .colour 5), (1, .colour 6)], []⟩,
    ⟨1, 3, 4, [(2, .node 1), (-2, .node 3), (1, .node 4), (1, .node 5), (-1, .node 6), (-1, .node 7), (-2, .colour 2), (2, .colour 4), (-1, .colour 5), (1, .colour 6)], []⟩,
    ⟨2, 3, 2, [(1, .node 2), (-1, .node 3), (-1, .colour 3), (1, .colour 4)], []⟩])]

def cert8x7Back : List (List Int × List PairProof) := [
  ([1], []),
  ([2], []),
  ([3], []),
  ([4], []),
  ([5], [
    ⟨4, 5, 2, [(1, .node 4), (-1, .node 5), (1, .colour 1), (1, .colour 2), (2, .used 1 4 true 0), (2, .used 2 4 false 1)], []⟩]),
  ([6], [
    ⟨6, 7, 2, [(1, .node 6), (-1, .node 7), (1, .colour 3), (1, .colour 4), (2, .used 3 6 true 2), (2, .used 4 6 false 3)], []⟩]),
  ([7], [
    ⟨8, 9, 2, [(1, .node 8), (-1, .node 9), (1, .used 5 8 true 4), (-1, .used 5 9 true 4), (1, .used 6 8 false 6), (-1, .used 6 9 false 6)], []⟩,
    ⟨8, 10, 2, [(1, .node 8), (-1, .node 10), (1, .used 5 8 true 4), (-1, .used 5 10 true 4), (1, .used 6 8 false 6), (-1, .used 6 10 false 6)], []⟩,
    ⟨9, 10, 2, [(1, .node 9), (-1, .node 10), (1, .used 5 9 true 4), (-1, .used 5 10 true 4), (1, .used 6 9 false 6), (-1, .used 6 10 false 6)], []⟩,
    ⟨8, 11, 2, [(1, .node 4), (-1, .node 5), (1, .node 6), (-1, .node 7), (1, .node 8), (-1, .node 11), (1, .colour 1), (1, .colour 2), (1, .colour 3), (1, .colour 4), (1, .colour 5), (1, .colour 6), (2, .used 1 4 true 0), (2, .used 2 4 false 1), (2, .used 3 6 true 2), (2, .used 4 6 false 3), (2, .used 5 8 true 4), (1, .used 5 9 true 4), (1, .used 5 10 true 4), (2, .used 6 8 false 6), (1, .used 6 9 false 6), (1, .used 6 10 false 6)], []⟩,
    ⟨9, 11, 2, [(1, .node 4), (-1, .node 5), (1, .node 6), (-1, .node 7), (1, .node 9), (-1, .node 11), (1, .colour 1), (1, .colour 2), (1, .colour 3), (1, .colour 4), (1, .colour 5), (1, .colour 6), (2, .used 1 4 true 0), (2, .used 2 4 false 1), (2, .used 3 6 true 2), (2, .used 4 6 false 3), (1, .used 5 8 true 4), (2, .used 5 9 true 4), (1, .used 5 10 true 4), (1, .used 6 8 false 6), (2, .used 6 9 false 6), (1, .used 6 10 false 6)], []⟩,
    ⟨10, 11, 2, [(1, .node 4), (-1, .node 5), (1, .node 6), (-1, .node 7), (1, .node 10), (-1, .node 11), (1, .colour 1), (1, .colour 2), (1, .colour 3), (1, .colour 4), (1, .colour 5), (1, .colour 6), (2, .used 1 4 true 0), (2, .used 2 4 false 1), (2, .used 3 6 true 2), (2, .used 4 6 false 3), (1, .used 5 8 true 4), (1, .used 5 9 true 4), (2, .used 5 10 true 4), (1, .used 6 8 false 6), (1, .used 6 9 false 6), (2, .used 6 10 false 6)], []⟩]),
  ([8], []),
  ([9], [
    ⟨13, 14, 2, [(1, .node 13), (-1, .node 14), (1, .colour 8), (1, .used 7 13 true 8), (-1, .used 7 14 true 8), (2, .used 8 13 false 12)], []⟩]),
  ([10], [
    ⟨15, 16, 2, [(1, .node 15), (-1, .node 16), (1, .used 7 15 true 8), (-1, .used 7 16 true 8), (1, .used 9 15 false 13), (-1, .used 9 16 false 13)], []⟩,
    ⟨15, 17, 2, [(1, .node 15), (-1, .node 17), (1, .used 7 15 true 8), (-1, .used 7 17 true 8), (1, .used 9 15 false 13), (-1, .used 9 17 false 13)], []⟩,
    ⟨16, 17, 2, [(1, .node 16), (-1, .node 17), (1, .used 7 16 true 8), (-1, .used 7 17 true 8), (1, .used 9 16 false 13), (-1, .used 9 17 false 13)], []⟩,
    ⟨15, 18, 4, [(1, .node 4), (-1, .node 5), (1, .node 6), (-1, .node 7), (5, .node 8), (-2, .node 9), (-2, .node 10), (-1, .node 11), (2, .node 13), (-2, .node 14), (2, .node 15), (-2, .node 18), (1, .colour 1), (1, .colour 2), (1, .colour 3), (1, .colour 4), (1, .colour 5), (1, .colour 6), (2, .colour 7), (2, .colour 8), (2, .colour 9), (2, .used 1 4 true 0), (2, .used 2 4 false 1), (2, .used 3 6 true 2), (2, .used 4 6 false 3), (6, .used 5 8 true 4), (-1, .used 5 9 true 4), (-1, .used 5 10 true 4), (6, .used 6 8 false 6), (-1, .used 6 9 false 6), (-1, .used 6 10 false 6), (2, .used 7 12 false 8), (4, .used 7 13 true 8), (4, .used 7 15 true 8), (2, .used 7 16 true 8), (2, .used 7 17 true 8), (4, .used 8 13 false 12), (4, .used 9 15 false 13), (2, .used 9 16 false 13), (2, .used 9 17 false 13)], []⟩,
    ⟨16, 18, 4, [(1, .node 4), (-1, .node 5), (1, .node 6), (-1, .node 7), (5, .node 8), (-2, .node 9), (-2, .node 10), (-1, .node 11), (2, .node 13), (-2, .node 14), (2, .node 16), (-2, .node 18), (1, .colour 1), (1, .colour 2), (1, .colour 3), (1, .colour 4), (1, .colour 5), (1, .colour 6), (2, .colour 7), (2, .colour 8), (2, .colour 9), (2, .used 1 4 true 0), (2, .used 2 4 false 1), (2, .used 3 6 true 2), (2, .used 4 6 false 3), (6, .used 5 8 true 4), (-1, .used 5 9 true 4), (-1, .used 5 10 true 4), (6, .used 6 8 false 6), (-1, .used 6 9 false 6), (-1, .used 6 10 false 6), (2, .used 7 12 false 8), (4, .used 7 13 true 8), (2, .used 7 15 true 8), (4, .used 7 16 true 8), (2, .used 7 17 true 8), (4, .used 8 13 false 12), (2, .used 9 15 false 13), (4, .used 9 16 false 13), (2, .used 9 17 false 13)], []⟩,
    ⟨17, 18, 4, [(1, .node 4), (-1, .node 5), (1, .node 6), (-1, .node 7), (5, .node 8), (-2, .node 9), (-2, .node 10), (-1, .node 11), (2, .node 13), (-2, .node 14), (2, .node 17), (-2, .node 18), (1, .colour 1), (1, .colour 2), (1, .colour 3), (1, .colour 4), (1, .colour 5), (1, .colour 6), (2, .colour 7), (2, .colour 8), (2, .colour 9), (2, .used 1 4 true 0), (2, .used 2 4 false 1), (2, .used 3 6 true 2), (2, .used 4 6 false 3), (6, .used 5 8 true 4), (-1, .used 5 9 true 4), (-1, .used 5 10 true 4), (6, .used 6 8 false 6), (-1, .used 6 9 false 6), (-1, .used 6 10 false 6), (2, .used 7 12 false 8), (4, .used 7 13 true 8), (2, .used 7 15 true 8), (2, .used 7 16 true 8), (4, .used 7 17 true 8), (4, .used 8 13 false 12), (2, .used 9 15 false 13), (2, .used 9 16 false 13), (4, .used 9 17 false 13)], []⟩])]

def cert8x8 : List (List Int × List PairProof) := [
  ([7], [
    ⟨6, 7, 2, [(1, .node 6), (-1, .node 7), (-1, .colour 3), (1, .colour 5)], []⟩,
    ⟨6, 10, 4, [(1, .node 4), (1, .node 5), (2, .node 6), (-1, .node 8), (-1, .node 9), (-2, .node 10), (-1, .colour 1), (1, .colour 2), (-2, .colour 3), (2, .colour 4)], []⟩,
    ⟨7, 10, 4, [(1, .node 4), (1, .node 5), (2, .node 7), (-1, .node 8), (-1, .node 9), (-2, .node 10), (-1, .colour 1), (1, .colour 2), (2, .colour 4), (-2, .colour 5)], []⟩,
    ⟨6, 11, 4, [(1, .node 4), (1, .node 5), (2, .node 6), (-1, .node 8), (-1, .node 9), (-2, .node 11), (-1, .colour 1), (1, .colour 2), (-2, .colour 3), (2, .colour 6)], []⟩,
    ⟨7, 11, 4, [(1, .node 4), (1, .node 5), (2, .node 7), (-1, .node 8), (-1, .node 9), (-2, .node 11), (-1, .colour 1), (1, .colour 2), (-2, .colour 5), (2, .colour 6)], []⟩,
    ⟨10, 11, 2, [(1, .node 10), (-1, .node 11), (-1, .colour 4), (1, .colour 6)], []⟩])]

def cert8x8Back : List (List Int × List PairProof) := [
  ([3], []),
  ([4], []),
  ([5], []),
  ([1], [
    ⟨4, 5, 2, [(1, .node 4), (-1, .node 5), (1, .colour 3), (1, .colour 5), (2, .used 3 4 false 6), (2, .used 5 4 true 7)], []⟩]),
  ([6], []),
  ([2], [
    ⟨8, 9, 2, [(1, .node 8), (-1, .node 9), (1, .colour 4), (1, .colour 6), (2, .used 4 8 false 10), (2, .used 6 8 true 11)], []⟩]),
  ([0], [
    ⟨0, 1, 2, [(1, .node 0), (-1, .node 1), (1, .used 1 0 false 4), (-1, .used 1 1 false 4), (1, .used 2 0 true 8), (-1, .used 2 1 true 8)], []⟩,
    ⟨0, 2, 2, [(1, .node 0), (-1, .node 2), (1, .used 1 0 false 4), (-1, .used 1 2 false 4), (1, .used 2 0 true 8), (-1, .used 2 2 true 8)], []⟩,
    ⟨1, 2, 2, [(1, .node 1), (-1, .node 2), (1, .used 1 1 false 4), (-1, .used 1 2 false 4), (1, .used 2 1 true 8), (-1, .used 2 2 true 8)], []⟩,
    ⟨0, 3, 2, [(1, .node 0), (-1, .node 3), (1, .node 4), (-1, .node 5), (1, .node 8), (-1, .node 9), (1, .colour 1), (1, .colour 2), (1, .colour 3), (1, .colour 4), (1, .colour 5), (1, .colour 6), (2, .used 3 4 false 6), (2, .used 4 8 false 10), (2, .used 5 4 true 7), (2, .used 1 0 false 4), (1, .used 1 1 false 4), (1, .used 1 2 false 4), (2, .used 6 8 true 11), (2, .used 2 0 true 8), (1, .used 2 1 true 8), (1, .used 2 2 true 8)], []⟩,
    ⟨1, 3, 2, [(1, .node 1), (-1, .node 3), (1, .node 4), (-1, .node 5), (1, .node 8), (-1, .node 9), (1, .colour 1), (1, .colour 2), (1, .colour 3), (1, .colour 4), (1, .colour 5), (1, .colour 6), (2, .used 3 4 false 6), (2, .used 4 8 false 10), (2, .used 5 4 true 7), (1, .used 1 0 false 4), (2, .used 1 1 false 4), (1, .used 1 2 false 4), (2, .used 6 8 true 11), (1, .used 2 0 true 8), (2, .used 2 1 true 8), (1, .used 2 2 true 8)], []⟩,
    ⟨2, 3, 2, [(1, .node 2), (-1, .node 3), (1, .node 4), (-1, .node 5), (1, .node 8), (-1, .node 9), (1, .colour 1), (1, .colour 2), (1, .colour 3), (1, .colour 4), (1, .colour 5), (1, .colour 6), (2, .used 3 4 false 6), (2, .used 4 8 false 10), (2, .used 5 4 true 7), (1, .used 1 0 false 4), (1, .used 1 1 false 4), (2, .used 1 2 false 4), (2, .used 6 8 true 11), (1, .used 2 0 true 8), (1, .used 2 1 true 8), (2, .used 2 2 true 8)], []⟩])]

end FSat
