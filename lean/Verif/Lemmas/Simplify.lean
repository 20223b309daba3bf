import Verif.Model.Simplify
import Verif.Spec.Simplify
import Verif.Lemmas.Benes
import Verif.Lemmas.Dict
import Mathlib.Tactic.Linarith
import Mathlib.Tactic.Ring
/-!
# The rounds of `simplify`
-/

namespace FSat

/-- The colours of the pair become `None`. -/
def killSide (s : Colour × Colour) (c : Colour) : Colour := if c = s.1 ∨ c = s.2 then none else c

/-- One colour becomes another one. -/
def joinColour (c d x : Colour) : Colour := if x = c then d else x

theorem killSide_none (s : Colour × Colour) : killSide s none = none := by unfold killSide; split <;> rfl

theorem joinColour_none {c d : Colour} (h : c ≠ none) : joinColour c d none = none := by unfold joinColour; rw [if_neg (Ne.symm h)]

theorem mapColour_noneMap (s : Colour × Colour) (c : Colour) : mapColour (noneMap s) c = killSide s c := by
  obtain ⟨a, b⟩ := s
  unfold mapColour noneMap killSide
  cases a <;> cases b <;> cases c <;> simp [PyDict.get_set, PyDict.get]
  all_goals grind

theorem noneMap_none (s : Colour × Colour) : (noneMap s).get none = none := by
  obtain ⟨a, b⟩ := s
  unfold noneMap
  cases a <;> cases b <;> simp [PyDict.get_set, PyDict.get]

theorem remap_noneMap (n : Network) (s : Colour × Colour) : remapColours n (noneMap s) = .ok (n.map (nodeMap (killSide s))) := by
  unfold remapColours
  rw [noneMap_none]
  simp only [Option.isSome_none, Bool.false_eq_true, if_false, Except.ok.injEq]
  refine List.map_congr_left fun k _ => ?_
  simp only [mapColour_noneMap, nodeMap]

theorem remap_join (n : Network) {c : Colour} (d : Colour) (h : c ≠ none) :
    remapColours n [(c, d)] = .ok (n.map (nodeMap (joinColour c d))) := by
  have e : ∀ x, mapColour [(c, d)] x = joinColour c d x := by
    intro x
    unfold mapColour joinColour
    simp only [PyDict.get, eq_comm (a := c)]
    split <;> rfl
  unfold remapColours
  simp only [PyDict.get, if_neg h, Option.isSome_none, Bool.false_eq_true, if_false, Except.ok.injEq]
  refine List.map_congr_left fun k _ => ?_
  simp only [e, nodeMap]

/-- The pair holds one colour. -/
def Holds1 (s : Colour × Colour) (c : Int) : Prop := s = (some c, none) ∨ s = (none, some c)

/-- What a round does without bottlenecks. -/
inductive Reduced (n : Network) : Network → Prop
  | dead (k : Node) (hk : k ∈ n) (h : k.1 = (none, none)) : Reduced n ((n.erase k).map (nodeMap (killSide k.2)))
  | stuck (k : Node) (hk : k ∈ n) (h : k.2 = (none, none)) : Reduced n ((n.erase k).map (nodeMap (killSide k.1)))
  | pass (k : Node) (hk : k ∈ n) (c d : Int) (h1 : Holds1 k.1 c) (h2 : Holds1 k.2 d) :
    Reduced n ((n.erase k).map (nodeMap (joinColour (some c) (some d))))
  | row (a b : Node) (ha : a ∈ n) (hb : b ∈ n) (hne : a ≠ b) (hs : sameSet (sideSet a.2) (sideSet b.1)) (h1 : (sideSet a.2).length ≠ 1)
    (h2 : (sideSet b.1).length ≠ 1) : Reduced n (mergeNodes n a b (a.1, b.2))

theorem soleColour_ok {s : Colour × Colour} (h1 : ¬ (s.1 = none ∧ s.2 = none)) (h2 : s.1 = none ∨ s.2 = none) :
    ∃ c, Holds1 s c ∧ soleColour s = .ok (some c) := by
  obtain ⟨a, b⟩ := s
  cases a with
  | none =>
    cases b with
    | none => exact absurd ⟨rfl, rfl⟩ h1
    | some c => exact ⟨c, .inr rfl, rfl⟩
  | some c =>
    cases b with
    | none => exact ⟨c, .inl rfl, rfl⟩
    | some d => rcases h2 with h | h <;> cases h

theorem simplifyNode_some {n : Network} {k : Node} (hk : k ∈ n) {r : Except PyErr Network} (h : simplifyNode n k = some r) :
    ∃ n', r = .ok n' ∧ Reduced n n' := by
  unfold simplifyNode at h
  split at h
  · rename_i h0
    cases h
    exact ⟨_, remap_noneMap _ _, .dead k hk (Prod.ext h0.1 h0.2)⟩
  split at h
  · rename_i h0
    cases h
    exact ⟨_, remap_noneMap _ _, .stuck k hk (Prod.ext h0.1 h0.2)⟩
  split at h
  · rename_i hi ho h0
    obtain ⟨c, hc, ec⟩ := soleColour_ok hi h0.1
    obtain ⟨d, hd, ed⟩ := soleColour_ok ho h0.2
    simp only [ec, ed, Option.some.injEq] at h
    subst h
    exact ⟨_, remap_join _ _ (by simp), .pass k hk c d hc hd⟩
  · cases h

theorem simplifyNode_none {n : Network} {k : Node} (h : simplifyNode n k = none) :
    k.1 ≠ (none, none) ∧ k.2 ≠ (none, none) ∧ ((k.1.1 ≠ none ∧ k.1.2 ≠ none) ∨ (k.2.1 ≠ none ∧ k.2.2 ≠ none)) := by
  unfold simplifyNode at h
  split at h
  · cases h
  split at h
  · cases h
  split at h
  · cases h
  · rename_i h1 h2 h3
    refine ⟨fun e => h1 (by rw [e]; simp), fun e => h2 (by rw [e]; simp), ?_⟩
    tauto

theorem mem_sideSet {s : Colour × Colour} {c : Colour} : c ∈ sideSet s ↔ c ≠ none ∧ (c = s.1 ∨ c = s.2) := by
  unfold sideSet colourSet
  rw [List.mem_dedup, List.mem_filter]
  simp only [List.mem_cons, List.not_mem_nil, or_false, decide_eq_true_eq]
  tauto

theorem simplifyPair_none {ord : List Colour → List Colour} {ab : Bool} {n : Network} {a b : Node} (hne : a ≠ b)
    (h : simplifyPair ord ab n a b = none) :
    ¬ ∀ c : Int, (some c = a.2.1 ∨ some c = a.2.2) ↔ (some c = b.1.1 ∨ some c = b.1.2) := by
  intro hc
  unfold simplifyPair at h
  rw [if_neg hne] at h
  dsimp only at h
  rw [if_pos] at h
  · cases h
  constructor <;> intro c hm <;> rw [mem_sideSet] at hm ⊢ <;> cases c with
  | none => exact absurd rfl hm.1
  | some c => exact ⟨hm.1, by first | exact (hc c).1 hm.2 | exact (hc c).2 hm.2⟩

theorem mergeNodes_length {n : Network} {a b new : Node} (ha : a ∈ n) : (mergeNodes n a b new).length + 1 = n.length := by
  unfold mergeNodes
  rw [List.length_replace, List.length_erase_of_mem ha]
  have := List.length_pos_of_mem ha
  omega

theorem remap_length {n n' : Network} {m : PyDict Colour Colour} (h : remapColours n m = .ok n') : n'.length = n.length := by
  unfold remapColours at h
  split at h
  · cases h
  · cases h; simp

theorem reduced_length {n n' : Network} (h : Reduced n n') : n'.length + 1 = n.length := by
  cases h with
  | dead k hk h => rw [List.length_map, List.length_erase_of_mem hk]; have := List.length_pos_of_mem hk; omega
  | stuck k hk h => rw [List.length_map, List.length_erase_of_mem hk]; have := List.length_pos_of_mem hk; omega
  | pass k hk => rw [List.length_map, List.length_erase_of_mem hk]; have := List.length_pos_of_mem hk; omega
  | row a b ha => exact mergeNodes_length ha

theorem simplifyPair_length {ord : List Colour → List Colour} {ab : Bool} {n n' : Network} {a b : Node} (ha : a ∈ n)
    (h : simplifyPair ord ab n a b = some (.ok n')) : n'.length + 1 = n.length := by
  unfold simplifyPair at h
  split at h
  · cases h
  dsimp only at h
  split at h
  · rw [Option.some.injEq] at h
    split at h
    · cases h; exact mergeNodes_length ha
    · cases h
  split at h
  · rw [Option.some.injEq] at h
    rw [remap_length h, mergeNodes_length ha]
  split at h
  · rw [Option.some.injEq] at h
    rw [remap_length h, mergeNodes_length ha]
  · cases h

theorem simplifyPair_plain {ord : List Colour → List Colour} {n : Network} {a b : Node} (ha : a ∈ n) (hb : b ∈ n) {r : Except PyErr Network}
    (h : simplifyPair ord false n a b = some r) : (∃ n', r = .ok n' ∧ Reduced n n') ∨ r = .error .assertion := by
  unfold simplifyPair at h
  split at h
  · cases h
  rename_i hne
  dsimp only at h
  split at h
  · rename_i hs
    rw [Option.some.injEq] at h
    split at h
    · rename_i hl
      exact .inl ⟨_, h.symm, .row a b ha hb hne hs hl.1 hl.2⟩
    · exact .inr h.symm
  · simp only [Bool.false_eq_true, false_and, if_false] at h
    cases h

theorem simplifyStep_cases {ord : List Colour → List Colour} {ab : Bool} {n : Network} {r : Except PyErr Network}
    (h : simplifyStep ord ab n = some r) :
    (∃ n', r = .ok n' ∧ Reduced n n') ∨ ∃ a ∈ n, ∃ b ∈ n, simplifyPair ord ab n a b = some r := by
  unfold simplifyStep at h
  split at h
  · rename_i r' e
    cases h
    obtain ⟨k, hk, e⟩ := List.exists_of_findSome?_eq_some e
    exact .inl (simplifyNode_some hk e)
  · obtain ⟨a, ha, h⟩ := List.exists_of_findSome?_eq_some h
    obtain ⟨b, hb, h⟩ := List.exists_of_findSome?_eq_some h
    exact .inr ⟨a, ha, b, hb, h⟩

theorem simplifyStep_none {ord : List Colour → List Colour} {ab : Bool} {n : Network} (h : simplifyStep ord ab n = none) : Simplified n := by
  unfold simplifyStep at h
  split at h
  · cases h
  · rename_i e
    rw [List.findSome?_eq_none_iff] at e h
    refine ⟨fun k hk => (simplifyNode_none (e k hk)).1, fun k hk => (simplifyNode_none (e k hk)).2.1,
      fun k hk => (simplifyNode_none (e k hk)).2.2, fun a ha b hb hne => ?_⟩
    have := h a ha
    rw [List.findSome?_eq_none_iff] at this
    exact simplifyPair_none hne (this b hb)

theorem simplifyStep_length {ord : List Colour → List Colour} {ab : Bool} {n n' : Network} (h : simplifyStep ord ab n = some (.ok n')) :
    n'.length + 1 = n.length := by
  rcases simplifyStep_cases h with ⟨m, e, hr⟩ | ⟨a, ha, b, _, e⟩
  · cases e; exact reduced_length hr
  · exact simplifyPair_length ha e

end FSat
