import Verif.Lemmas.Simplify
import Mathlib.Tactic.FieldSimp
/-!
# Flows through a network before and after a round of `simplify`
-/

namespace FSat

theorem splits_zero {F : Int → ℚ} {k : Node} (h : Splits F k) (ht : k.total F = 0) : onWire F k.2.1 = 0 ∧ onWire F k.2.2 = 0 := by
  obtain ⟨i, o, p⟩ := k
  unfold Splits at h
  dsimp only at h ⊢
  cases o <;> cases p <;> simp only [onWire] at h ⊢ <;> simp [h, ht]

theorem total_map {F G : Int → ℚ} {f : Colour → Colour} (hf : ∀ c, onWire G (f c) = onWire F c) (k : Node) :
    (nodeMap f k).total G = k.total F := by
  simp only [Node.total, nodeMap, hf]

/-- A renaming that keeps the amounts, and drops only empty wires. -/
theorem splits_map {F : Int → ℚ} {f : Colour → Colour} (hn : f none = none) (hf : ∀ c, onWire F (f c) = onWire F c) {k : Node}
    (h : Splits F k) : Splits F (nodeMap f k) := by
  have ht := total_map hf k
  obtain ⟨i, o, p⟩ := k
  generalize hm : nodeMap f (i, o, p) = m at ht ⊢
  have e2 : m.2 = (f o, f p) := by rw [← hm]; rfl
  obtain ⟨mi, m2⟩ := m
  dsimp only at e2
  subst e2
  unfold Splits at h ⊢
  dsimp only at h ⊢
  have ho := hf o
  have hp := hf p
  rw [ht]
  generalize Node.total F (i, o, p) = t at h ⊢
  cases o with
  | none =>
    rw [hn]
    cases p with
    | none => rw [hn]; exact h
    | some d =>
      simp only at h
      cases e : f (some d) with
      | none => rw [e] at hp; simp only [onWire] at hp; simp only; rw [← h, ← hp]
      | some d' => rw [e] at hp; simp only [onWire] at hp; simp only; rw [hp, h]
  | some c =>
    cases p with
    | none =>
      rw [hn]
      simp only at h
      cases e : f (some c) with
      | none => rw [e] at ho; simp only [onWire] at ho; simp only; rw [← h, ← ho]
      | some d' => rw [e] at ho; simp only [onWire] at ho; simp only; rw [ho, h]
    | some d =>
      simp only at h
      obtain ⟨h1, h2⟩ := h
      cases e : f (some c) <;> cases e' : f (some d) <;> rw [e] at ho <;> rw [e'] at hp <;> simp only [onWire] at ho hp <;> simp only
      · linarith
      · linarith
      · linarith
      · exact ⟨by linarith, by linarith⟩

/-- And back, if no output is dropped. -/
theorem splits_unmap {F G : Int → ℚ} {f : Colour → Colour} (hn : f none = none) (hf : ∀ c, onWire G (f c) = onWire F c) {k : Node}
    (h1 : k.2.1 ≠ none → f k.2.1 ≠ none) (h2 : k.2.2 ≠ none → f k.2.2 ≠ none) (h : Splits G (nodeMap f k)) : Splits F k := by
  have ht := total_map hf k
  obtain ⟨i, o, p⟩ := k
  generalize hm : nodeMap f (i, o, p) = m at ht h
  have e2 : m.2 = (f o, f p) := by rw [← hm]; rfl
  obtain ⟨mi, m2⟩ := m
  dsimp only at e2
  subst e2
  unfold Splits at h ⊢
  dsimp only at h h1 h2 ⊢
  have ho := hf o
  have hp := hf p
  rw [ht] at h
  generalize Node.total F (i, o, p) = t at h ⊢
  cases o with
  | none =>
    rw [hn] at h
    cases p with
    | none => rw [hn] at h; exact h
    | some d =>
      cases e : f (some d) with
      | none => exact absurd e (h2 (by simp))
      | some d' => rw [e] at hp h; simp only [onWire] at hp; simp only at h ⊢; rw [← hp, h]
  | some c =>
    cases ec : f (some c) with
    | none => exact absurd ec (h1 (by simp))
    | some c' =>
    rw [ec] at ho h
    simp only [onWire] at ho
    cases p with
    | none => rw [hn] at h; simp only at h ⊢; rw [← ho, h]
    | some d =>
      cases e : f (some d) with
      | none => exact absurd e (h2 (by simp))
      | some d' => rw [e] at hp h; simp only [onWire] at hp; simp only at h ⊢; rw [← ho, ← hp]; exact h

theorem holds1_wire {F : Int → ℚ} {s : Colour × Colour} {c : Int} (h : Holds1 s c) : onWire F s.1 + onWire F s.2 = F c := by
  rcases h with rfl | rfl <;> simp [onWire]

theorem holds1_splits {F : Int → ℚ} {k : Node} {c d : Int} (h1 : Holds1 k.1 c) (h2 : Holds1 k.2 d) : Splits F k ↔ F d = F c := by
  have ht : k.total F = F c := holds1_wire h1
  unfold Splits
  rcases h2 with h | h <;> rw [h] <;> simp only [ht]

/-- The two sides with the same colours carry the same. -/
theorem row_total {F : Int → ℚ} {a b : Node} (hs : sameSet (sideSet a.2) (sideSet b.1)) (h1 : (sideSet a.2).length ≠ 1)
    (h2 : (sideSet b.1).length ≠ 1) (h : Splits F a) : b.total F = a.total F := by
  obtain ⟨ai, o, p⟩ := a
  obtain ⟨⟨x, y⟩, bo⟩ := b
  have hm : ∀ c : Int, (some c = o ∨ some c = p) ↔ (some c = x ∨ some c = y) := by
    intro c
    have e1 : some c ∈ sideSet (o, p) ↔ some c ∈ sideSet (x, y) := ⟨hs.1 _, hs.2 _⟩
    simpa [mem_sideSet] using e1
  unfold Splits at h
  dsimp only at h h1 h2
  show onWire F x + onWire F y = _
  cases o with
  | none =>
    cases p with
    | none =>
      have ex : x = none := by cases x with
        | none => rfl
        | some c => exact absurd ((hm c).2 (.inl rfl)) (by simp)
      have ey : y = none := by cases y with
        | none => rfl
        | some c => exact absurd ((hm c).2 (.inr rfl)) (by simp)
      simp only at h
      rw [h, ex, ey]
      simp [onWire]
    | some d => exact absurd rfl h1
  | some c =>
    cases p with
    | none => exact absurd rfl h1
    | some d =>
      have hcd : c ≠ d := by
        rintro rfl
        exact h1 (by simp [sideSet, colourSet])
      simp only at h
      have k1 := (hm c).1 (.inl rfl)
      have k2 := (hm d).1 (.inr rfl)
      have : (x = some c ∧ y = some d) ∨ (x = some d ∧ y = some c) := by
        rcases k1 with k1 | k1 <;> rcases k2 with k2 | k2
        · exact absurd (Option.some.inj (k1.trans k2.symm)) hcd
        · exact .inl ⟨k1.symm, k2.symm⟩
        · exact .inr ⟨k2.symm, k1.symm⟩
        · exact absurd (Option.some.inj (k1.trans k2.symm)) hcd
      rcases this with ⟨rfl, rfl⟩ | ⟨rfl, rfl⟩ <;> simp only [onWire] <;> linarith [h.1, h.2]

theorem mem_replace {α : Type} [BEq α] {l : List α} {b x y : α} (h : y ∈ l.replace b x) : y = x ∨ y ∈ l := by
  induction l with
  | nil => simp at h
  | cons z l ih =>
    rw [List.replace_cons] at h
    split at h
    · rcases List.mem_cons.1 h with h | h
      · exact .inl h
      · exact .inr (.tail _ h)
    · rcases List.mem_cons.1 h with h | h
      · exact .inr (h ▸ .head _)
      · rcases ih h with h | h
        · exact .inl h
        · exact .inr (.tail _ h)

theorem replace_perm {α : Type} [BEq α] [LawfulBEq α] {l : List α} {b : α} (x : α) (h : b ∈ l) : (l.replace b x).Perm (x :: l.erase b) := by
  induction l with
  | nil => simp at h
  | cons z l ih =>
    rw [List.replace_cons, List.erase_cons]
    by_cases e : b = z
    · subst e; simp
    · have e' : ¬ z = b := fun h => e h.symm
      have e1 : (b == z) = false := by simpa using e
      have e2 : (z == b) = false := by simpa using e'
      rw [e1, e2]
      simp only [Bool.false_eq_true, if_false]
      rcases List.mem_cons.1 h with h | h
      · exact absurd h e
      · exact ((ih h).cons z).trans (.swap ..)

theorem total_congr {F G : Int → ℚ} {k : Node} (h1 : onWire F k.1.1 = onWire G k.1.1) (h2 : onWire F k.1.2 = onWire G k.1.2) :
    k.total F = k.total G := by
  unfold Node.total
  rw [h1, h2]

theorem splits_congr {F G : Int → ℚ} {k m : Node} (ht : k.total F = m.total G) (h2 : k.2 = m.2) (h3 : onWire F k.2.1 = onWire G k.2.1)
    (h4 : onWire F k.2.2 = onWire G k.2.2) (h : Splits G m) : Splits F k := by
  obtain ⟨i, o, p⟩ := k
  obtain ⟨j, r⟩ := m
  dsimp only at h2 h3 h4
  subst h2
  unfold Splits at h ⊢
  dsimp only at h ⊢
  rw [ht]
  cases o <;> cases p <;> simp only [onWire] at h3 h4 h ⊢ <;> simp_all

/-- A round keeps all flows. -/
theorem reduced_flow {n n' : Network} (h : Reduced n n') {F : Int → ℚ} (hF : WireFlow n F) : WireFlow n' F := by
  refine ⟨hF.1, ?_⟩
  have kill : ∀ (k : Node) (s : Colour × Colour), onWire F s.1 = 0 → onWire F s.2 = 0 →
      ∀ m ∈ (n.erase k).map (nodeMap (killSide s)), Splits F m := by
    intro k s h1 h2 m hm
    obtain ⟨x, hx, rfl⟩ := List.mem_map.1 hm
    refine splits_map (killSide_none s) (fun c => ?_) (hF.2 x (List.mem_of_mem_erase hx))
    unfold killSide
    split
    · rename_i h; rcases h with rfl | rfl
      · exact h1.symm
      · exact h2.symm
    · rfl
  cases h with
  | dead k hk h =>
    obtain ⟨h1, h2⟩ := splits_zero (hF.2 k hk) (by unfold Node.total; rw [h]; simp [onWire])
    exact kill k k.2 h1 h2
  | stuck k hk h =>
    have h0 : k.total F = 0 := by have := hF.2 k hk; unfold Splits at this; rw [h] at this; exact this
    have nn : ∀ c, 0 ≤ onWire F c := by
      intro c; cases c with
      | none => exact le_refl _
      | some c => exact hF.1 c
    unfold Node.total at h0
    exact kill k k.1 (by linarith [nn k.1.1, nn k.1.2]) (by linarith [nn k.1.1, nn k.1.2])
  | pass k hk c d h1 h2 =>
    intro m hm
    obtain ⟨x, hx, rfl⟩ := List.mem_map.1 hm
    have hcd := (holds1_splits h1 h2).1 (hF.2 k hk)
    refine splits_map (joinColour_none (by simp)) (fun e => ?_) (hF.2 x (List.mem_of_mem_erase hx))
    unfold joinColour
    split
    · rename_i h; rw [h]; exact hcd
    · rfl
  | row a b ha hb hne hs h1 h2 =>
    intro m hm
    rcases mem_replace hm with rfl | hm
    · exact splits_congr (G := F) (m := b) (row_total hs h1 h2 (hF.2 a ha)).symm rfl rfl rfl (hF.2 b hb)
    · exact hF.2 m (List.mem_of_mem_erase hm)

/-! ### Back again -/

theorem insOf_perm {m n : Network} (h : m.Perm n) : (insOf m).Perm (insOf n) := h.flatMap_right _
theorem outsOf_perm {m n : Network} (h : m.Perm n) : (outsOf m).Perm (outsOf n) := h.flatMap_right _

theorem mem_insOf_node {n : Network} {c : Colour} : c ∈ insOf n ↔ ∃ k ∈ n, c = k.1.1 ∨ c = k.1.2 := by simp [insOf, List.mem_flatMap]
theorem mem_outsOf_node {n : Network} {c : Colour} : c ∈ outsOf n ↔ ∃ k ∈ n, c = k.2.1 ∨ c = k.2.2 := by simp [outsOf, List.mem_flatMap]

theorem wired_erase {n : Network} (hw : SingleEnds n) {k : Node} (hk : k ∈ n) {c : Colour} (hc : c ≠ none) :
    ((c = k.1.1 ∨ c = k.1.2) → c ∉ insOf (n.erase k)) ∧ ((c = k.2.1 ∨ c = k.2.2) → c ∉ outsOf (n.erase k)) := by
  have hp := List.perm_cons_erase hk
  have h1 := (insOf_perm hp).count_eq c
  have h2 := (outsOf_perm hp).count_eq c
  have := hw c hc
  rw [insOf_cons, List.count_cons, List.count_cons] at h1
  rw [outsOf_cons, List.count_cons, List.count_cons] at h2
  refine ⟨fun h hm => ?_, fun h hm => ?_⟩
  · have := List.count_pos_iff.2 hm
    rcases h with rfl | rfl
    · simp only [beq_self_eq_true, if_true] at h1; omega
    · simp only [beq_self_eq_true, if_true] at h1; omega
  · have := List.count_pos_iff.2 hm
    rcases h with rfl | rfl
    · simp only [beq_self_eq_true, if_true] at h2; omega
    · simp only [beq_self_eq_true, if_true] at h2; omega

theorem count_map_le {f : Colour → Colour} {c : Colour} {l : List Colour} (h : ∀ x, f x = c → x = c) : (l.map f).count c ≤ l.count c := by
  induction l with
  | nil => simp
  | cons x l ih =>
    rw [List.map_cons, List.count_cons, List.count_cons]
    by_cases e : f x = c
    · have := h x e
      subst this
      simp only [e, beq_self_eq_true, if_true]; omega
    · simp only [beq_iff_eq, e, if_false]; omega

/-- Counting after renaming one colour, if the two do not both occur. -/
theorem count_join_le {c d x : Colour} {l : List Colour} (hx : x ≠ d ∨ c ∉ l) : (l.map (joinColour c d)).count x ≤ l.count x := by
  induction l with
  | nil => simp
  | cons y l ih =>
    have ih := ih (hx.imp id fun h hm => h (.tail _ hm))
    rw [List.map_cons, List.count_cons, List.count_cons]
    unfold joinColour at ih ⊢
    by_cases e : y = c
    · rcases hx with hx | hx
      · simp only [e, if_true, beq_iff_eq, Ne.symm hx, if_false]; omega
      · exact absurd (e ▸ .head _) hx
    · simp only [e, if_false]; omega

theorem count_join_le' {c d : Colour} {l : List Colour} (hd : d ∉ l) : (l.map (joinColour c d)).count d ≤ l.count c := by
  induction l with
  | nil => simp
  | cons y l ih =>
    have ih := ih fun h => hd (.tail _ h)
    have hy : y ≠ d := fun h => hd (h ▸ .head _)
    rw [List.map_cons, List.count_cons, List.count_cons]
    unfold joinColour at ih ⊢
    by_cases e : y = c
    · simp only [e, if_true, beq_self_eq_true]; omega
    · simp only [e, if_false, beq_iff_eq, hy]; omega

theorem count_erase_le {n : Network} {k : Node} (hk : k ∈ n) (c : Colour) :
    (insOf (n.erase k)).count c ≤ (insOf n).count c ∧ (outsOf (n.erase k)).count c ≤ (outsOf n).count c := by
  have hp := List.perm_cons_erase hk
  have h1 := (insOf_perm hp).count_eq c
  have h2 := (outsOf_perm hp).count_eq c
  rw [insOf_cons, List.count_cons, List.count_cons] at h1
  rw [outsOf_cons, List.count_cons, List.count_cons] at h2
  omega

theorem holds1_mem {s : Colour × Colour} {c : Int} (h : Holds1 s c) : some c = s.1 ∨ some c = s.2 := by
  rcases h with rfl | rfl
  · exact .inl rfl
  · exact .inr rfl

theorem holds1_ne {s : Colour × Colour} {c : Int} (h : Holds1 s c) : s ≠ (none, none) := by rcases h with rfl | rfl <;> simp

theorem merge_perm {n : Network} {a b : Node} (ha : a ∈ n) (hb : b ∈ n) (hne : a ≠ b) (new : Node) :
    n.Perm (a :: b :: (n.erase a).erase b) ∧ (mergeNodes n a b new).Perm (new :: (n.erase a).erase b) := by
  have hb' : b ∈ n.erase a := (List.mem_erase_of_ne hne.symm).2 hb
  exact ⟨(List.perm_cons_erase ha).trans ((List.perm_cons_erase hb').cons a), replace_perm new hb'⟩

/-- A round keeps that wires have single ends. -/
theorem reduced_wired {n n' : Network} (h : Reduced n n') (hw : SingleEnds n) (hl : AllLead n) : SingleEnds n' ∧ AllLead n' := by
  cases h with
  | dead k hk h =>
    constructor
    · intro c hc
      rw [insOf_map, outsOf_map]
      have hk' : ∀ x, killSide k.2 x = c → x = c := by
        intro x hx
        unfold killSide at hx
        split at hx
        · exact absurd hx.symm hc
        · exact hx
      have := count_erase_le hk c
      have := hw c hc
      exact ⟨(count_map_le hk').trans (by omega), (count_map_le hk').trans (by omega)⟩
    · intro m hm
      obtain ⟨x, hx, rfl⟩ := List.mem_map.1 hm
      have keep : ∀ c, c ≠ none → (c = x.2.1 ∨ c = x.2.2) → killSide k.2 c = c := by
        intro c hc hcx
        unfold killSide
        rw [if_neg]
        intro hck
        exact (wired_erase hw hk hc).2 hck (mem_outsOf_node.2 ⟨x, hx, hcx⟩)
      have := hl x (List.mem_of_mem_erase hx)
      intro e
      apply this
      have e1 : killSide k.2 x.2.1 = none := congrArg Prod.fst e
      have e2 : killSide k.2 x.2.2 = none := congrArg Prod.snd e
      refine Prod.ext ?_ ?_
      · by_contra h0; rw [keep _ h0 (.inl rfl)] at e1; exact h0 e1
      · by_contra h0; rw [keep _ h0 (.inr rfl)] at e2; exact h0 e2
  | stuck k hk h => exact absurd h (hl k hk)
  | pass k hk c d h1 h2 =>
    have hc := (wired_erase hw hk (c := some c) (by simp)).1 (holds1_mem h1)
    have hd := (wired_erase hw hk (c := some d) (by simp)).2 (holds1_mem h2)
    constructor
    · intro x hx
      rw [insOf_map, outsOf_map]
      have := count_erase_le hk x
      have h3 := hw x hx
      refine ⟨(count_join_le (.inr hc)).trans (by omega), ?_⟩
      by_cases e : x = some d
      · subst e
        have := count_erase_le hk (some c)
        have := hw (some c) (by simp)
        exact (count_join_le' hd).trans (by omega)
      · exact (count_join_le (.inl e)).trans (by omega)
    · intro m hm
      obtain ⟨x, hx, rfl⟩ := List.mem_map.1 hm
      have := hl x (List.mem_of_mem_erase hx)
      intro e
      apply this
      have z : ∀ y, joinColour (some c) (some d) y = none → y = none := by
        intro y hy; unfold joinColour at hy; split at hy
        · cases hy
        · exact hy
      exact Prod.ext (z _ (congrArg Prod.fst e)) (z _ (congrArg Prod.snd e))
  | row a b ha hb hne hs h1 h2 =>
    obtain ⟨p1, p2⟩ := merge_perm ha hb hne (a.1, b.2)
    constructor
    · intro c hc
      have := hw c hc
      have e1 := (insOf_perm p1).count_eq c
      have e2 := (outsOf_perm p1).count_eq c
      have e3 := (insOf_perm p2).count_eq c
      have e4 := (outsOf_perm p2).count_eq c
      simp only [insOf_cons, outsOf_cons, List.count_cons] at e1 e2 e3 e4
      omega
    · intro m hm
      rcases mem_replace hm with rfl | hm
      · exact hl b hb
      · exact hl m (List.mem_of_mem_erase hm)

theorem pair_mem {n : Network} {a k : Node} (hk : k ∈ n) : k = a ∨ k ∈ n.erase a := by
  by_cases h : k = a
  · exact .inl h
  · exact .inr ((List.mem_erase_of_ne h).2 hk)

/-- Two sides with the same colours. -/
theorem row_same {a b : Node} (hs : sameSet (sideSet a.2) (sideSet b.1)) (c : Int) :
    (some c = a.2.1 ∨ some c = a.2.2) ↔ (some c = b.1.1 ∨ some c = b.1.2) := by
  have e1 : some c ∈ sideSet a.2 ↔ some c ∈ sideSet b.1 := ⟨hs.1 _, hs.2 _⟩
  simpa [mem_sideSet] using e1

/-- The wires between two nodes in a row occur nowhere else. -/
theorem row_away {n : Network} (hw : SingleEnds n) {a b : Node} (ha : a ∈ n) (hb : b ∈ n) (hne : a ≠ b)
    (hs : sameSet (sideSet a.2) (sideSet b.1)) (c : Int) (hc : some c = a.2.1 ∨ some c = a.2.2) :
    (∀ x ∈ (n.erase a).erase b, some c ≠ x.1.1 ∧ some c ≠ x.1.2 ∧ some c ≠ x.2.1 ∧ some c ≠ x.2.2) ∧
      some c ≠ a.1.1 ∧ some c ≠ a.1.2 ∧ some c ≠ b.2.1 ∧ some c ≠ b.2.2 := by
  have hb' : b ∈ n.erase a := (List.mem_erase_of_ne hne.symm).2 hb
  have ha' : a ∈ n.erase b := (List.mem_erase_of_ne hne).2 ha
  have o1 := (wired_erase hw ha (c := some c) (by simp)).2 hc
  have i1 := (wired_erase hw hb (c := some c) (by simp)).1 ((row_same hs c).1 hc)
  rw [mem_outsOf_node] at o1
  rw [mem_insOf_node] at i1
  push Not at o1 i1
  refine ⟨fun x hx => ?_, (i1 a ha').1, (i1 a ha').2, (o1 b hb').1, (o1 b hb').2⟩
  have q1 := o1 x (List.mem_of_mem_erase hx)
  have q2 := i1 x (by rw [List.erase_comm] at hx; exact List.mem_of_mem_erase hx)
  exact ⟨q2.1, q2.2, q1.1, q1.2⟩

/-- Every flow through the network after a round comes from a flow before it. -/
theorem reduced_unflow {n n' : Network} (h : Reduced n n') (hw : SingleEnds n) (hl : AllLead n) {F : Int → ℚ} (hF : WireFlow n' F) :
    ∃ G, WireFlow n G ∧ ∀ c, UsesWire n' c → G c = F c := by
  have nn : ∀ c, 0 ≤ onWire F c := by
    intro c; cases c with
    | none => exact le_refl _
    | some c => exact hF.1 c
  have via : ∀ (f : Colour → Colour), f none = none → (∀ c, f (f c) = f c) → ∀ m : Network,
      (∀ c, UsesWire (m.map (nodeMap f)) c → (fun c => onWire F (f (some c))) c = F c) ∧
      ∀ c, onWire F (f c) = onWire (fun c => onWire F (f (some c))) c := by
    intro f hn hi m
    constructor
    · intro c hc
      have : ∃ x, f x = some c := by
        unfold UsesWire at hc
        rw [insOf_map, outsOf_map] at hc
        rcases hc with h | h <;> obtain ⟨x, _, hx⟩ := List.mem_map.1 h <;> exact ⟨x, hx⟩
      obtain ⟨x, hx⟩ := this
      show onWire F (f (some c)) = F c
      rw [← hx, hi x, hx]
      rfl
    · intro c
      cases c with
      | none => rw [hn]; rfl
      | some c => rfl
  cases h with
  | dead k hk h =>
    obtain ⟨v1, v2⟩ := via (killSide k.2) (killSide_none _) (by
      intro c
      by_cases h : c = k.2.1 ∨ c = k.2.2
      · rw [show killSide k.2 c = none from if_pos h, killSide_none]
      · rw [show killSide k.2 c = c from if_neg h, show killSide k.2 c = c from if_neg h]) (n.erase k)
    refine ⟨_, ⟨fun c => nn _, fun x hx => ?_⟩, v1⟩
    rcases pair_mem (a := k) hx with rfl | hx
    · have z : ∀ c, (c = x.2.1 ∨ c = x.2.2) → onWire (fun c => onWire F (killSide x.2 (some c))) c = 0 := by
        intro c hc
        rw [← v2]
        unfold killSide
        rw [if_pos hc]
        rfl
      have ht : x.total (fun c => onWire F (killSide x.2 (some c))) = 0 := by unfold Node.total; rw [h]; simp [onWire]
      have z1 := z _ (.inl rfl)
      have z2 := z _ (.inr rfl)
      unfold Splits
      rw [ht]
      generalize (fun c => onWire F (killSide x.2 (some c))) = G at z1 z2 ⊢
      generalize x.2 = s at z1 z2 ⊢
      obtain ⟨o, p⟩ := s
      cases o <;> cases p <;> simp only [onWire] at z1 z2 ⊢ <;> simp [z1, z2]
    · refine splits_unmap (killSide_none _) v2 ?_ ?_ (hF.2 _ (List.mem_map.2 ⟨x, hx, rfl⟩))
      · intro h0
        unfold killSide
        rw [if_neg fun hck => (wired_erase hw hk h0).2 hck (mem_outsOf_node.2 ⟨x, hx, .inl rfl⟩)]
        exact h0
      · intro h0
        unfold killSide
        rw [if_neg fun hck => (wired_erase hw hk h0).2 hck (mem_outsOf_node.2 ⟨x, hx, .inr rfl⟩)]
        exact h0
  | stuck k hk h => exact absurd h (hl k hk)
  | pass k hk c d h1 h2 =>
    obtain ⟨v1, v2⟩ := via (joinColour (some c) (some d)) (joinColour_none (by simp)) (by
      intro x; unfold joinColour; split
      · split <;> rfl
      · rfl) (n.erase k)
    refine ⟨_, ⟨fun c => nn _, fun x hx => ?_⟩, v1⟩
    rcases pair_mem (a := k) hx with rfl | hx
    · refine (holds1_splits h1 h2).2 ?_
      show onWire F (joinColour (some c) (some d) (some d)) = onWire F (joinColour (some c) (some d) (some c))
      unfold joinColour
      simp
    · have z : ∀ y, y ≠ none → joinColour (some c) (some d) y ≠ none := by
        intro y hy; unfold joinColour; split
        · simp
        · exact hy
      exact splits_unmap (joinColour_none (by simp)) v2 (z _) (z _) (hF.2 _ (List.mem_map.2 ⟨x, hx, rfl⟩))
  | row a b ha hb hne hs h1 h2 =>
    obtain ⟨p1, p2⟩ := merge_perm ha hb hne (a.1, b.2)
    have away := row_away hw ha hb hne hs
    set t := Node.total F (a.1, b.2) with ht
    set G : Int → ℚ := fun c => if some c = a.2.1 ∨ some c = a.2.2 then t / 2 else F c with hG
    have t0 : 0 ≤ t := add_nonneg (nn _) (nn _)
    have same : ∀ c : Colour, (∀ k : Int, c = some k → ¬ (some k = a.2.1 ∨ some k = a.2.2)) → onWire G c = onWire F c := by
      intro c hc
      cases c with
      | none => rfl
      | some k =>
        show G k = F k
        rw [hG]
        exact if_neg (hc k rfl)
    have sAi : onWire G a.1.1 = onWire F a.1.1 ∧ onWire G a.1.2 = onWire F a.1.2 :=
      ⟨same _ fun k e h => (away k h).2.1 e.symm, same _ fun k e h => (away k h).2.2.1 e.symm⟩
    have sBo : onWire G b.2.1 = onWire F b.2.1 ∧ onWire G b.2.2 = onWire F b.2.2 :=
      ⟨same _ fun k e h => (away k h).2.2.2.1 e.symm, same _ fun k e h => (away k h).2.2.2.2 e.symm⟩
    have hGa : a.total G = t := by rw [ht]; unfold Node.total; rw [sAi.1, sAi.2]
    have splitA : Splits G a := by
      have two : a.2 ≠ (none, none) := hl a ha
      unfold Splits
      rw [hGa]
      have g1 : ∀ k : Int, (some k = a.2.1 ∨ some k = a.2.2) → G k = t / 2 := fun k h => if_pos h
      generalize a.2 = s at two g1 h1
      obtain ⟨o, p⟩ := s
      cases o with
      | none => cases p with
        | none => exact absurd rfl two
        | some d => exact absurd rfl h1
      | some c => cases p with
        | none => exact absurd rfl h1
        | some d => exact ⟨g1 c (.inl rfl), g1 d (.inr rfl)⟩
    refine ⟨G, ⟨fun c => ?_, fun x hx => ?_⟩, fun c hc => ?_⟩
    · rw [hG]
      dsimp only
      split
      · linarith
      · exact hF.1 c
    · rcases List.mem_cons.1 (p1.subset hx) with rfl | hx
      · exact splitA
      rcases List.mem_cons.1 hx with rfl | hx
      · refine splits_congr (G := F) (m := (a.1, x.2)) ?_ rfl sBo.1 sBo.2 (hF.2 _ (p2.symm.subset (.head _)))
        rw [row_total hs h1 h2 splitA, hGa]
      · have q := fun c hc => (away c hc).1 x hx
        refine splits_congr (G := F) (m := x) (total_congr (same _ fun k e h => (q k h).1 e.symm) (same _ fun k e h => (q k h).2.1 e.symm)) rfl
          (same _ fun k e h => (q k h).2.2.1 e.symm) (same _ fun k e h => (q k h).2.2.2 e.symm) (hF.2 _ (p2.symm.subset (.tail _ hx)))
    · rw [hG]
      dsimp only
      rw [if_neg]
      intro h0
      obtain ⟨w1, w2, w3, w4, w5⟩ := away c h0
      rcases hc with hc | hc
      · rw [mem_insOf_node] at hc
        obtain ⟨x, hx, hc⟩ := hc
        rcases List.mem_cons.1 (p2.subset hx) with rfl | hx
        · rcases hc with hc | hc
          · exact w2 hc
          · exact w3 hc
        · rcases hc with hc | hc
          · exact (w1 x hx).1 hc
          · exact (w1 x hx).2.1 hc
      · rw [mem_outsOf_node] at hc
        obtain ⟨x, hx, hc⟩ := hc
        rcases List.mem_cons.1 (p2.subset hx) with rfl | hx
        · rcases hc with hc | hc
          · exact w4 hc
          · exact w5 hc
        · rcases hc with hc | hc
          · exact (w1 x hx).2.2.1 hc
          · exact (w1 x hx).2.2.2 hc

/-! ### The ends of the network -/

theorem erase_ins {n : Network} {k : Node} (hk : k ∈ n) (c : Colour) : c ∈ insOf n ↔ (c = k.1.1 ∨ c = k.1.2) ∨ c ∈ insOf (n.erase k) := by
  rw [(insOf_perm (List.perm_cons_erase hk)).mem_iff, insOf_cons, List.mem_cons, List.mem_cons, or_assoc]

theorem erase_outs {n : Network} {k : Node} (hk : k ∈ n) (c : Colour) : c ∈ outsOf n ↔ (c = k.2.1 ∨ c = k.2.2) ∨ c ∈ outsOf (n.erase k) := by
  rw [(outsOf_perm (List.perm_cons_erase hk)).mem_iff, outsOf_cons, List.mem_cons, List.mem_cons, or_assoc]

theorem mem_map_kill {s : Colour × Colour} {l : List Colour} (c : Int) :
    some c ∈ l.map (killSide s) ↔ some c ∈ l ∧ ¬ (some c = s.1 ∨ some c = s.2) := by
  rw [List.mem_map]
  constructor
  · rintro ⟨x, hx, e⟩
    unfold killSide at e
    split at e
    · cases e
    · subst e; exact ⟨hx, by assumption⟩
  · rintro ⟨h1, h2⟩
    exact ⟨some c, h1, if_neg h2⟩

theorem mem_map_join {c d : Int} {l : List Colour} (x : Int) :
    some x ∈ l.map (joinColour (some c) (some d)) ↔ (x ≠ c ∧ some x ∈ l) ∨ (x = d ∧ some c ∈ l) := by
  rw [List.mem_map]
  constructor
  · rintro ⟨y, hy, e⟩
    unfold joinColour at e
    split at e
    · rename_i h; subst h; exact .inr ⟨(Option.some.inj e).symm, hy⟩
    · rename_i h; subst e; exact .inl ⟨fun e => h (by rw [e]), hy⟩
  · rintro (⟨h1, h2⟩ | ⟨rfl, h⟩)
    · exact ⟨some x, h2, if_neg fun e => h1 (Option.some.inj e)⟩
    · exact ⟨some c, h, if_pos rfl⟩

theorem holds1_iff {s : Colour × Colour} {c : Int} (h : Holds1 s c) (x : Int) : (some x = s.1 ∨ some x = s.2) ↔ x = c := by
  rcases h with rfl | rfl <;> simp

theorem reduced_ends {n n' : Network} (h : Reduced n n') (hw : SingleEnds n) (hl : AllLead n) : KeepsEnds n n' := by
  cases h with
  | dead k hk h =>
    have hin : ∀ c : Int, some c ∈ insOf ((n.erase k).map (nodeMap (killSide k.2))) ↔
        some c ∈ insOf n ∧ ¬ (some c = k.2.1 ∨ some c = k.2.2) := by
      intro c
      rw [insOf_map, mem_map_kill, erase_ins hk, h]
      simp
    have hout : ∀ c : Int, some c ∈ outsOf ((n.erase k).map (nodeMap (killSide k.2))) ↔
        some c ∈ outsOf n ∧ ¬ (some c = k.2.1 ∨ some c = k.2.2) := by
      intro c
      rw [outsOf_map, mem_map_kill, erase_outs hk]
      tauto
    have hzero : ∀ c : Int, (some c = k.2.1 ∨ some c = k.2.2) → ∀ F, WireFlow n F → F c = 0 := by
      intro c hc F hF
      obtain ⟨h1, h2⟩ := splits_zero (hF.2 k hk) (by unfold Node.total; rw [h]; simp [onWire])
      rcases hc with hc | hc
      · rw [← hc] at h1; exact h1
      · rw [← hc] at h2; exact h2
    have hko : ∀ c : Int, (some c = k.2.1 ∨ some c = k.2.2) → some c ∈ outsOf n := fun c hc => (erase_outs hk _).2 (.inl hc)
    refine ⟨fun c ⟨h0, h1, h2⟩ => ?_, fun c ⟨h0, h1, h2⟩ => ?_, fun e ⟨h0, h1, h2⟩ => ?_, fun e ⟨h0, h1, h2⟩ => ?_⟩
    · rw [hout] at h1
      rw [hin] at h2
      exact ⟨h0, h1.1, fun h => h2 ⟨h, h1.2⟩⟩
    · by_cases hc : some c = k.2.1 ∨ some c = k.2.2
      · exact .inr (.inl (hzero c hc))
      · exact .inl ⟨h0, (hout c).2 ⟨h1, hc⟩, fun h => h2 ((hin c).1 h).1⟩
    · rw [hin] at h1
      rw [hout] at h2
      exact ⟨e, ⟨h0, h1.1, fun h => h2 ⟨h, h1.2⟩⟩, fun _ _ => rfl⟩
    · refine .inl ⟨e, ⟨h0, (hin e).2 ⟨h1, fun h => h2 (hko e h)⟩, fun h => h2 ((hout e).1 h).1⟩, fun _ _ => rfl⟩
  | stuck k hk h => exact absurd h (hl k hk)
  | pass k hk c d h1 h2 =>
    have hc := (wired_erase hw hk (c := some c) (by simp)).1 (holds1_mem h1)
    have hd := (wired_erase hw hk (c := some d) (by simp)).2 (holds1_mem h2)
    have hflow : ∀ F, WireFlow n F → F d = F c := fun F hF => (holds1_splits h1 h2).1 (hF.2 k hk)
    have hin0 : ∀ x : Int, some x ∈ insOf n ↔ x = c ∨ some x ∈ insOf (n.erase k) := fun x => by
      rw [erase_ins hk, holds1_iff h1]
    have hout0 : ∀ x : Int, some x ∈ outsOf n ↔ x = d ∨ some x ∈ outsOf (n.erase k) := fun x => by
      rw [erase_outs hk, holds1_iff h2]
    have hin : ∀ x : Int, some x ∈ insOf ((n.erase k).map (nodeMap (joinColour (some c) (some d)))) ↔ some x ∈ insOf (n.erase k) := by
      intro x
      rw [insOf_map, mem_map_join]
      constructor
      · rintro (h | h)
        · exact h.2
        · exact absurd h.2 hc
      · intro h
        exact .inl ⟨fun e => hc (e ▸ h), h⟩
    have hout : ∀ x : Int, some x ∈ outsOf ((n.erase k).map (nodeMap (joinColour (some c) (some d)))) ↔
        (x ≠ c ∧ some x ∈ outsOf (n.erase k)) ∨ (x = d ∧ some c ∈ outsOf (n.erase k)) := by
      intro x
      rw [outsOf_map, mem_map_join]
    refine ⟨fun x ⟨g0, g1, g2⟩ => ?_, fun x ⟨g0, g1, g2⟩ => ?_, fun x ⟨g0, g1, g2⟩ => ?_, fun x ⟨g0, g1, g2⟩ => ?_⟩
    · rw [hin] at g2
      rcases (hout x).1 g1 with ⟨q1, q2⟩ | ⟨rfl, q2⟩
      · exact ⟨g0, (hout0 x).2 (.inr q2), fun h => ((hin0 x).1 h).elim q1 g2⟩
      · exact ⟨g0, (hout0 x).2 (.inl rfl), fun h => ((hin0 x).1 h).elim (fun e => hd (e ▸ q2)) g2⟩
    · have q1 : x ≠ c := fun e => g2 ((hin0 x).2 (.inl e))
      have q2 : some x ∉ insOf (n.erase k) := fun e => g2 ((hin0 x).2 (.inr e))
      by_cases e : x = d
      · subst e
        by_cases hc' : some c ∈ outsOf (n.erase k)
        · exact .inl ⟨g0, (hout x).2 (.inr ⟨rfl, hc'⟩), fun h => q2 ((hin x).1 h)⟩
        · exact .inr (.inr ⟨c, ⟨by simp, (hin0 c).2 (.inl rfl), fun h => ((hout0 c).1 h).elim (fun e => q1 e.symm) hc'⟩, hflow⟩)
      · exact .inl ⟨g0, (hout x).2 (.inl ⟨q1, ((hout0 x).1 g1).resolve_left e⟩), fun h => q2 ((hin x).1 h)⟩
    · rw [hin] at g1
      have q1 : x ≠ c := fun e => hc (e ▸ g1)
      have q2 : some x ∉ outsOf (n.erase k) := fun h => g2 ((hout x).2 (.inl ⟨q1, h⟩))
      by_cases e : x = d
      · subst e
        exact ⟨c, ⟨by simp, (hin0 c).2 (.inl rfl), fun h => ((hout0 c).1 h).elim (fun e => q1 e.symm)
          fun h => g2 ((hout x).2 (.inr ⟨rfl, h⟩))⟩, hflow⟩
      · exact ⟨x, ⟨g0, (hin0 x).2 (.inr g1), fun h => ((hout0 x).1 h).elim e q2⟩, fun _ _ => rfl⟩
    · have q1 : x ≠ d := fun e => g2 ((hout0 x).2 (.inl e))
      have q2 : some x ∉ outsOf (n.erase k) := fun h => g2 ((hout0 x).2 (.inr h))
      by_cases e : x = c
      · subst e
        by_cases hd' : some d ∈ insOf (n.erase k)
        · exact .inl ⟨d, ⟨by simp, (hin d).2 hd', fun h => ((hout d).1 h).elim (fun h => hd h.2) fun h => q2 h.2⟩,
            fun F hF => (hflow F hF).symm⟩
        · exact .inr ⟨d, ⟨by simp, (hout0 d).2 (.inl rfl), fun h => ((hin0 d).1 h).elim (fun e => q1 e.symm) hd'⟩,
            fun F hF => (hflow F hF).symm⟩
      · exact .inl ⟨x, ⟨g0, (hin x).2 (((hin0 x).1 g1).resolve_left e), fun h => ((hout x).1 h).elim (fun h => q2 h.2) fun h => q1 h.1⟩,
          fun _ _ => rfl⟩
  | row a b ha hb hne hs h1 h2 =>
    obtain ⟨p1, p2⟩ := merge_perm ha hb hne (a.1, b.2)
    have away := row_away hw ha hb hne hs
    have hin : ∀ c : Int, some c ∈ insOf n ↔ (some c = b.1.1 ∨ some c = b.1.2) ∨ some c ∈ insOf (mergeNodes n a b (a.1, b.2)) := by
      intro c
      rw [(insOf_perm p1).mem_iff, (insOf_perm p2).mem_iff, insOf_cons, insOf_cons, insOf_cons]
      simp only [List.mem_cons]
      tauto
    have hout : ∀ c : Int, some c ∈ outsOf n ↔ (some c = a.2.1 ∨ some c = a.2.2) ∨ some c ∈ outsOf (mergeNodes n a b (a.1, b.2)) := by
      intro c
      rw [(outsOf_perm p1).mem_iff, (outsOf_perm p2).mem_iff, outsOf_cons, outsOf_cons, outsOf_cons]
      simp only [List.mem_cons]
      tauto
    have gone : ∀ c : Int, (some c = a.2.1 ∨ some c = a.2.2) → some c ∉ insOf (mergeNodes n a b (a.1, b.2)) ∧
        some c ∉ outsOf (mergeNodes n a b (a.1, b.2)) := by
      intro c hc
      obtain ⟨w1, w2, w3, w4, w5⟩ := away c hc
      rw [(insOf_perm p2).mem_iff, (outsOf_perm p2).mem_iff, insOf_cons, outsOf_cons]
      simp only [List.mem_cons, mem_insOf_node, mem_outsOf_node, not_or, not_exists, not_and]
      exact ⟨⟨w2, w3, fun x hx => ⟨(w1 x hx).1, (w1 x hx).2.1⟩⟩, w4, w5, fun x hx => ⟨(w1 x hx).2.2.1, (w1 x hx).2.2.2⟩⟩
    refine ⟨fun c ⟨g0, g1, g2⟩ => ?_, fun c ⟨g0, g1, g2⟩ => ?_, fun c ⟨g0, g1, g2⟩ => ?_, fun c ⟨g0, g1, g2⟩ => ?_⟩
    · exact ⟨g0, (hout c).2 (.inr g1), fun h => ((hin c).1 h).elim (fun h => (gone c ((row_same hs c).2 h)).2 g1) g2⟩
    · refine .inl ⟨g0, ((hout c).1 g1).resolve_left fun h => g2 ((hin c).2 (.inl ((row_same hs c).1 h))), fun h => g2 ((hin c).2 (.inr h))⟩
    · exact ⟨c, ⟨g0, (hin c).2 (.inr g1), fun h => ((hout c).1 h).elim (fun h => (gone c h).1 g1) g2⟩, fun _ _ => rfl⟩
    · exact .inl ⟨c, ⟨g0, ((hin c).1 g1).resolve_left fun h => g2 ((hout c).2 (.inl ((row_same hs c).2 h))),
        fun h => g2 ((hout c).2 (.inr h))⟩, fun _ _ => rfl⟩

theorem KeepsEnds.refl (n : Network) : KeepsEnds n n :=
  ⟨fun _ h => h, fun _ h => .inl h, fun e h => ⟨e, h, fun _ _ => rfl⟩, fun e h => .inl ⟨e, h, fun _ _ => rfl⟩⟩

theorem KeepsEnds.trans {l m n : Network} (h1 : KeepsEnds l m) (h2 : KeepsEnds m n) (hf : ∀ F, WireFlow l F → WireFlow m F) : KeepsEnds l n := by
  refine ⟨fun c h => h1.left c (h2.left c h), fun c h => ?_, fun e h => ?_, fun e h => ?_⟩
  · rcases h1.lost c h with h | h | h
    · rcases h2.lost c h with h | h | ⟨e, h3, h4⟩
      · exact .inl h
      · exact .inr (.inl fun F hF => h F (hf F hF))
      · obtain ⟨e', h5, h6⟩ := h1.entered e h3
        exact .inr (.inr ⟨e', h5, fun F hF => (h4 F (hf F hF)).trans (h6 F hF)⟩)
    · exact .inr (.inl h)
    · exact .inr (.inr h)
  · obtain ⟨e1, h3, h4⟩ := h2.entered e h
    obtain ⟨e2, h5, h6⟩ := h1.entered e1 h3
    exact ⟨e2, h5, fun F hF => (h4 F (hf F hF)).trans (h6 F hF)⟩
  · rcases h1.kept e h with ⟨e1, h3, h4⟩ | h
    · rcases h2.kept e1 h3 with ⟨e2, h5, h6⟩ | ⟨c, h5, h6⟩
      · exact .inl ⟨e2, h5, fun F hF => (h4 F hF).trans (h6 F (hf F hF))⟩
      · exact .inr ⟨c, h1.left c h5, fun F hF => (h4 F hF).trans (h6 F (hf F hF))⟩
    · exact .inr h

end FSat
