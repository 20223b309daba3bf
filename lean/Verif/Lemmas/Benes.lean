import Verif.Lemmas.Network
import Mathlib.Tactic.Abel
import Mathlib.Algebra.BigOperators.Group.Multiset.Basic
/-!
# Lemmas about `create_benes_network`
-/

namespace FSat

/-- A renaming of all four colours of a node. -/
def nodeMap (g : Colour → Colour) (nd : Node) : Node := ((g nd.1.1, g nd.1.2), (g nd.2.1, g nd.2.2))

theorem insOf_map (g : Colour → Colour) (n : Network) : insOf (n.map (nodeMap g)) = (insOf n).map g := by
  induction n with
  | nil => rfl
  | cons x n ih => simp only [List.map_cons, insOf_cons, ih]; rfl

theorem outsOf_map (g : Colour → Colour) (n : Network) : outsOf (n.map (nodeMap g)) = (outsOf n).map g := by
  induction n with
  | nil => rfl
  | cons x n ih => simp only [List.map_cons, outsOf_cons, ih]; rfl

theorem count_map_on (g : Colour → Colour) (l : List Colour) (c : Colour) (h : ∀ x ∈ l, g x = g c → x = c) :
    (l.map g).count (g c) = l.count c := by
  induction l with
  | nil => rfl
  | cons x l ih =>
    rw [List.map_cons, List.count_cons, List.count_cons, ih fun y hy => h y (List.mem_cons_of_mem _ hy)]
    have := h x (by simp)
    by_cases hx : x = c
    · simp [hx]
    · have : g x ≠ g c := fun e => hx (this e)
      simp [hx, this]

/-! ### Flows -/

theorem arriving_nil (c : Colour) : arriving [] c = 0 := rfl
theorem leaving_nil (c : Colour) : leaving [] c = 0 := rfl

theorem arriving_cons (x : Node × Amounts) (f : List (Node × Amounts)) (c : Colour) : arriving (x :: f) c =
    (if x.1.1.1 = c then {x.2.1.1} else 0) + (if x.1.1.2 = c then {x.2.1.2} else 0) + arriving f c := by
  simp only [arriving, List.flatMap_cons, List.filterMap_append]
  rw [← Multiset.coe_add]
  congr 1
  by_cases h1 : x.1.1.1 = c <;> by_cases h2 : x.1.1.2 = c <;> (simp only [h1, h2, List.filterMap_cons, List.filterMap_nil, if_true, if_false]; rfl)

theorem leaving_cons (x : Node × Amounts) (f : List (Node × Amounts)) (c : Colour) : leaving (x :: f) c =
    (if x.1.2.1 = c then {x.2.2.1} else 0) + (if x.1.2.2 = c then {x.2.2.2} else 0) + leaving f c := by
  simp only [leaving, List.flatMap_cons, List.filterMap_append]
  rw [← Multiset.coe_add]
  congr 1
  by_cases h1 : x.1.2.1 = c <;> by_cases h2 : x.1.2.2 = c <;> (simp only [h1, h2, List.filterMap_cons, List.filterMap_nil, if_true, if_false]; rfl)

theorem arriving_append (f g : List (Node × Amounts)) (c : Colour) : arriving (f ++ g) c = arriving f c + arriving g c := by
  simp [arriving, List.filterMap_append]

theorem leaving_append (f g : List (Node × Amounts)) (c : Colour) : leaving (f ++ g) c = leaving f c + leaving g c := by
  simp [leaving, List.filterMap_append]

theorem arriving_none (n : Network) (xs : List Amounts) (c : Colour) (h : c ∉ insOf n) : arriving (n.zip xs) c = 0 := by
  induction n generalizing xs with
  | nil => rfl
  | cons x n ih =>
    cases xs with
    | nil => rfl
    | cons y xs =>
      rw [insOf_cons, List.mem_cons, List.mem_cons, not_or, not_or] at h
      rw [List.zip_cons_cons, arriving_cons, ih _ h.2.2, if_neg (Ne.symm h.1), if_neg (Ne.symm h.2.1)]
      rfl

theorem leaving_none (n : Network) (xs : List Amounts) (c : Colour) (h : c ∉ outsOf n) : leaving (n.zip xs) c = 0 := by
  induction n generalizing xs with
  | nil => rfl
  | cons x n ih =>
    cases xs with
    | nil => rfl
    | cons y xs =>
      rw [outsOf_cons, List.mem_cons, List.mem_cons, not_or, not_or] at h
      rw [List.zip_cons_cons, leaving_cons, ih _ h.2.2, if_neg (Ne.symm h.1), if_neg (Ne.symm h.2.1)]
      rfl

theorem arriving_map (g : Colour → Colour) (n : Network) (xs : List Amounts) (c : Colour) (h : ∀ x ∈ insOf n, g x = g c → x = c) :
    arriving ((n.map (nodeMap g)).zip xs) (g c) = arriving (n.zip xs) c := by
  induction n generalizing xs with
  | nil => rfl
  | cons x n ih =>
    cases xs with
    | nil => rfl
    | cons y xs =>
      rw [insOf_cons] at h
      rw [List.map_cons, List.zip_cons_cons, List.zip_cons_cons, arriving_cons, arriving_cons,
        ih _ fun z hz => h z (by simp [hz])]
      have h1 := h x.1.1 (by simp)
      have h2 := h x.1.2 (by simp)
      have e1 : (g x.1.1 = g c) ↔ x.1.1 = c := ⟨h1, fun e => by rw [e]⟩
      have e2 : (g x.1.2 = g c) ↔ x.1.2 = c := ⟨h2, fun e => by rw [e]⟩
      simp only [nodeMap, e1, e2]

theorem leaving_map (g : Colour → Colour) (n : Network) (xs : List Amounts) (c : Colour) (h : ∀ x ∈ outsOf n, g x = g c → x = c) :
    leaving ((n.map (nodeMap g)).zip xs) (g c) = leaving (n.zip xs) c := by
  induction n generalizing xs with
  | nil => rfl
  | cons x n ih =>
    cases xs with
    | nil => rfl
    | cons y xs =>
      rw [outsOf_cons] at h
      rw [List.map_cons, List.zip_cons_cons, List.zip_cons_cons, leaving_cons, leaving_cons,
        ih _ fun z hz => h z (by simp [hz])]
      have h1 := h x.2.1 (by simp)
      have h2 := h x.2.2 (by simp)
      have e1 : (g x.2.1 = g c) ↔ x.2.1 = c := ⟨h1, fun e => by rw [e]⟩
      have e2 : (g x.2.2 = g c) ↔ x.2.2 = c := ⟨h2, fun e => by rw [e]⟩
      simp only [nodeMap, e1, e2]

/-- If what is fed back is at most `M`, what leaves is at most the mean of the inputs and of `w` times `M`. -/
def FlowBound (n : Network) (a b : Int) (k w : ℚ) : Prop :=
  ∀ xs : List Amounts, xs.length = n.length → (∀ x ∈ xs, Even x) →
    (∀ c : Int, c ≠ a → c ≠ b → leaving (n.zip xs) (some c) = arriving (n.zip xs) (some c)) →
    ∀ M : ℚ, (∀ y ∈ arriving (n.zip xs) (some b), y ≤ M) →
      ∀ y ∈ leaving (n.zip xs) (some b), (k + w) * y ≤ (arriving (n.zip xs) (some a)).sum + w * M

/-- What is maintained along the construction. -/
structure Good (n : Network) (a b : Int) (k : Nat) : Prop where
  none_ : ∀ c ∈ insOf n ++ outsOf n, c ≠ none
  ends : Ends n a k b k
  start : some a ∉ outsOf n
  bound : ∃ w : ℚ, 0 ≤ w ∧ FlowBound n a b k w

theorem Ends.ne {n : Network} {a p b q : Int} (h : Ends n a p b q) : a ≠ b := by
  rintro rfl
  have := h.pos
  have := h.neg
  have := h.input
  have := h.output
  omega

theorem Ends.mem_in {n : Network} {a p b q : Int} (h : Ends n a p b q) : some a ∈ insOf n := by
  by_contra hm
  have h1 := h.input
  have h2 := h.pos
  rw [surplus, List.count_eq_zero_of_not_mem hm] at h1
  omega

theorem Ends.mem_out {n : Network} {a p b q : Int} (h : Ends n a p b q) : some b ∈ outsOf n := by
  by_contra hm
  have h1 := h.output
  have h2 := h.neg
  rw [surplus, List.count_eq_zero_of_not_mem hm] at h1
  omega

/-! ### Size two -/

theorem good_two : Good [((some 0, some 0), (some 1, some 1))] 0 1 2 := by
  refine ⟨by decide, ⟨by decide, by decide, by decide, by decide, ?_⟩, by decide, 0, le_refl _, ?_⟩
  · intro c h0 h1
    have e0 : (some (0 : Int) = some c) = False := by simp [Ne.symm h0]
    have e1 : (some (1 : Int) = some c) = False := by simp [Ne.symm h1]
    simp only [surplus_cons, surplus_nil, e0, e1, if_false]
    rfl
  · intro xs hl he hc M hM y hy
    cases xs with
    | nil => simp at hl
    | cons x xs =>
      cases xs with
      | cons _ _ => simp at hl
      | nil =>
        have h2 := he x (by simp)
        simp only [List.zip_cons_cons, List.zip_nil_left, leaving_cons, leaving_nil, if_true] at hy
        simp only [List.zip_cons_cons, List.zip_nil_left, arriving_cons, arriving_nil, if_true, add_zero, Multiset.sum_add,
          Multiset.sum_singleton, zero_mul]
        simp only [add_zero, Multiset.mem_add, Multiset.mem_singleton] at hy
        unfold Even at h2
        rcases hy with rfl | rfl
        · rw [h2.1]; push_cast; linarith
        · rw [h2.2]; push_cast; linarith

/-! ### Odd sizes -/

theorem replaceFirst_spec (a b : Int) (n : Network) (hm : some a ∈ insOf n) (hab : a ≠ b) :
    (∀ c, (insOf (replaceFirst a b n)).count c = (insOf n).count c + (if c = some b then 1 else 0) - (if c = some a then 1 else 0))
    ∧ outsOf (replaceFirst a b n) = outsOf n ∧ (replaceFirst a b n).length = n.length
    ∧ ∀ xs : List Amounts, xs.length = n.length → ∃ (ys : List Amounts) (z : ℚ), ys.length = n.length ∧
        ((∀ x ∈ xs, Even x) → ∀ x ∈ ys, Even x) ∧
        (∀ c, leaving (n.zip ys) c = leaving ((replaceFirst a b n).zip xs) c) ∧
        (∀ c, c ≠ some a → c ≠ some b → arriving (n.zip ys) c = arriving ((replaceFirst a b n).zip xs) c) ∧
        (arriving (n.zip ys) (some a) = {z} + arriving ((replaceFirst a b n).zip xs) (some a)) ∧
        (arriving ((replaceFirst a b n).zip xs) (some b) = {z} + arriving (n.zip ys) (some b)) := by
  have hab' : (some a : Colour) ≠ some b := by simpa using hab
  induction n with
  | nil => simp at hm
  | cons nd n ih =>
    obtain ⟨⟨i1, i2⟩, ⟨o1, o2⟩⟩ := nd
    by_cases h1 : i1 = some a
    · subst h1
      simp only [replaceFirst, if_true]
      refine ⟨?_, rfl, rfl, ?_⟩
      · intro c
        simp only [insOf_cons, List.count_cons, beq_iff_eq]
        by_cases hca : c = some a
        · subst hca
          simp only [if_true, Ne.symm hab', hab', if_false]
          omega
        · by_cases hcb : c = some b
          · subst hcb
            simp only [if_true, hab', Ne.symm hab', if_false]
            omega
          · simp only [hca, hcb, Ne.symm hca, Ne.symm hcb, if_false]
            omega
      · intro xs hl
        cases xs with
        | nil => simp at hl
        | cons x xs =>
          refine ⟨x :: xs, x.1.1, by simpa using hl, fun h => h, ?_, ?_, ?_, ?_⟩
          · intro c
            simp only [List.zip_cons_cons, leaving_cons]
          · intro c hca hcb
            simp only [List.zip_cons_cons, arriving_cons, Ne.symm hca, Ne.symm hcb, if_false]
          · simp only [List.zip_cons_cons, arriving_cons, Ne.symm hab', if_true, if_false, zero_add, add_assoc]
          · simp only [List.zip_cons_cons, arriving_cons, hab', if_true, if_false, zero_add, add_assoc]
    · by_cases h2 : i2 = some a
      · subst h2
        simp only [replaceFirst, h1, if_true, if_false]
        refine ⟨?_, rfl, rfl, ?_⟩
        · intro c
          simp only [insOf_cons, List.count_cons, beq_iff_eq]
          by_cases hca : c = some a
          · subst hca
            simp only [if_true, Ne.symm hab', hab', if_false]
            omega
          · by_cases hcb : c = some b
            · subst hcb
              simp only [if_true, hab', Ne.symm hab', if_false]
              omega
            · simp only [hca, hcb, Ne.symm hca, Ne.symm hcb, if_false]
              omega
        · intro xs hl
          cases xs with
          | nil => simp at hl
          | cons x xs =>
            refine ⟨((x.1.2, x.1.1), x.2) :: xs, x.1.1, by simpa using hl, ?_, ?_, ?_, ?_, ?_⟩
            · intro h y hy
              rcases List.mem_cons.1 hy with rfl | hy
              · have := h x (by simp)
                unfold Even at *
                simp only
                rw [this.1, this.2]
                exact ⟨by ring, by ring⟩
              · exact h y (List.mem_cons_of_mem _ hy)
            · intro c
              simp only [List.zip_cons_cons, leaving_cons]
            · intro c hca hcb
              simp only [List.zip_cons_cons, arriving_cons, Ne.symm hca, Ne.symm hcb, if_false, add_zero, zero_add]
            · simp only [List.zip_cons_cons, arriving_cons, Ne.symm hab', h1, if_true, if_false, zero_add]
            · simp only [List.zip_cons_cons, arriving_cons, hab', if_true, if_false, add_assoc, add_zero]
      · rw [insOf_cons, List.mem_cons, List.mem_cons] at hm
        obtain ⟨r1, r2, r3, r4⟩ := ih ((hm.resolve_left fun e => h1 e.symm).resolve_left fun e => h2 e.symm)
        simp only [replaceFirst, h1, h2, if_false]
        refine ⟨?_, by simp only [outsOf_cons, r2], by simp only [List.length_cons, r3], ?_⟩
        · intro c
          simp only [insOf_cons, List.count_cons, r1 c]
          have hle : (if c = some a then 1 else 0) ≤ (insOf n).count c := by
            split
            · rename_i hc
              subst hc
              exact List.count_pos_iff.2 ((hm.resolve_left fun e => h1 e.symm).resolve_left fun e => h2 e.symm)
            · omega
          omega
        · intro xs hl
          cases xs with
          | nil => simp at hl
          | cons x xs =>
            obtain ⟨ys, z, s1, s2, s3, s4, s5, s6⟩ := r4 xs (by simpa using hl)
            refine ⟨x :: ys, z, by simp [s1], ?_, ?_, ?_, ?_, ?_⟩
            · intro h y hy
              rcases List.mem_cons.1 hy with rfl | hy
              · exact h _ (by simp)
              · exact s2 (fun w hw => h w (List.mem_cons_of_mem _ hw)) y hy
            · intro c
              simp only [List.zip_cons_cons, leaving_cons, s3]
            · intro c hca hcb
              simp only [List.zip_cons_cons, arriving_cons, s4 c hca hcb]
            · simp only [List.zip_cons_cons, arriving_cons, s5]
              abel
            · simp only [List.zip_cons_cons, arriving_cons, s6]
              abel

theorem good_odd {n : Network} {a b : Int} {k : Nat} (h : Good n a b (k + 1)) (hk : 0 < k) :
    ∃ m, benesOdd n = .ok m ∧ m.length = n.length ∧ Good m a b k := by
  have hg := (gio_iff n a _ b _).2 h.ends
  have hab := h.ends.ne
  refine ⟨replaceFirst a b n, by unfold benesOdd; rw [hg], ?_⟩
  obtain ⟨r1, r2, r3, r4⟩ := replaceFirst_spec a b n h.ends.mem_in hab
  have hab' : (some a : Colour) ≠ some b := by simpa using hab
  have hpos : 0 < (insOf n).count (some a) := List.count_pos_iff.2 h.ends.mem_in
  refine ⟨r3, ?_, ?_, by rw [r2]; exact h.start, ?_⟩
  · intro c hc
    rintro rfl
    rcases List.mem_append.1 hc with hc | hc
    · have h1 := List.count_pos_iff.2 hc
      rw [r1] at h1
      simp at h1
      exact h.none_ none (List.mem_append_left _ h1) rfl
    · rw [r2] at hc
      exact h.none_ none (List.mem_append_right _ hc) rfl
  · have hs : ∀ c, surplus (replaceFirst a b n) c = surplus n c + (if c = some b then 1 else 0) - (if c = some a then 1 else 0) := by
      intro c
      simp only [surplus, r1, r2]
      by_cases hca : c = some a
      · subst hca
        simp only [hab', if_true, if_false]
        omega
      · simp only [hca, if_false]
        split <;> omega
    have e1 := h.ends.input
    have e2 := h.ends.output
    refine ⟨by exact_mod_cast hk, by exact_mod_cast hk, ?_, ?_, ?_⟩
    · rw [hs, e1]; simp [hab']
    · rw [hs, e2]; simp [Ne.symm hab']
    · intro c hca hcb
      rw [hs, h.ends.rest c hca hcb]
      simp [hca, hcb]
  · obtain ⟨w, hw, hb⟩ := h.bound
    refine ⟨w + 1, by linarith, ?_⟩
    intro xs hl he hc M hM y hy
    obtain ⟨ys, z, s1, s2, s3, s4, s5, s6⟩ := r4 xs (by rw [hl, r3])
    have hz : z ≤ M := hM z (by rw [s6]; simp)
    have := hb ys s1 (s2 he) (fun c hca hcb => by
      rw [s3, s4 _ (by simpa using hca) (by simpa using hcb)]
      exact hc c hca hcb) M (fun y hy => hM y (by rw [s6]; exact Multiset.mem_add.2 (Or.inr hy))) y (by rw [s3]; exact hy)
    rw [s5, Multiset.sum_add, Multiset.sum_singleton] at this
    push_cast at this
    linarith

/-! ### Even sizes -/

theorem innerFold_spec (rest : List Colour) (hn : rest.Nodup) (da db : PyDict Colour Colour) (i : Int) :
    let r := rest.foldl (fun (s : PyDict Colour Colour × PyDict Colour Colour × Int) c =>
      (s.1.set c (some (s.2.2 + 0)), s.2.1.set c (some (s.2.2 + 1)), s.2.2 + 2)) (da, db, i)
    r.2.2 = i + 2 * rest.length ∧
    (∀ c, r.1.get c = if c ∈ rest then some (some (i + 2 * rest.idxOf c)) else da.get c) ∧
    (∀ c, r.2.1.get c = if c ∈ rest then some (some (i + 2 * rest.idxOf c + 1)) else db.get c) := by
  induction rest generalizing da db i with
  | nil => simp
  | cons x rest ih =>
    rw [List.nodup_cons] at hn
    obtain ⟨h1, h2, h3⟩ := ih hn.2 (da.set x (some (i + 0))) (db.set x (some (i + 1))) (i + 2)
    rw [List.foldl_cons]
    refine ⟨by rw [h1]; push_cast [List.length_cons]; ring, fun c => ?_, fun c => ?_⟩
    · rw [h2 c, PyDict.get_set]
      by_cases hx : x = c
      · subst hx
        simp [hn.1]
      · by_cases hc : c ∈ rest
        · simp only [hc, if_true, List.mem_cons, or_true, List.idxOf_cons_ne _ hx]
          push_cast
          congr 2
          ring
        · simp [hc, hx, Ne.symm hx]
    · rw [h3 c, PyDict.get_set]
      by_cases hx : x = c
      · subst hx
        simp [hn.1]
      · by_cases hc : c ∈ rest
        · simp only [hc, if_true, List.mem_cons, or_true, List.idxOf_cons_ne _ hx]
          push_cast
          congr 2
          ring
        · simp [hc, hx, Ne.symm hx]

/-- What the two colour maps do. -/
theorem innerMaps_spec (a b : Int) (rest : List Colour) (hn : rest.Nodup) (ha : some a ∉ rest) (hb : some b ∉ rest) (hab : a ≠ b)
    (h0 : none ∉ rest) :
    let m := innerMaps a b rest
    (m.1.get none = none ∧ m.2.get none = none) ∧
    (mapColour m.1 (some a) = some 1 ∧ mapColour m.2 (some a) = some 2) ∧
    (mapColour m.1 (some b) = some ((3 : Int) + 2 * (rest.length : Int)) ∧
      mapColour m.2 (some b) = some ((3 : Int) + 2 * (rest.length : Int))) ∧
    (∀ c ∈ rest, mapColour m.1 c = some ((3 : Int) + 2 * (rest.idxOf c : Int)) ∧
      mapColour m.2 c = some ((3 : Int) + 2 * (rest.idxOf c : Int) + 1)) := by
  obtain ⟨h1, h2, h3⟩ := innerFold_spec rest hn [(some a, some 1)] [(some a, some 2)] 3
  have hab' : (some b : Colour) ≠ some a := by simpa using Ne.symm hab
  refine ⟨⟨?_, ?_⟩, ⟨?_, ?_⟩, ⟨?_, ?_⟩, ?_⟩
  · simp only [innerMaps, PyDict.get_set, h2, h0, if_false]
    simp [PyDict.get]
  · simp only [innerMaps, PyDict.get_set, h3, h0, if_false]
    simp [PyDict.get]
  · simp only [mapColour, innerMaps, PyDict.get_set, h2, ha, if_false, hab']
    simp [PyDict.get]
  · simp only [mapColour, innerMaps, PyDict.get_set, h3, ha, if_false, hab']
    simp [PyDict.get]
  · simp only [mapColour, innerMaps, PyDict.get_set, if_true, h1]
    rfl
  · simp only [mapColour, innerMaps, PyDict.get_set, if_true, h1]
    rfl
  · intro c hc
    have hcb : some b ≠ c := fun e => hb (e ▸ hc)
    simp only [mapColour, innerMaps, PyDict.get_set, hcb, if_false, h2, h3, hc, if_true]
    exact ⟨rfl, rfl⟩

/-- The first layer. -/
theorem firstLayer_flow (k : Nat) (xs : List Amounts) (hl : xs.length = k) (he : ∀ x ∈ xs, Even x) :
    let f := (List.replicate k (((some 0, some 0), (some 1, some 2)) : Node)).zip xs
    (leaving f (some 1)).sum = (arriving f (some 0)).sum / 2 ∧ (leaving f (some 2)).sum = (arriving f (some 0)).sum / 2 := by
  induction k generalizing xs with
  | zero => simp [arriving_nil, leaving_nil]
  | succ k ih =>
    cases xs with
    | nil => simp at hl
    | cons x xs =>
      obtain ⟨h1, h2⟩ := ih xs (by simpa using hl) fun y hy => he y (List.mem_cons_of_mem _ hy)
      have hx := he x (by simp)
      unfold Even at hx
      have e1 : ((some 1 : Colour) = some 2) = False := by simp
      have e2 : ((some 2 : Colour) = some 1) = False := by simp
      simp only [List.replicate_succ, List.zip_cons_cons, leaving_cons, arriving_cons, if_true, e1, e2, if_false, add_zero, zero_add,
        Multiset.sum_add, Multiset.sum_singleton, h1, h2, hx.1, hx.2]
      exact ⟨by ring, by ring⟩

theorem insOf_first (k : Nat) : ∀ c ∈ insOf (List.replicate k (((some 0, some 0), (some 1, some 2)) : Node)), c = some 0 := by
  induction k with
  | zero => simp
  | succ k ih =>
    rw [List.replicate_succ, insOf_cons]
    simpa using ih

theorem outsOf_first (k : Nat) : ∀ c ∈ outsOf (List.replicate k (((some 0, some 0), (some 1, some 2)) : Node)),
    c = some 1 ∨ c = some 2 := by
  induction k with
  | zero => simp
  | succ k ih =>
    rw [List.replicate_succ, outsOf_cons]
    simpa using ih

theorem surplus_first (k : Nat) (c : Int) : surplus (List.replicate k (((some 0, some 0), (some 1, some 2)) : Node)) (some c) =
    if c = 0 then 2 * (k : Int) else if c = 1 then -(k : Int) else if c = 2 then -(k : Int) else 0 := by
  induction k with
  | zero => simp [surplus_nil]
  | succ k ih =>
    rw [List.replicate_succ, surplus_cons, ih]
    simp only [Option.some.injEq]
    by_cases h0 : c = 0
    · subst h0; simp; ring
    · by_cases h1 : c = 1
      · subst h1; simp
      · by_cases h2 : c = 2
        · subst h2; simp
        · simp [h0, h1, h2, Ne.symm h0, Ne.symm h1, Ne.symm h2]

/-- One renamed copy of the inner network; `s` is its input colour and `d` the offset of its inner colours. -/
structure Copy (inner : Network) (a b : Int) (g : Colour → Colour) (s t : Int) (inside : Int → Prop) : Prop where
  start : g (some a) = some s
  finish : g (some b) = some t
  mid : ∀ c ∈ insOf inner ++ outsOf inner, c ≠ some a → c ≠ some b → ∃ x, g c = some x ∧ inside x
  inj : ∀ c ∈ insOf inner ++ outsOf inner, ∀ d ∈ insOf inner ++ outsOf inner, g c = g d → c = d

namespace Copy

variable {inner : Network} {a b s t : Int} {k : Nat} {g : Colour → Colour} {inside : Int → Prop}

theorem colours (h : Copy inner a b g s t inside) (c : Colour)
    (hc : c ∈ insOf (inner.map (nodeMap g)) ++ outsOf (inner.map (nodeMap g))) : ∃ x, c = some x ∧ (x = s ∨ x = t ∨ inside x) := by
  rw [insOf_map, outsOf_map, ← List.map_append, List.mem_map] at hc
  obtain ⟨y, hy, rfl⟩ := hc
  by_cases ha : y = some a
  · subst ha; exact ⟨s, h.start, Or.inl rfl⟩
  · by_cases hb : y = some b
    · subst hb; exact ⟨t, h.finish, Or.inr (Or.inl rfl)⟩
    · obtain ⟨x, hx, hi⟩ := h.mid y hy ha hb
      exact ⟨x, hx, Or.inr (Or.inr hi)⟩

theorem surplus_eq (h : Copy inner a b g s t inside) {c : Colour} (hc : c ∈ insOf inner ++ outsOf inner) :
    surplus (inner.map (nodeMap g)) (g c) = surplus inner c := by
  unfold surplus
  rw [insOf_map, outsOf_map, count_map_on, count_map_on]
  · exact fun x hx e => h.inj x (List.mem_append_right _ hx) c hc e
  · exact fun x hx e => h.inj x (List.mem_append_left _ hx) c hc e

theorem arriving_eq (h : Copy inner a b g s t inside) {c : Colour} (hc : c ∈ insOf inner ++ outsOf inner) (xs : List Amounts) :
    arriving ((inner.map (nodeMap g)).zip xs) (g c) = arriving (inner.zip xs) c :=
  arriving_map g inner xs c fun x hx e => h.inj x (List.mem_append_left _ hx) c hc e

theorem leaving_eq (h : Copy inner a b g s t inside) {c : Colour} (hc : c ∈ insOf inner ++ outsOf inner) (xs : List Amounts) :
    leaving ((inner.map (nodeMap g)).zip xs) (g c) = leaving (inner.zip xs) c :=
  leaving_map g inner xs c fun x hx e => h.inj x (List.mem_append_right _ hx) c hc e

theorem surplus_copy (h : Copy inner a b g s t inside) (hg : Good inner a b k) (hst : s ≠ t) (c : Int) :
    surplus (inner.map (nodeMap g)) (some c) = if c = s then (k : Int) else if c = t then -(k : Int) else 0 := by
  have hma := List.mem_append_left (outsOf inner) hg.ends.mem_in
  have hmb := List.mem_append_right (insOf inner) hg.ends.mem_out
  by_cases hs : c = s
  · subst hs
    rw [if_pos rfl, ← h.start, h.surplus_eq hma, hg.ends.input]
  · by_cases ht : c = t
    · subst ht
      rw [if_neg hs, if_pos rfl, ← h.finish, h.surplus_eq hmb, hg.ends.output]
    · rw [if_neg hs, if_neg ht]
      by_cases hm : some c ∈ insOf (inner.map (nodeMap g)) ++ outsOf (inner.map (nodeMap g))
      · rw [insOf_map, outsOf_map, ← List.map_append, List.mem_map] at hm
        obtain ⟨y, hy, hyc⟩ := hm
        rw [← hyc, h.surplus_eq hy]
        cases y with
        | none => exact absurd rfl (hg.none_ _ hy)
        | some y =>
          apply hg.ends.rest
          · rintro rfl
            rw [h.start] at hyc
            exact hs (by simpa using hyc.symm)
          · rintro rfl
            rw [h.finish] at hyc
            exact ht (by simpa using hyc.symm)
      · rw [List.mem_append, not_or] at hm
        rw [surplus, List.count_eq_zero_of_not_mem hm.1, List.count_eq_zero_of_not_mem hm.2]
        rfl

/-- The bound carries over to the copy. -/
theorem bound (h : Copy inner a b g s t inside) (hg : Good inner a b k) {w : ℚ} (hb : FlowBound inner a b k w)
    (xs : List Amounts) (hl : xs.length = inner.length) (he : ∀ x ∈ xs, Even x)
    (hc : ∀ c : Int, inside c → leaving ((inner.map (nodeMap g)).zip xs) (some c) = arriving ((inner.map (nodeMap g)).zip xs) (some c))
    (M : ℚ) (hM : ∀ y ∈ arriving ((inner.map (nodeMap g)).zip xs) (some t), y ≤ M)
    (y : ℚ) (hy : y ∈ leaving ((inner.map (nodeMap g)).zip xs) (some t)) :
    (k + w) * y ≤ (arriving ((inner.map (nodeMap g)).zip xs) (some s)).sum + w * M := by
  have hma := List.mem_append_left (outsOf inner) hg.ends.mem_in
  have hmb := List.mem_append_right (insOf inner) hg.ends.mem_out
  rw [← h.finish, h.arriving_eq hmb] at hM
  rw [← h.finish, h.leaving_eq hmb] at hy
  rw [← h.start, h.arriving_eq hma]
  refine hb xs hl he (fun c hca hcb => ?_) M hM y hy
  by_cases hm : some c ∈ insOf inner ++ outsOf inner
  · obtain ⟨x, hx, hi⟩ := h.mid _ hm (by simpa using hca) (by simpa using hcb)
    have := hc x hi
    rwa [← hx, h.arriving_eq hm, h.leaving_eq hm] at this
  · rw [List.mem_append, not_or] at hm
    rw [leaving_none _ _ _ hm.2, arriving_none _ _ _ hm.1]

end Copy

theorem good_even {n : Network} {a b : Int} {k : Nat} (h : Good n a b k) (hk : 0 < k) (ord : List Colour → List Colour)
    (hord : SetOrder ord) : ∃ m b', benesEven ord k n = .ok m ∧ m.length = k + 2 * n.length ∧ Good m 0 b' (2 * k) := by
  have hg := (gio_iff n a _ b _).2 h.ends
  have hab := h.ends.ne
  have hma := List.mem_append_left (outsOf n) h.ends.mem_in
  have hmb := List.mem_append_right (insOf n) h.ends.mem_out
  set all := (insOf n ++ outsOf n).dedup with hall
  set rest := ord (all.filter fun c => c ≠ some a ∧ c ≠ some b) with hrest
  have hperm : rest.Perm (all.filter fun c => c ≠ some a ∧ c ≠ some b) := hord _
  have hmem : ∀ c, c ∈ rest ↔ c ∈ insOf n ++ outsOf n ∧ c ≠ some a ∧ c ≠ some b := by
    intro c
    rw [hperm.mem_iff, List.mem_filter, hall, List.mem_dedup]
    simp
  have hnd : rest.Nodup := hperm.nodup_iff.2 ((List.nodup_dedup _).filter _)
  obtain ⟨⟨n1, n2⟩, ⟨a1, a2⟩, ⟨b1, b2⟩, hr⟩ := innerMaps_spec a b rest hnd (by rw [hmem]; simp) (by rw [hmem]; simp) hab
    (by rw [hmem]; exact fun hc => h.none_ _ hc.1 rfl)
  set m := innerMaps a b rest with hm
  set t : Int := 3 + 2 * rest.length with ht
  have cls : ∀ c ∈ insOf n ++ outsOf n, c = some a ∨ c = some b ∨ c ∈ rest := by
    intro c hc
    by_cases hca : c = some a
    · exact Or.inl hca
    · by_cases hcb : c = some b
      · exact Or.inr (Or.inl hcb)
      · exact Or.inr (Or.inr ((hmem c).2 ⟨hc, hca, hcb⟩))
  have idx : ∀ c d, c ∈ rest → d ∈ rest → rest.idxOf c = rest.idxOf d → c = d := by
    intro c d hc hd e
    have h1 := List.getElem_idxOf (List.idxOf_lt_length_of_mem hc)
    have h2 := List.getElem_idxOf (List.idxOf_lt_length_of_mem hd)
    rw [← h1, ← h2]
    simp only [e]
  have hcA : Copy n a b (mapColour m.1) 1 t (fun x => 3 ≤ x ∧ x < t ∧ x % 2 = 1) := by
    refine ⟨a1, b1, fun c hc hca hcb => ?_, fun c hc d hd e => ?_⟩
    · have hcr := (hmem c).2 ⟨hc, hca, hcb⟩
      refine ⟨_, (hr c hcr).1, ?_⟩
      have := List.idxOf_lt_length_of_mem hcr
      omega
    · rcases cls c hc with rfl | rfl | hcr <;> rcases cls d hd with rfl | rfl | hdr
      · rfl
      · rw [a1, b1] at e; simp at e; omega
      · rw [a1, (hr d hdr).1] at e; simp at e; omega
      · rw [a1, b1] at e; simp at e; omega
      · rfl
      · have := List.idxOf_lt_length_of_mem hdr
        rw [b1, (hr d hdr).1] at e; simp at e; omega
      · rw [a1, (hr c hcr).1] at e; simp at e; omega
      · have := List.idxOf_lt_length_of_mem hcr
        rw [b1, (hr c hcr).1] at e; simp at e; omega
      · rw [(hr c hcr).1, (hr d hdr).1] at e
        exact idx c d hcr hdr (by simp at e; omega)
  have hcB : Copy n a b (mapColour m.2) 2 t (fun x => 3 ≤ x ∧ x < t ∧ x % 2 = 0) := by
    refine ⟨a2, b2, fun c hc hca hcb => ?_, fun c hc d hd e => ?_⟩
    · have hcr := (hmem c).2 ⟨hc, hca, hcb⟩
      refine ⟨_, (hr c hcr).2, ?_⟩
      have := List.idxOf_lt_length_of_mem hcr
      omega
    · rcases cls c hc with rfl | rfl | hcr <;> rcases cls d hd with rfl | rfl | hdr
      · rfl
      · rw [a2, b2] at e; simp at e; omega
      · rw [a2, (hr d hdr).2] at e; simp at e; omega
      · rw [a2, b2] at e; simp at e; omega
      · rfl
      · have := List.idxOf_lt_length_of_mem hdr
        rw [b2, (hr d hdr).2] at e; simp at e; omega
      · rw [a2, (hr c hcr).2] at e; simp at e; omega
      · have := List.idxOf_lt_length_of_mem hcr
        rw [b2, (hr c hcr).2] at e; simp at e; omega
      · rw [(hr c hcr).2, (hr d hdr).2] at e
        exact idx c d hcr hdr (by simp at e; omega)
  refine ⟨List.replicate k ((some 0, some 0), (some 1, some 2)) ++ n.map (nodeMap (mapColour m.1)) ++
    n.map (nodeMap (mapColour m.2)), t, ?_, by simp; ring, ?_⟩
  · unfold benesEven
    simp only [hg]
    rw [← hall, ← hrest, ← hm]
    simp only [remapColours, n1, n2, Option.isSome_none, Bool.false_eq_true, if_false]
    rfl
  have ht3 : 3 ≤ t := by omega
  refine ⟨?_, ?_, ?_, ?_⟩
  · intro c hc
    rw [insOf_append, outsOf_append, insOf_append, outsOf_append] at hc
    simp only [List.mem_append] at hc
    rcases hc with ((hc | hc) | hc) | ((hc | hc) | hc)
    · rw [insOf_first _ _ hc]; simp
    · obtain ⟨x, rfl, -⟩ := hcA.colours c (List.mem_append_left _ hc); simp
    · obtain ⟨x, rfl, -⟩ := hcB.colours c (List.mem_append_left _ hc); simp
    · rcases outsOf_first _ _ hc with rfl | rfl <;> simp
    · obtain ⟨x, rfl, -⟩ := hcA.colours c (List.mem_append_right _ hc); simp
    · obtain ⟨x, rfl, -⟩ := hcB.colours c (List.mem_append_right _ hc); simp
  · have hs : ∀ c : Int, surplus (List.replicate k ((some 0, some 0), (some 1, some 2)) ++ n.map (nodeMap (mapColour m.1)) ++
        n.map (nodeMap (mapColour m.2))) (some c) = if c = 0 then 2 * (k : Int) else if c = t then -(2 * (k : Int)) else 0 := by
      intro c
      rw [surplus_append, surplus_append, surplus_first, hcA.surplus_copy h (by omega), hcB.surplus_copy h (by omega)]
      by_cases h0 : c = 0
      · subst h0
        simp only [if_true]
        rw [if_neg (by omega), if_neg (by omega), if_neg (by omega)]
        ring
      · by_cases h1 : c = 1
        · subst h1
          simp
          omega
        · by_cases h2 : c = 2
          · subst h2
            simp
            omega
          · simp only [h0, h1, h2, if_false]
            split <;> omega
    refine ⟨by push_cast; omega, by push_cast; omega, ?_, ?_, ?_⟩
    · rw [hs]; simp
    · rw [hs, if_neg (by omega)]; simp
    · intro c h0 hb; rw [hs, if_neg h0, if_neg hb]
  · intro hc
    rw [outsOf_append, outsOf_append] at hc
    simp only [List.mem_append] at hc
    rcases hc with (hc | hc) | hc
    · rcases outsOf_first _ _ hc with e | e <;> simp at e
    · obtain ⟨x, e, hx⟩ := hcA.colours _ (List.mem_append_right _ hc)
      simp only [Option.some.injEq] at e
      omega
    · obtain ⟨x, e, hx⟩ := hcB.colours _ (List.mem_append_right _ hc)
      simp only [Option.some.injEq] at e
      omega
  · obtain ⟨w, hw, hb⟩ := h.bound
    refine ⟨2 * w, by linarith, ?_⟩
    intro xs hl he hc M hM y hy
    obtain ⟨x0, xa, xb, l0, la, lb, rfl⟩ : ∃ x0 xa xb : List Amounts, x0.length = k ∧ xa.length = n.length ∧ xb.length = n.length ∧
        xs = x0 ++ xa ++ xb := by
      simp only [List.length_append, List.length_replicate, List.length_map] at hl
      refine ⟨xs.take k, (xs.drop k).take n.length, (xs.drop k).drop n.length, ?_, ?_, ?_, ?_⟩
      · simp; omega
      · simp; omega
      · simp; omega
      · rw [List.append_assoc, List.take_append_drop, List.take_append_drop]
    rw [List.zip_append (by simp [l0, la]), List.zip_append (by simp [l0])] at hc hM hy ⊢
    simp only [arriving_append, leaving_append] at hc hM hy ⊢
    set f0 := (List.replicate k (((some 0, some 0), (some 1, some 2)) : Node)).zip x0 with hf0
    set fa := (n.map (nodeMap (mapColour m.1))).zip xa with hfa
    set fb := (n.map (nodeMap (mapColour m.2))).zip xb with hfb
    have z0i : ∀ c : Int, c ≠ 0 → arriving f0 (some c) = 0 := fun c hc => arriving_none _ _ _ fun hm => by
      have := insOf_first _ _ hm; simp at this; omega
    have z0o : ∀ c : Int, c ≠ 1 → c ≠ 2 → leaving f0 (some c) = 0 := fun c hc hc' => leaving_none _ _ _ fun hm => by
      have := outsOf_first _ _ hm; simp at this; omega
    have zai : ∀ c : Int, (c < 3 ∧ c ≠ 1) ∨ (c % 2 = 0) → arriving fa (some c) = 0 := fun c hc => arriving_none _ _ _ fun hm => by
      obtain ⟨x, e, hx⟩ := hcA.colours _ (List.mem_append_left _ hm)
      simp only [Option.some.injEq] at e; omega
    have zao : ∀ c : Int, (c < 3 ∧ c ≠ 1) ∨ (c % 2 = 0) → leaving fa (some c) = 0 := fun c hc => leaving_none _ _ _ fun hm => by
      obtain ⟨x, e, hx⟩ := hcA.colours _ (List.mem_append_right _ hm)
      simp only [Option.some.injEq] at e; omega
    have zbi : ∀ c : Int, (c < 3 ∧ c ≠ 2) ∨ (c % 2 = 1 ∧ c ≠ t) → arriving fb (some c) = 0 := fun c hc => arriving_none _ _ _ fun hm => by
      obtain ⟨x, e, hx⟩ := hcB.colours _ (List.mem_append_left _ hm)
      simp only [Option.some.injEq] at e; omega
    have zbo : ∀ c : Int, (c < 3 ∧ c ≠ 2) ∨ (c % 2 = 1 ∧ c ≠ t) → leaving fb (some c) = 0 := fun c hc => leaving_none _ _ _ fun hm => by
      obtain ⟨x, e, hx⟩ := hcB.colours _ (List.mem_append_right _ hm)
      simp only [Option.some.injEq] at e; omega
    have sao : leaving fa (some 1) = 0 := by
      rw [hfa, ← a1, hcA.leaving_eq hma, leaving_none _ _ _ h.start]
    have sbo : leaving fb (some 2) = 0 := by
      rw [hfb, ← a2, hcB.leaving_eq hma, leaving_none _ _ _ h.start]
    obtain ⟨fl1, fl2⟩ := firstLayer_flow k x0 l0 fun x hx => he x (by simp [hx])
    rw [← hf0] at fl1 fl2
    have c1 : leaving f0 (some 1) = arriving fa (some 1) := by
      have := hc 1 (by omega) (by omega)
      rwa [sao, zbo 1 (by omega), z0i 1 (by omega), zbi 1 (by omega), add_zero, add_zero, zero_add, add_zero] at this
    have c2 : leaving f0 (some 2) = arriving fb (some 2) := by
      have := hc 2 (by omega) (by omega)
      rwa [sbo, zao 2 (by omega), z0i 2 (by omega), zai 2 (by omega), add_zero, add_zero, zero_add, zero_add] at this
    have bA := hcA.bound h hb xa la (fun x hx => he x (by simp [hx])) (fun c hi => by
      have := hc c (by omega) (by omega)
      rwa [z0o c (by omega) (by omega), z0i c (by omega), zbi c (by omega), zbo c (by omega), add_zero, add_zero, zero_add,
        zero_add] at this) M (fun y hy => hM y (by simp only [Multiset.mem_add]; exact Or.inl (Or.inr hy)))
    have bB := hcB.bound h hb xb lb (fun x hx => he x (by simp [hx])) (fun c hi => by
      have := hc c (by omega) (by omega)
      rwa [z0o c (by omega) (by omega), z0i c (by omega), zai c (by omega), zao c (by omega), add_zero, zero_add, zero_add] at this) M (fun y hy => hM y (by simp only [Multiset.mem_add]; exact Or.inr hy))
    rw [← hfa] at bA
    rw [← hfb] at bB
    rw [← c1, fl1] at bA
    rw [← c2, fl2] at bB
    rw [zai 0 (by omega), zbi 0 (by omega), add_zero, add_zero]
    simp only [Multiset.mem_add] at hy
    push_cast
    rcases hy with (hy | hy) | hy
    · rw [z0o t (by omega) (by omega)] at hy
      simp at hy
    · have := bA y hy
      linarith
    · have := bB y hy
      linarith

/-! ### All sizes -/

/-- The number of splitters. -/
def benesCount (size : Nat) : Nat :=
  if size < 3 then 1
  else if size % 2 = 1 then benesCount (size + 1)
  else size / 2 + 2 * benesCount (size / 2)
termination_by size + (if size % 2 = 1 then 2 else 0)
decreasing_by
  all_goals split <;> omega

theorem createBenes_good (ord : Nat → List Colour → List Colour) (hord : ∀ k, SetOrder (ord k)) (size : Nat) (h : 2 ≤ size) :
    ∃ n a b, createBenes ord size = .ok n ∧ n.length = benesCount size ∧ Good n a b size := by
  induction size using benesCount.induct with
  | case1 size hlt =>
    obtain rfl : size = 2 := by omega
    exact ⟨_, 0, 1, by rw [createBenes]; rfl, by rw [benesCount]; rfl, good_two⟩
  | case2 size h1 hodd ih =>
    obtain ⟨n, a, b, e, hl, hg⟩ := ih (by omega)
    obtain ⟨m, em, hlm, hgm⟩ := good_odd hg (by omega)
    refine ⟨m, a, b, ?_, ?_, hgm⟩
    · rw [createBenes, if_neg (by omega), if_neg (by omega), if_pos hodd, e]
      exact em
    · rw [benesCount, if_neg (by omega), if_pos hodd, hlm, hl]
  | case3 size h1 hodd ih =>
    obtain ⟨n, a, b, e, hl, hg⟩ := ih (by omega)
    obtain ⟨m, b', em, hlm, hgm⟩ := good_even hg (by omega) (ord size) (hord size)
    refine ⟨m, 0, b', ?_, ?_, ?_⟩
    · rw [createBenes, if_neg (by omega), if_neg (by omega), if_neg hodd, e]
      exact em
    · rw [benesCount, if_neg (by omega), if_neg hodd, hlm, hl]
    · rwa [show 2 * (size / 2) = size by omega] at hgm

/-! ### Balance -/

/-- All amounts negated. -/
def negAmounts (x : Amounts) : Amounts := ((-x.1.1, -x.1.2), (-x.2.1, -x.2.2))

theorem arriving_neg (n : Network) (xs : List Amounts) (c : Colour) :
    arriving (n.zip (xs.map negAmounts)) c = (arriving (n.zip xs) c).map (- ·) := by
  induction n generalizing xs with
  | nil => rfl
  | cons x n ih =>
    cases xs with
    | nil => rfl
    | cons y xs =>
      rw [List.map_cons, List.zip_cons_cons, List.zip_cons_cons, arriving_cons, arriving_cons, ih]
      simp only [Multiset.map_add]
      congr 2 <;> (split <;> rfl)

theorem leaving_neg (n : Network) (xs : List Amounts) (c : Colour) :
    leaving (n.zip (xs.map negAmounts)) c = (leaving (n.zip xs) c).map (- ·) := by
  induction n generalizing xs with
  | nil => rfl
  | cons x n ih =>
    cases xs with
    | nil => rfl
    | cons y xs =>
      rw [List.map_cons, List.zip_cons_cons, List.zip_cons_cons, leaving_cons, leaving_cons, ih]
      simp only [Multiset.map_add]
      congr 2 <;> (split <;> rfl)

theorem exists_max (s : Multiset ℚ) (h : s ≠ 0) : ∃ M ∈ s, ∀ y ∈ s, y ≤ M := by
  induction s using Multiset.induction with
  | empty => exact absurd rfl h
  | cons x s ih =>
    by_cases hs : s = 0
    · subst hs
      exact ⟨x, by simp, by simp⟩
    · obtain ⟨M, hM, hmax⟩ := ih hs
      rcases le_total x M with hx | hx
      · exact ⟨M, by simp [hM], fun y hy => by
          rcases Multiset.mem_cons.1 hy with rfl | hy
          · exact hx
          · exact hmax y hy⟩
      · exact ⟨x, by simp, fun y hy => by
          rcases Multiset.mem_cons.1 hy with rfl | hy
          · exact le_refl _
          · exact (hmax y hy).trans hx⟩

/-- What is fed back comes from what leaves, so the bound closes. -/
theorem Good.upper {n : Network} {a b : Int} {k : Nat} (h : Good n a b k) (hk : 0 < k) (xs : List Amounts)
    (hl : xs.length = n.length) (he : ∀ x ∈ xs, Even x)
    (hc : ∀ c : Int, c ≠ a → c ≠ b → leaving (n.zip xs) (some c) = arriving (n.zip xs) (some c))
    (hsub : ∀ y ∈ arriving (n.zip xs) (some b), y ∈ leaving (n.zip xs) (some b)) :
    ∀ y ∈ leaving (n.zip xs) (some b), k * y ≤ (arriving (n.zip xs) (some a)).sum := by
  intro y hy
  obtain ⟨w, hw, hb⟩ := h.bound
  obtain ⟨M, hM, hmax⟩ := exists_max _ (fun e => by rw [e] at hy; simp at hy : leaving (n.zip xs) (some b) ≠ 0)
  have h1 := hb xs hl he hc M (fun y hy => hmax y (hsub y hy)) M hM
  have hkq : (0 : ℚ) < k := by exact_mod_cast hk
  have h2 : (k : ℚ) * y ≤ k * M := by
    have := hmax y hy
    exact mul_le_mul_of_nonneg_left this hkq.le
  linarith

theorem Good.balance {n : Network} {a b : Int} {k : Nat} (h : Good n a b k) (hk : 0 < k) (xs : List Amounts)
    (hl : xs.length = n.length) (he : ∀ x ∈ xs, Even x)
    (hc : ∀ c : Int, c ≠ a → c ≠ b → leaving (n.zip xs) (some c) = arriving (n.zip xs) (some c))
    (hsub : ∀ y ∈ arriving (n.zip xs) (some b), y ∈ leaving (n.zip xs) (some b)) :
    ∀ y ∈ leaving (n.zip xs) (some b), k * y = (arriving (n.zip xs) (some a)).sum := by
  intro y hy
  have hu := h.upper hk xs hl he hc hsub y hy
  have hd := h.upper hk (xs.map negAmounts) (by simpa using hl)
    (fun x hx => by
      obtain ⟨z, hz, rfl⟩ := List.mem_map.1 hx
      have := he z hz
      unfold Even at *
      simp only [negAmounts]
      rw [this.1, this.2]
      exact ⟨by ring, by ring⟩)
    (fun c hca hcb => by rw [arriving_neg, leaving_neg, hc c hca hcb])
    (fun y hy => by
      rw [arriving_neg] at hy
      rw [leaving_neg]
      obtain ⟨z, hz, rfl⟩ := Multiset.mem_map.1 hy
      exact Multiset.mem_map.2 ⟨z, hsub z hz, rfl⟩) (-y) (by rw [leaving_neg]; exact Multiset.mem_map.2 ⟨y, hy, rfl⟩)
  rw [arriving_neg] at hd
  have : ((arriving (n.zip xs) (some a)).map (- ·)).sum = -(arriving (n.zip xs) (some a)).sum := by
    simpa using Multiset.sum_map_neg (m := arriving (n.zip xs) (some a)) (f := fun x : ℚ => x)
  rw [this] at hd
  linarith

end FSat
