import Verif.Lemmas.Objective
import Verif.Spec.SolveBalancer
/-!
# The stores that the search arrives at
-/

namespace FSat

/-- What holds of every such store, without any assumption on which sizes have balancers. -/
structure RunInv (fits : Size → Prop) (ul : Int) (n : Network) (height : Int) (s : Store) : Prop where
  network : s.network = n
  valid : s.exist.Valid
  valid_solutions : s.solutions.Valid
  family : ∀ size b, (size, b) ∈ s.exist → Considered n ul height size
  yes : ∀ size, (size, true) ∈ s.exist → fits size
  no : ∀ size, (size, false) ∈ s.exist → ∀ o, Considered n ul height o → Size.LE o size → ¬ fits o
  consistent : Consistent s.exist
  stored : ∀ size, (size, true) ∈ s.exist → ∃ v, (size, v) ∈ s.solutions
  solved : ∀ size v, (size, v) ∈ s.solutions → (size, true) ∈ s.exist

theorem RunInv.start (fits : Size → Prop) (ul : Int) (n : Network) (height : Int) (name : List Char) :
    RunInv fits ul n height ⟨n, name, [], []⟩ :=
  ⟨rfl, List.nodup_nil, List.nodup_nil, nofun, nofun, nofun, nofun, nofun, nofun⟩

/-- The size that is tried next: it is considered, undecided, and none of the considered sizes below it fits. -/
theorem RunInv.next {fits : Size → Prop} {ul : Int} {n : Network} {s : Store} {a p b q : Int} (hE : Ends n a p b q)
    (hs : RunInv fits ul n (max p q) s) {obj : Objective} {size : Size} (h : nextSize obj s ul = .ok (some size)) :
    Considered n ul (max p q) size ∧ doesExist s.exist size = none ∧
      ∀ o, Considered n ul (max p q) o → Size.LE o size → o ≠ size → ¬ fits o := by
  have hg : getInputOutputColours s.network = .ok ((a, p), (b, q)) := by rw [hs.network]; exact (gio_iff _ _ _ _ _).2 hE
  have hpos := height_pos hg
  have hno : ∀ o, Considered n ul (max p q) o → doesExist s.exist o = some false → ¬ fits o := by
    intro o ho hd
    obtain ⟨k, hk, hl⟩ := doesExist_false hd
    exact hs.no k hk o ho hl
  cases obj with
  | length =>
    obtain ⟨w, h1, h2, h3⟩ := nextSize_length hg h
    rcases h3 with ⟨h3, -⟩ | ⟨h3, h4, h5⟩
    · cases h3
    · cases h3
      refine ⟨⟨rfl, h1, le_rfl, by rw [← hs.network]; exact h5⟩, h4, ?_⟩
      rintro ⟨l, w', h'⟩ ho hle hne
      obtain ⟨e1, e2, e3, e4⟩ := ho
      obtain ⟨f1, f2, f3⟩ := hle
      simp only at e1 e2 e3 e4 f1 f2 f3
      have hh : h' = max p q := by omega
      have hw : w' < w := by
        rcases Int.lt_or_eq_of_le f2 with h | h
        · exact h
        · exact absurd (by rw [e1, h, hh]) hne
      subst e1 hh
      rcases h2 w' e2 hw with h6 | ⟨-, h6⟩
      · exact hno _ ⟨rfl, e2, e3, e4⟩ h6
      · rw [hs.network] at h6; omega
  | area =>
    obtain ⟨ar, h1, h2, w, h', h3, h4, h5, h6, h7⟩ := nextSize_area hg h
    rcases h7 with ⟨h7, -⟩ | ⟨h7, h8⟩
    · cases h7
    · cases h7
      have hw : 1 ≤ w := by
        rcases Nat.eq_zero_or_pos w with rfl | hw
        · simp only [Nat.zero_mul] at h3; omega
        · exact hw
      have har : ((ar : Nat) : Int) = (w : Int) * h' := by rw [← h3]; push_cast; rfl
      refine ⟨⟨rfl, by simp only; omega, h4, ?_⟩, h8, ?_⟩
      · simp only
        rw [show (w : Int) + 2 - 2 = w by omega, ← har, ← hs.network]
        exact h6
      rintro ⟨l, x, y⟩ ho hle hne
      have ho' := ho
      obtain ⟨e1, e2, e3, e4⟩ := ho
      obtain ⟨f1, f2, f3⟩ := hle
      simp only at e1 e2 e3 e4 f1 f2 f3
      subst e1
      obtain ⟨xw, hxw⟩ : ∃ m : Nat, (m : Int) = x - 2 := ⟨(x - 2).toNat, by omega⟩
      obtain ⟨xh, hxh⟩ : ∃ m : Nat, (m : Int) = y := ⟨y.toNat, by omega⟩
      have hprod : ((xw * xh : Nat) : Int) = (x - 2) * y := by push_cast; rw [hxw, hxh]
      have hge : max p q ≤ ((xw * xh : Nat) : Int) := by rw [hprod]; nlinarith
      have hlt : xw * xh < ar := by
        rw [← h3]
        have a1 : xw ≤ w := by omega
        have a2 : xh ≤ h' := by omega
        rcases Nat.lt_or_eq_of_le a1 with b1 | b1
        · exact lt_of_lt_of_le (Nat.mul_lt_mul_of_pos_right b1 (by omega)) (Nat.mul_le_mul_left _ a2)
        · rcases Nat.lt_or_eq_of_le a2 with b2 | b2
          · exact lt_of_lt_of_le (Nat.mul_lt_mul_of_pos_left b2 (by omega)) (Nat.mul_le_mul_right _ a1)
          · refine absurd ?_ hne
            rw [show x = (w : Int) + 2 by omega, show y = (h' : Int) by omega]
      have := h2 xw xh hge hlt (by omega) (by omega) (by rw [hprod, hs.network]; exact e4)
      rw [show ((xw : Int) + 2) = x by omega, hxh] at this
      exact hno _ ho' this

theorem RunInv.step {fits : Size → Prop} {ul : Int} {n : Network} {s : Store} {a p b q : Int} (hE : Ends n a p b q)
    (hs : RunInv fits ul n (max p q) s) {obj : Objective} {size : Size} (h : nextSize obj s ul = .ok (some size)) (ans : Option Json)
    (hans : ans.isSome = true ↔ fits size) : RunInv fits ul n (max p q) (s.add size ans).clean := by
  obtain ⟨h1, h2, h3⟩ := hs.next hE h
  rw [doesExist_none] at h2
  have hnew : ∀ b, (size, b) ∉ s.exist := by
    intro b hb
    cases b
    · exact h2.2 ⟨size, hb, Size.LE.refl _⟩
    · exact h2.1 ⟨size, hb, Size.LE.refl _⟩
  have hmem : ∀ k b, (k, b) ∈ (s.add size ans).exist ↔ (size = k ∧ ans.isSome = b) ∨ (k, b) ∈ s.exist := by
    intro k b
    refine (mem_set_iff hs.valid _ _ _ _).trans ⟨?_, ?_⟩
    · rintro (h | ⟨-, h⟩)
      · exact .inl h
      · exact .inr h
    · rintro (h | h)
      · exact .inl h
      · exact .inr ⟨fun e => hnew b (e ▸ h), h⟩
  have hv : (s.add size ans).exist.Valid := hs.valid.set _ _
  have hc : Consistent (s.add size ans).exist := by
    intro x y hx hy hl
    rcases (hmem _ _).1 hx with ⟨rfl, ex⟩ | hx <;> rcases (hmem _ _).1 hy with ⟨rfl, ey⟩ | hy
    · rw [ex] at ey; cases ey
    · exact h2.2 ⟨y, hy, hl⟩
    · exact h2.1 ⟨x, hx, hl⟩
    · exact hs.consistent x y hx hy hl
  obtain ⟨c1, c2, c3, c4, c5⟩ := clean_spec hv hc
  refine ⟨hs.network, c1, ?_, fun k b hk => ?_, fun k hk => ?_, fun k hk o ho hl => ?_, fun x y hx hy => hc x y (c2 _ hx) (c2 _ hy),
    fun k hk => ?_, fun k v hk => ?_⟩
  · show PyDict.Valid (match ans with | none => s.solutions | some v => s.solutions.set size v)
    cases ans with
    | none => exact hs.valid_solutions
    | some v => exact hs.valid_solutions.set _ _
  · rcases (hmem _ _).1 (c2 _ hk) with ⟨rfl, -⟩ | hk
    · exact h1
    · exact hs.family _ _ hk
  · rcases (hmem _ _).1 (c2 _ hk) with ⟨rfl, e⟩ | hk
    · exact hans.1 e
    · exact hs.yes _ hk
  · rcases (hmem _ _).1 (c2 _ hk) with ⟨rfl, e⟩ | hk
    · by_cases he : o = size
      · subst he
        intro hf
        rw [hans.2 hf] at e; cases e
      · exact h3 o ho hl he
    · exact hs.no _ hk o ho hl
  · show ∃ v, (k, v) ∈ (match ans with | none => s.solutions | some v => s.solutions.set size v)
    rcases (hmem _ _).1 (c2 _ hk) with ⟨rfl, e⟩ | hk2
    · cases ans with
      | none => cases e
      | some v => exact ⟨v, (mem_set_iff hs.valid_solutions _ _ _ _).2 (.inl ⟨rfl, rfl⟩)⟩
    · obtain ⟨x, hx⟩ := hs.stored k hk2
      have hne : size ≠ k := fun e => hnew true (e ▸ hk2)
      cases ans with
      | none => exact ⟨x, hx⟩
      | some v' => exact ⟨x, (mem_set_iff hs.valid_solutions _ _ _ _).2 (.inr ⟨hne, hx⟩)⟩
  · have hk : (k, v) ∈ (match ans with | none => s.solutions | some v => s.solutions.set size v) := hk
    refine c3 _ ((hmem _ _).2 ?_)
    cases ans with
    | none => exact .inr (hs.solved _ _ hk)
    | some v' =>
      rcases (mem_set_iff hs.valid_solutions _ _ _ _).1 hk with ⟨rfl, -⟩ | ⟨-, hk⟩
      · exact .inl ⟨rfl, rfl⟩
      · exact .inr (hs.solved _ _ hk)

theorem Computed.inv {fits : Size → Prop} {ul : Int} {n : Network} {name : List Char} {s : Store} (h : Computed fits ul n name s)
    {a p b q : Int} (hE : Ends n a p b q) : RunInv fits ul n (max p q) s := by
  induction h with
  | start => exact RunInv.start ..
  | step obj ans _ hn hans ih => exact ih.step hE hn ans hans

/-- When the search is over, the best solution is there, and no considered size that fits has a smaller loss. -/
theorem RunInv.best {fits : Size → Prop} {ul : Int} {n : Network} {s : Store} {a p b q : Int} (hE : Ends n a p b q)
    (hs : RunInv fits ul n (max p q) s) {obj : Objective} (h : nextSize obj s ul = .ok none) :
    ∃ size v, s.best obj ul = some v ∧ (size, v) ∈ s.solutions ∧ fits size ∧ Considered n ul (max p q) size ∧
      ∀ o, Considered n ul (max p q) o → fits o → (obj = .area → o.2.2 ≤ 2 * max p q) → pairLt (loss obj o) (loss obj size) = false := by
  have hg : getInputOutputColours s.network = .ok ((a, p), (b, q)) := by rw [hs.network]; exact (gio_iff _ _ _ _ _).2 hE
  have hpos := height_pos hg
  have hno : ∀ o, Considered n ul (max p q) o → doesExist s.exist o = some false → ¬ fits o := by
    intro o ho hd
    obtain ⟨k, hk, hl⟩ := doesExist_false hd
    exact hs.no k hk o ho hl
  cases obj with
  | length =>
    obtain ⟨w, h1, h2, h3⟩ := nextSize_length hg h
    rcases h3 with ⟨-, h3⟩ | ⟨h3, -⟩
    swap
    · cases h3
    obtain ⟨k, hk, hl⟩ := doesExist_true h3
    obtain ⟨v0, hv0⟩ := hs.stored k hk
    obtain ⟨size, v, e1, e2, e3, e4⟩ := best_spec .length s ul k v0 hv0 hl.1
    have hst := hs.solved _ _ e2
    have hcs := hs.family _ _ hst
    refine ⟨size, v, e1, e2, hs.yes _ hst, hcs, fun o ho hf _ => ?_⟩
    have hck := hs.family _ _ hk
    have h4 := e4 k v0 hv0 hl.1
    rw [Bool.eq_false_iff, Ne, pairLt_iff] at h4 ⊢
    simp only [loss] at h4 ⊢
    obtain ⟨k1, k2, k3, k4⟩ := hck
    obtain ⟨s1, s2, s3, s4⟩ := hcs
    obtain ⟨l1, l2, l3⟩ := hl
    simp only at l1 l2 l3
    intro hlt
    obtain ⟨ol, ow, oh⟩ := o
    have ho' := ho
    obtain ⟨o1, o2, o3, o4⟩ := ho
    simp only at o1 o2 o3 o4 hlt
    subst o1
    have hoh : oh = max p q := by omega
    subst hoh
    rcases h2 ow o2 (by omega) with h6 | ⟨-, h6⟩
    · exact hno _ ho' h6 hf
    · rw [hs.network] at h6; omega
  | area =>
    obtain ⟨ar, h1, h2, w, h', h3, h4, h5, h6, h7⟩ := nextSize_area hg h
    rcases h7 with ⟨-, h7⟩ | ⟨h7, -⟩
    swap
    · cases h7
    obtain ⟨k, hk, hl⟩ := doesExist_true h7
    obtain ⟨v0, hv0⟩ := hs.stored k hk
    obtain ⟨size, v, e1, e2, e3, e4⟩ := best_spec .area s ul k v0 hv0 hl.1
    have hst := hs.solved _ _ e2
    have hcs := hs.family _ _ hst
    refine ⟨size, v, e1, e2, hs.yes _ hst, hcs, fun o ho hf hoh => ?_⟩
    have hoh := hoh rfl
    obtain ⟨k1, k2, k3, k4⟩ := hs.family _ _ hk
    have h8 := e4 k v0 hv0 hl.1
    rw [Bool.eq_false_iff, Ne, pairLt_iff] at h8 ⊢
    simp only [loss] at h8 ⊢
    obtain ⟨l1, l2, l3⟩ := hl
    simp only at l1 l2 l3
    have hka : (k.2.1 - 2) * k.2.2 ≤ ar := by
      rw [← h3]
      push_cast
      exact mul_le_mul (by omega) (by omega) (by omega) (by omega)
    intro hlt
    obtain ⟨ol, ow, oh⟩ := o
    have ho' := ho
    obtain ⟨o1, o2, o3, o4⟩ := ho
    simp only at o1 o2 o3 o4 hlt hoh
    subst o1
    obtain ⟨xw, hxw⟩ : ∃ m : Nat, (m : Int) = ow - 2 := ⟨(ow - 2).toNat, by omega⟩
    obtain ⟨xh, hxh⟩ : ∃ m : Nat, (m : Int) = oh := ⟨oh.toNat, by omega⟩
    have hprod : ((xw * xh : Nat) : Int) = (ow - 2) * oh := by push_cast; rw [hxw, hxh]
    have hge : max p q ≤ ((xw * xh : Nat) : Int) := by rw [hprod]; nlinarith
    have := h2 xw xh hge (by omega) (by omega) (by omega) (by rw [hprod, hs.network]; exact o4)
    rw [show ((xw : Int) + 2) = ow by omega, hxh] at this
    exact hno _ ho' this hf

end FSat
