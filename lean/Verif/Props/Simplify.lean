import Verif.Lemmas.SimplifyFlow
/-!
# C111: `simplify` ends and keeps what a network does
-/

namespace FSat

section
variable {ord : List Colour → List Colour} {ab : Bool}

/-- C111: `simplify` ends, after at most as many rounds as there are nodes. -/
theorem c111_terminates (n : Network) : ∃ r, ∀ fuel, n.length < fuel → simplifyLoop ord ab fuel n = some r := by
  suffices h : ∀ l (n : Network), n.length = l → ∃ r, ∀ fuel, l < fuel → simplifyLoop ord ab fuel n = some r from h _ n rfl
  intro l
  induction l with
  | zero =>
    intro n hn
    rw [List.length_eq_zero_iff] at hn
    subst hn
    refine ⟨.ok [], fun fuel hf => ?_⟩
    obtain ⟨f, rfl⟩ : ∃ f, fuel = f + 1 := ⟨fuel - 1, by omega⟩
    rfl
  | succ l ih =>
    intro n hn
    cases e : simplifyStep ord ab n with
    | none =>
      refine ⟨.ok n, fun fuel hf => ?_⟩
      obtain ⟨f, rfl⟩ : ∃ f, fuel = f + 1 := ⟨fuel - 1, by omega⟩
      simp only [simplifyLoop, e]
    | some r =>
      cases r with
      | error x =>
        refine ⟨.error x, fun fuel hf => ?_⟩
        obtain ⟨f, rfl⟩ : ∃ f, fuel = f + 1 := ⟨fuel - 1, by omega⟩
        simp only [simplifyLoop, e]
      | ok n' =>
        have := simplifyStep_length e
        obtain ⟨r, hr⟩ := ih n' (by omega)
        refine ⟨r, fun fuel hf => ?_⟩
        obtain ⟨f, rfl⟩ : ∃ f, fuel = f + 1 := ⟨fuel - 1, by omega⟩
        simp only [simplifyLoop, e]
        exact hr f (by omega)

/-- Induction over the rounds. -/
theorem simplifyLoop_rec {P : Network → Network → Prop} (hr : ∀ n, P n n)
    (hs : ∀ n n1 n', simplifyStep ord ab n = some (.ok n1) → P n1 n' → P n n') {fuel : Nat} {n n' : Network}
    (h : simplifyLoop ord ab fuel n = some (.ok n')) : P n n' := by
  induction fuel generalizing n with
  | zero => cases h
  | succ f ih =>
    simp only [simplifyLoop] at h
    split at h
    · cases h; exact hr _
    · cases h
    · rename_i n1 e
      exact hs n n1 n' e (ih h)

/-- C111: nothing is left that could be simplified, and no node is added. -/
theorem c111_simplified {fuel : Nat} {n n' : Network} (h : simplifyLoop ord ab fuel n = some (.ok n')) :
    Simplified n' ∧ n'.length ≤ n.length := by
  constructor
  · induction fuel generalizing n with
    | zero => cases h
    | succ f ih =>
      simp only [simplifyLoop] at h
      split at h
      · rename_i e; cases h; exact simplifyStep_none e
      · cases h
      · exact ih h
  · exact simplifyLoop_rec (P := fun n n' => n'.length ≤ n.length) (fun _ => le_refl _)
      (fun n n1 n' e h => by have := simplifyStep_length e; omega) h

end

section
variable {ord : List Colour → List Colour}

theorem plain_step {n n1 : Network} (e : simplifyStep ord false n = some (.ok n1)) : Reduced n n1 := by
  rcases simplifyStep_cases e with ⟨m, em, hr⟩ | ⟨a, ha, b, hb, e⟩
  · cases em; exact hr
  · rcases simplifyPair_plain ha hb e with ⟨m, em, hr⟩ | h
    · cases em; exact hr
    · cases h

/-- C111: every steady flow through the network is one through the simplified network. -/
theorem c111_flow {fuel : Nat} {n n' : Network} (h : simplifyLoop ord false fuel n = some (.ok n')) {F : Int → ℚ} (hF : WireFlow n F) :
    WireFlow n' F := by
  refine simplifyLoop_rec (P := fun n n' => WireFlow n F → WireFlow n' F) (fun _ h => h) (fun n n1 n' e ih hF => ?_) h hF
  exact ih (reduced_flow (plain_step e) hF)

/-- C111: if every wire has single ends and every node an output, then every steady flow through the simplified network is part of one
through the original network, and inputs and outputs correspond to each other.

Missing: networks in which a colour stands for several belts (`c111_shared_refuted`). -/
theorem c111_exact_partial {fuel : Nat} {n n' : Network} (h : simplifyLoop ord false fuel n = some (.ok n')) (hw : SingleEnds n) (hl : AllLead n) :
    (∀ F, WireFlow n' F → ∃ G, WireFlow n G ∧ ∀ c, UsesWire n' c → G c = F c) ∧ KeepsEnds n n' := by
  have uses : ∀ {n n1 : Network}, Reduced n n1 → ∀ c, UsesWire n1 c → UsesWire n c := by
    intro n n1 hr c hc
    have kill : ∀ (k : Node) (s : Colour × Colour), UsesWire ((n.erase k).map (nodeMap (killSide s))) c → UsesWire n c := by
      intro k s hc
      unfold UsesWire at hc
      rw [insOf_map, outsOf_map, mem_map_kill, mem_map_kill] at hc
      rcases hc with h | h
      · obtain ⟨x, hx, e⟩ := mem_insOf_node.1 h.1
        exact .inl (mem_insOf_node.2 ⟨x, List.mem_of_mem_erase hx, e⟩)
      · obtain ⟨x, hx, e⟩ := mem_outsOf_node.1 h.1
        exact .inr (mem_outsOf_node.2 ⟨x, List.mem_of_mem_erase hx, e⟩)
    cases hr with
    | dead k => exact kill k _ hc
    | stuck k => exact kill k _ hc
    | pass k hk x d h1 h2 =>
      by_cases e : c = d
      · exact .inr ((erase_outs hk _).2 (.inl ((holds1_iff h2 c).2 e)))
      · unfold UsesWire at hc
        rw [insOf_map, outsOf_map, mem_map_join, mem_map_join] at hc
        rcases hc with (h | h) | (h | h)
        · exact .inl ((erase_ins hk _).2 (.inr h.2))
        · exact absurd h.1 e
        · exact .inr ((erase_outs hk _).2 (.inr h.2))
        · exact absurd h.1 e
    | row a b ha hb =>
      have sub : ∀ m ∈ mergeNodes n a b (a.1, b.2), m = (a.1, b.2) ∨ m ∈ n := fun m hm =>
        (mem_replace hm).imp id fun h => List.mem_of_mem_erase h
      rcases hc with h | h
      · obtain ⟨x, hx, e⟩ := mem_insOf_node.1 h
        rcases sub x hx with rfl | hx
        · exact .inl (mem_insOf_node.2 ⟨a, ha, e⟩)
        · exact .inl (mem_insOf_node.2 ⟨x, hx, e⟩)
      · obtain ⟨x, hx, e⟩ := mem_outsOf_node.1 h
        rcases sub x hx with rfl | hx
        · exact .inr (mem_outsOf_node.2 ⟨b, hb, e⟩)
        · exact .inr (mem_outsOf_node.2 ⟨x, hx, e⟩)
  have := simplifyLoop_rec (P := fun n n' => SingleEnds n → AllLead n →
      (∀ F, WireFlow n' F → ∃ G, WireFlow n G ∧ ∀ c, UsesWire n' c → G c = F c) ∧ KeepsEnds n n' ∧ ∀ c, UsesWire n' c → UsesWire n c)
    (fun n _ _ => ⟨fun F hF => ⟨F, hF, fun _ _ => rfl⟩, KeepsEnds.refl n, fun _ h => h⟩) (fun n n1 n' e ih hw hl => ?_) h hw hl
  · exact ⟨this.1, this.2.1⟩
  · have hr := plain_step e
    obtain ⟨w1, l1⟩ := reduced_wired hr hw hl
    obtain ⟨h1, h2, h3⟩ := ih w1 l1
    refine ⟨fun F hF => ?_, (reduced_ends hr hw hl).trans h2 fun F hF => reduced_flow hr hF, fun c hc => uses hr c (h3 c hc)⟩
    obtain ⟨G, hG, e1⟩ := h1 F hF
    obtain ⟨H, hH, e2⟩ := reduced_unflow hr hw hl hG
    exact ⟨H, hH, fun c hc => (e2 c (h3 c hc)).trans (e1 c hc)⟩

/-- C111: an assertion is the only way to fail. -/
theorem c111_error {fuel : Nat} {n : Network} {x : PyErr} (h : simplifyLoop ord false fuel n = some (.error x)) : x = .assertion := by
  induction fuel generalizing n with
  | zero => cases h
  | succ f ih =>
    simp only [simplifyLoop] at h
    split at h
    · cases h
    · rename_i e' e
      cases h
      rcases simplifyStep_cases e with ⟨m, em, _⟩ | ⟨a, ha, b, hb, e⟩
      · cases em
      · rcases simplifyPair_plain ha hb e with ⟨m, em, hr⟩ | h
        · cases em
        · cases h; rfl
    · exact ih h

end

/-! ### Networks it cannot deal with -/

theorem wired_of_nodup {n : Network} (h1 : ((insOf n).filter (· ≠ none)).Nodup) (h2 : ((outsOf n).filter (· ≠ none)).Nodup) : SingleEnds n := by
  intro c hc
  rw [List.nodup_iff_count_le_one] at h1 h2
  have := h1 c
  have := h2 c
  rw [List.count_filter (by simpa using hc)] at *
  exact ⟨by assumption, by assumption⟩

/-- Two splitters with a single belt between them. -/
def neckNetwork : Network := [((some 0, some 1), (some 2, none)), ((some 2, none), (some 3, some 4))]

theorem neck_wired : SingleEnds neckNetwork ∧ AllLead neckNetwork := by
  exact ⟨wired_of_nodup (by decide) (by decide), by unfold AllLead; decide⟩

/-- C111: `simplify` fails for two splitters with a single belt between them. -/
theorem c111_fails_refuted (ord : List Colour → List Colour) : ¬ ∀ n : Network, SingleEnds n → AllLead n → ∀ fuel, n.length < fuel →
    ∃ n', simplifyLoop ord false fuel n = some (.ok n') := by
  intro h
  obtain ⟨n', h⟩ := h neckNetwork neck_wired.1 neck_wired.2 3 (by decide)
  cases h

/-- Three splitters; the third one takes a colour of which one belt goes from the first to the second. -/
def sharedNetwork : Network :=
  [((some 0, some 1), (some 2, some 3)), ((some 2, some 3), (some 4, some 5)), ((some 2, some 6), (some 7, some 8))]

/-- C111: with a colour for several belts, the simplified network allows flows that the original one does not. -/
theorem c111_shared_refuted (ord : List Colour → List Colour) : ∃ n' F, AllLead sharedNetwork ∧
    simplifyLoop ord false 4 sharedNetwork = some (.ok n') ∧ WireFlow n' F ∧
    ¬ ∃ G, WireFlow sharedNetwork G ∧ ∀ c, UsesWire n' c → G c = F c := by
  refine ⟨[((some 0, some 1), (some 4, some 5)), ((some 2, some 6), (some 7, some 8))],
    fun c => if c = 2 then 2 else if c = 7 ∨ c = 8 then 1 else 0, by unfold AllLead; decide, rfl, ⟨fun c => ?_, fun k hk => ?_⟩, ?_⟩
  · dsimp only
    split
    · norm_num
    · split <;> norm_num
  · simp only [List.mem_cons, List.not_mem_nil, or_false] at hk
    rcases hk with rfl | rfl <;> simp [Splits, Node.total, onWire]
  · rintro ⟨G, hG, h⟩
    have h0 := h 0 (by unfold UsesWire; decide)
    have h1 := h 1 (by unfold UsesWire; decide)
    have h2 := h 2 (by unfold UsesWire; decide)
    have := hG.2 ((some 0, some 1), (some 2, some 3)) (by decide)
    simp [Splits, Node.total, onWire] at this
    norm_num at h0 h1 h2
    rw [h0, h1, h2] at this
    norm_num at this

/-! ### Instances -/

/-- Four splitters, of which the second only passes items on and the third repeats the work of the first: one is left and it keeps the
inputs and outputs. -/
def longNetwork : Network :=
  [((some 0, some 1), (some 2, some 3)), ((some 2, none), (none, some 4)), ((some 4, some 3), (some 5, some 6)), ((none, none), (some 7, none))]

example : simplifyLoop id false 5 longNetwork = some (.ok [((some 0, some 1), (some 5, some 6))]) := by rfl

example : SingleEnds longNetwork ∧ AllLead longNetwork := by
  exact ⟨wired_of_nodup (by decide) (by decide), by unfold AllLead; decide⟩

/-- A flow through it. -/
example : WireFlow longNetwork (fun c => if c = 0 then 2 else if c = 1 ∨ c = 7 then 0 else 1) := by
  refine ⟨fun c => ?_, fun k hk => ?_⟩
  · dsimp only
    split
    · norm_num
    · split <;> norm_num
  · simp only [longNetwork, List.mem_cons, List.not_mem_nil, or_false] at hk
    rcases hk with rfl | rfl | rfl | rfl <;> simp [Splits, Node.total, onWire]

/-- With `allow_bottleneck` two splitters fed by the same two become one. -/
example : simplifyLoop id true 5 [((some 0, some 1), (some 2, some 3)), ((some 4, some 5), (some 6, some 7)), ((some 2, some 6), (some 8, none)),
    ((some 3, some 7), (some 9, none))] =
    some (.ok [((some 0, some 1), (some 2, none)), ((some 4, some 5), (some 6, none)), ((some 2, some 6), (some 8, some 9))]) := by rfl

end FSat
