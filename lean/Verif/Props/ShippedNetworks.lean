import Verif.Spec.DividesEvenly
import Verif.Lemmas.NetworkTotal
import Verif.Lemmas.ShippedChecked
/-!
# C93: the networks that come with the program are what their names say
-/

namespace FSat

theorem divides_of_certified {n : Network} {a b : Int} {p q : Nat} {stages : List (List Int × List PairProof)}
    (hE : Ends n a p b q) (hn : ∀ k ∈ n, k.outputs ≠ 0) (h : certified n a b [] stages = true) : DividesEvenly n a p b q := by
  intro flow inputs outputs hf
  obtain ⟨h1, h2⟩ := hf.card hE
  refine ⟨by exact_mod_cast h1, by exact_mod_cast h2, fun x hx => ?_⟩
  have hb := certified_balancer h flow inputs outputs hf x hx
  have e : outputs = Multiset.replicate q x := by
    rw [Multiset.eq_replicate]
    exact ⟨by exact_mod_cast h2, fun y hy => (hb y hy).symm⟩
  rw [hf.total hn, e, Multiset.sum_replicate, nsmul_eq_mul, mul_comm]

/-- C93: each network that comes with the program can be read; its name tells how many inputs and outputs it has; and whatever arrives and
however the belts of each colour are connected, every output gets the same share of everything that arrives.  The same holds for the
reversed network, with inputs and outputs exchanged. -/
theorem c93_shipped : ∀ e ∈ shippedNetworks, ∃ n a b, openNetwork e.text.toList = .ok n ∧ (∀ c, some c ∈ insOf n ++ outsOf n → 0 ≤ c) ∧
    getInputOutputColours n = .ok ((a, e.inputs), (b, e.outputs)) ∧
    DividesEvenly n a e.inputs b e.outputs ∧ DividesEvenly (flipNetwork n) b e.outputs a e.inputs := by
  intro e he
  obtain ⟨forth, back, h⟩ := shipped_ok e he
  unfold checkShipped at h
  split at h
  · cases h
  · rename_i n hn
    split at h
    · cases h
    · rename_i a p b q hio
      simp only [Bool.and_eq_true, beq_iff_eq, List.all_eq_true, bne_iff_ne, ne_eq] at h
      obtain ⟨⟨⟨⟨⟨rfl, rfl⟩, h3⟩, h4⟩, h5⟩, h6⟩ := h
      have hE := (gio_iff _ _ _ _ _).1 hio
      refine ⟨n, a, b, hn, fun c hc => by simpa using h4 _ hc, hio, divides_of_certified hE (fun k hk => (h3 k hk).1) h5,
        divides_of_certified hE.flip (fun k hk => ?_) h6⟩
      obtain ⟨k', hk', rfl⟩ := List.mem_map.1 hk
      exact (h3 k' hk').2

/-- There are that many networks. -/
example : shippedNetworks.length = 64 := rfl

/-- What the hypothesis of `DividesEvenly` is about, for networks/3x3: three items arrive on one of the three inputs and nothing on the
others. -/
example : ∃ flow, NetworkFlow [((some 0, some 0), (some 1, some 1)), ((some 0, some 3), (some 2, some 2)), ((some 2, some 1), (some 3, some 3)),
    ((some 2, some 1), (some 3, some 3))] 0 3 flow {3, 0, 0} {1, 1, 1} := by
  refine ⟨[(((some 0, some 0), (some 1, some 1)), ((3, 0), (3/2, 3/2))), (((some 0, some 3), (some 2, some 2)), ((0, 1), (1/2, 1/2))),
    (((some 2, some 1), (some 3, some 3)), ((1/2, 3/2), (1, 1))), (((some 2, some 1), (some 3, some 3)), ((1/2, 3/2), (1, 1)))], ?_, ?_, ?_⟩
  · exact .refl _
  · intro x hx
    simp only [List.mem_cons, List.not_mem_nil, or_false] at hx
    rcases hx with rfl | rfl | rfl | rfl <;> constructor <;> decide +kernel
  · intro c
    by_cases h0 : c = 0
    · subst h0; decide +kernel
    by_cases h1 : c = 1
    · subst h1; decide +kernel
    by_cases h2 : c = 2
    · subst h2; decide +kernel
    by_cases h3 : c = 3
    · subst h3; decide +kernel
    · have k0 := Ne.symm h0
      have k1 := Ne.symm h1
      have k2 := Ne.symm h2
      have k3 := Ne.symm h3
      simp [leaving, arriving, h0, h3, k0, k1, k2, k3]

section
variable {lib : CardLib} {width height : Nat} {ugLen : Option Nat} {g : Grid} {node : Nat × Nat → List Lit} {cs : Cnf} {s' : Nat}

open Classical in
/-- C93: a layout that the program finds for one of these networks, with belts that do not run into each other's sides, has as many
inputs and outputs as the name of the network says, and each output carries the same share of what arrives. -/
theorem c93_layout (hl : lib.Correct) {e : ShippedNetwork} (he : e ∈ shippedNetworks) {n : Network} (hn : openNetwork e.text.toList = .ok n)
    (hc : createBalancer lib (deduplicateNetwork n) width height ugLen = .ok (g, node, cs, s')) (hw : 2 ≤ width) (hh : 2 ≤ height)
    (v : Asg) (hs : Sat v cs) (hx : Sat v (preventIntersection g)) (T : Nat × Nat → Tile) (hT : Decodes g v T) :
    (g.cells.filter fun p => g.entry v p).length = e.inputs ∧ (g.cells.filter fun p => g.leave v p).length = e.outputs ∧
    ∀ F, Carries g.In g.nb T (g.hands v) (g.entry v) F → ∀ p, g.In p → g.leave v p →
      F p * e.outputs = ((g.cells.filter fun p => g.entry v p).map F).sum := by
  obtain ⟨n', a, b, hn', hpos, hio, hd, -⟩ := c93_shipped e he
  rw [hn] at hn'
  obtain rfl := Except.ok.inj hn'
  have hE := (gio_iff _ _ _ _ _).1 ((c39_ends n _ _ _ _).2 hio)
  have hv : (deduplicateNetwork n).Valid := (counter_spec _ [] PyDict.valid_nil).1
  have hcol : ∀ c ∈ netColours (deduplicateNetwork n), 0 ≤ c := by
    intro c hc
    obtain ⟨k, hk, rfl⟩ := List.mem_filterMap.1 hc
    obtain ⟨x, hx, hk⟩ := List.mem_flatMap.1 hk
    have hx' : ∃ y ∈ n, sortNode y = x.1 := by
      by_contra hno
      push Not at hno
      have h1 := (c39_counts n).2.1 x.1 hno
      rw [PyDict.get_of_mem hv hx] at h1
      cases h1
    obtain ⟨y, hy, e⟩ := hx'
    rw [← e] at hk
    refine hpos c (List.mem_append.2 ?_)
    unfold sortNode at hk
    rcases sortSide_or y.1 with e1 | e1 <;> rcases sortSide_or y.2 with e2 | e2 <;> simp only [e1, e2, List.mem_cons, List.not_mem_nil, or_false] at hk <;>
      rcases hk with hk | hk | hk | hk <;>
      first
        | exact .inl (List.mem_flatMap.2 ⟨y, hy, by simp only [← hk]; simp⟩)
        | exact .inr (List.mem_flatMap.2 ⟨y, hy, by simp only [← hk]; simp⟩)
  obtain ⟨k1, k2, k3⟩ := c77_flow hl hv hcol hc hw hh v hs hx T hT a _ b _ hE
  rw [← List.countP_eq_length_filter, ← List.countP_eq_length_filter]
  refine ⟨by exact_mod_cast k1, by exact_mod_cast k2, fun F hF p hp hpl => ?_⟩
  obtain ⟨flow, hflow⟩ := k3 F hF
  obtain ⟨flow', hflow'⟩ := flow_of_dedup hflow
  have h3 := (hd _ _ _ hflow').2.2 (F p) (Multiset.mem_coe.2 (List.mem_map_of_mem (List.mem_filter.2 ⟨(g.mem_cells p).2 hp, by simpa using hpl⟩)))
  rw [h3, Multiset.sum_coe]

/-- A cell of the example: kind, head, input, output, the flags for moving right in and out, colour, node. -/
def exShippedCell (kind : Nat) (head isIn isOut : Bool) (colour node : Bool) : List Bool :=
  (List.range 5).map (· == kind) ++ [head, isIn, isOut] ++ [true, false, false, false] ++ [true, false, false, false] ++
    [false, false, false, false] ++ [colour] ++ [false] ++ [false] ++ [node]

/-- A splitter between two rows of belts. -/
def exShipped : Asg := cellsAsg 24 [
  exShippedCell 0 false true false false false, exShippedCell 2 false false false false false, exShippedCell 0 false false true true false,
  exShippedCell 0 false true false false false, exShippedCell 2 true false false false true, exShippedCell 0 false false true true false]

/-- The hypotheses of C93 are met by networks/2x2 on a grid of 3 by 2. -/
example : net2x2 ∈ shippedNetworks ∧ ∃ n, openNetwork net2x2.text.toList = .ok n ∧ ∃ g node cs s',
    createBalancer naiveLib (deduplicateNetwork n) 3 2 (some 4) = .ok (g, node, cs, s') ∧ Sat exShipped cs ∧
    Sat exShipped (preventIntersection g) ∧ ∃ T, Decodes g exShipped T := by
  refine ⟨by simp [shippedNetworks], [((some 0, some 0), (some 1, some 1))], by decide +kernel, ?_⟩
  have h0 : okSat exShipped (balancerCnf (createBalancer naiveLib (deduplicateNetwork [((some 0, some 0), (some 1, some 1))]) 3 2 (some 4))) = true := by
    decide +kernel
  obtain ⟨cs, h1, h2⟩ := okSat_iff.1 h0
  unfold balancerCnf at h1
  split at h1
  · cases h1
  · rename_i g node cs' s' h
    cases h1
    have := createBalancer_grid h (m := 1) (by decide)
    subst this
    refine ⟨_, node, _, s', h, h2, ?_, fun p => if p.1 = 1 then .splitter .right (p.2 == 1) else .belt .right .right, ?_⟩
    · obtain ⟨_, e, k⟩ := okSat_iff.1 (show okSat exShipped (.ok (preventIntersection (mkGrid 3 2 ⟨false, false⟩ (some 2) (some 4) (nodeFields 1) 0))) = true by
        decide +kernel)
      cases e
      exact k
    · have key : ∀ x < 3, ∀ y < 2, (decodeCell (mkGrid 3 2 ⟨false, false⟩ (some 2) (some 4) (nodeFields 1) 0) exShipped (x, y)).toOption =
          some (if x = 1 then .splitter .right (y == 1) else .belt .right .right) := by decide +kernel
      intro p hp
      have := key p.1 hp.1 p.2 hp.2
      cases h : decodeCell (mkGrid 3 2 ⟨false, false⟩ (some 2) (some 4) (nodeFields 1) 0) exShipped p with
      | error e => rw [show (p.1, p.2) = p from rfl, h] at this; cases this
      | ok t =>
        rw [show (p.1, p.2) = p from rfl, h] at this
        exact h.trans (congrArg _ (Option.some.inj this))

end

end FSat
