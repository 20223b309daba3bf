import Verif.Lemmas.BeltEnds
import Verif.Props.ParseFile
import Verif.Props.TurnedPrograms
/-!
# The network read from a balancer that was found without a network
-/

namespace FSat

open Relation

section
variable {g : Grid} {T : Nat × Nat → Tile} {shutB shutU : Nat × Nat → Dir → Prop} {L : Option Nat}

/-- A layout that obeys the rules, as it is printed. -/
theorem sound_of_rules (hg : g.WF) (hw : g.NoWrap) (hR : BasicRules g.In g.nb T shutB shutU L) :
    SoundLayout (layoutArr g T).In (layoutArr g T).nb (layoutArr g T).board :=
  (copy_layout hg hw T).sound (fun _ hp => layout_board T hp)
    ⟨hR.basic, hR.splitters, hR.joined, hR.undergrounds.entrance, hR.undergrounds.exit, fun _ _ _ _ _ _ _ h => by cases h⟩

theorem sound_valid {a : Arr Tile} (h : SoundLayout a.In a.nb a.board) : a.AllValid := by
  intro y x
  have := h.basic ((x.val : Int), (y.val : Int)) ⟨by simp, by simp, by simp, by simp⟩
  rw [a.board_get y x] at this
  revert this
  cases a.get y x <;> simp [Tile.Basic, Tile.Valid]
  exact fun h e => h e.symm

theorem enters_area (hg : g.WF) (hw : g.NoWrap) {p : Nat × Nat} (hp : g.In p) :
    EntersAt (layoutArr g T).nb (layoutArr g T).board (toPlane p) ↔ EntersAt g.nb T p := by
  unfold EntersAt
  rw [layout_board T hp]
  simp only [nb_area hg hw T hp, Option.map_eq_none_iff]

theorem full_area (hg : g.WF) (hw : g.NoWrap) (hf : FullSplitters g.In T (Connected g.nb T)) :
    FullSplitters (layoutArr g T).In (layoutArr g T).board (Connected (layoutArr g T).nb (layoutArr g T).board) := by
  have C := copy_layout hg hw T
  intro r d b hr ht
  obtain ⟨p, hp, rfl⟩ := (inArea T r).1 hr
  rw [layout_board T hp] at ht
  obtain ⟨⟨q, h1⟩, q', h2, h3⟩ := hf p d b hp ht
  exact ⟨⟨_, (C.conn p q d hp (Grid.nb_in hg h1.1)).2 h1⟩, _, C.maps q' h2, (C.conn q' p d h2 hp).2 h3⟩

theorem steady_area (hg : g.WF) (hw : g.NoWrap) (hf : FullSplitters g.In T (Connected g.nb T)) {F : Int × Int → ℚ} :
    Steady (layoutArr g T).In (layoutArr g T).nb (layoutArr g T).board (Connected (layoutArr g T).nb (layoutArr g T).board) F ↔
      Steady g.In g.nb T (Connected g.nb T) fun p => F (toPlane p) := by
  have C := copy_layout hg hw T
  exact ⟨fun h => (C.carries (supplied := fun _ => False) (fun _ _ => Iff.rfl) h.carries).steady_full hf,
    fun h => (C.carries_back (supplied' := fun _ => False) (fun _ _ => Iff.rfl) h.carries).steady_full (full_area hg hw hf)⟩

end

/-- The layout of a balancer found by `belt_balancer_net_free`, as it is printed: exactly the inputs bring items to a splitter, exactly the outputs take them away, and the
outputs carry the mean of the inputs. -/
theorem free_even {width height size : Nat} {ugLen : Option Nat} {aligned : Bool} {layout : Option (List (List Tile))} {g : Grid} {cs : Cnf}
    {s : Nat} (hw : 2 ≤ width) (hh : 0 < height) (hn : 2 ≤ size) (hL : ∀ l, ugLen = some l → 1 ≤ l)
    (h : freeProgram width height ugLen size size aligned layout = .ok (g, cs, s)) {T : Nat × Nat → Tile}
    (hT : ShareBalancer g T size (Nat.lcm (2 ^ Nat.clog 2 size) size) aligned) :
    let a := layoutArr g T
    SoundLayout a.In a.nb a.board ∧ ∃ i j, (∀ q, BringsIn a.nb a.board q ↔ ∃ k < size, q = toPlane (0, i + k)) ∧
      (∀ q, TakesOut a.nb a.board q ↔ ∃ k < size, q = toPlane (width - 1, j + k)) ∧
      ∀ F, Steady a.In a.nb a.board (Connected a.nb a.board) F → ∀ k < size,
        F (toPlane (width - 1, j + k)) = (∑ k ∈ Finset.range size, F (toPlane (0, i + k))) / size := by
  intro a
  obtain ⟨cs0, e0, _⟩ := createNToN_eq (ugLen := ugLen) (show 0 < width by omega) hh (show 0 < size by omega)
  obtain ⟨hgd, _⟩ := freeProgram_grid e0 h
  obtain ⟨g', cs', s', h', hgw, hgh, _, hedge, hex⟩ := c84_exact (ugLen := ugLen) (show 0 < width by omega) hh (show 0 < size by omega) hL aligned
  obtain ⟨_, _, e⟩ := freeBalancer_grid h'
  rw [e0] at e
  simp only [Except.ok.injEq, Prod.mk.injEq] at e
  have hgg : g' = g := by rw [hgd]; exact e.1.symm
  subst hgg
  have hg : g'.WF := by rw [hgd]; exact mkGrid_wf (by omega) hh _ none _ (by intro n h; cases h) _ _
  have hnw : g'.NoWrap := by rw [hgd]; exact ⟨rfl, rfl⟩
  obtain ⟨v, hv, hd⟩ := (hex T).2 hT
  obtain ⟨i, j, b1, b2, h3, h4⟩ := c29_balances hL h' hv hd
  subst hgw hgh
  have hlay : FreeLayout g' T size size i j := ⟨hT.1, b1, b2⟩
  have hs : SoundLayout a.In a.nb a.board := sound_of_rules hg hnw hT.1
  have hst : ∀ F, Steady a.In a.nb a.board (Connected a.nb a.board) F ↔ Steady g'.In g'.nb T (Connected g'.nb T) fun p => F (toPlane p) :=
    fun F => steady_area hg hnw hT.2.1
  have hsz : (0 : ℚ) < size := by exact_mod_cast (show 0 < size by omega)
  -- the cells where items enter and leave
  have in0 : ∀ k < size, g'.In (0, i + k) ∧ T (0, i + k) = .belt .right .right := by
    intro k hk
    have h0 := b1.1
    have := b1.2 (i + k) (by omega)
    rw [if_pos (by omega)] at this
    exact ⟨⟨hg.w, by show i + k < _; omega⟩, this⟩
  have in1 : ∀ k < size, g'.In (g'.width - 1, j + k) ∧ T (g'.width - 1, j + k) = .belt .right .right := by
    intro k hk
    have h0 := b2.1
    have := b2.2 (j + k) (by omega)
    rw [if_pos (by omega)] at this
    exact ⟨⟨by show g'.width - 1 < _; omega, by show j + k < _; omega⟩, this⟩
  have ent : ∀ r, a.In r → EntersAt a.nb a.board r → ∃ k < size, r = toPlane (0, i + k) := by
    intro r hr he
    obtain ⟨p, hp, rfl⟩ := (inArea T r).1 hr
    obtain ⟨y, rfl, h5, h6⟩ := hlay.enters hg hedge hp ((enters_area hg hnw hp).1 he)
    exact ⟨y - i, by omega, by rw [show i + (y - i) = y by omega]⟩
  have lea : ∀ r, a.In r → LeavesAt a.nb a.board r → ∃ k < size, r = toPlane (g'.width - 1, j + k) := by
    intro r hr he
    obtain ⟨p, hp, rfl⟩ := (inArea T r).1 hr
    obtain ⟨d, h1, h2⟩ := ((copy_layout hg hnw T).leaves hp).1 he
    rcases hlay.edge hg hedge hp h2 with h5 | ⟨h5, y, h6, h7, _⟩ | ⟨_, y, rfl, _, h7, h8⟩
    · exact absurd h1 h5.1
    · rw [h7, h5] at h1
      cases h1
    · exact ⟨y - j, by omega, by rw [show j + (y - j) = y by omega]⟩
  have bal : ∀ F, Steady a.In a.nb a.board (Connected a.nb a.board) F → ∀ k < size,
      F (toPlane (g'.width - 1, j + k)) = (∑ k ∈ Finset.range size, F (toPlane (0, i + k))) / size :=
    fun F hF k hk => h3 _ ((hst F).1 hF) (j + k) (by omega) (by omega)
  -- no belt leads from an input to an output past all splitters
  have apart : ∀ k < size, ∀ l < size, (∀ F, Steady a.In a.nb a.board (Connected a.nb a.board) F →
      F (toPlane (g'.width - 1, l + j)) = F (toPlane (0, i + k))) → False := by
    intro k hk l hl hall
    obtain ⟨G, hG, hG'⟩ := h4 fun m => if m = k then 1 else 0
    have hF := (hst fun r => G (r.1.toNat, r.2.toNat)).2 (by simpa [toPlane] using hG)
    have e1 := hall _ hF
    have e2 := bal _ hF l hl
    rw [Nat.add_comm j l, e1] at e2
    simp only [toPlane, Int.toNat_natCast] at e2
    rw [hG' k hk, if_pos rfl, Finset.sum_congr rfl fun m hm => hG' m (Finset.mem_range.1 hm), Finset.sum_ite_eq', if_pos (Finset.mem_range.2 hk)] at e2
    have : (size : ℚ) = 1 := by field_simp at e2; exact e2
    have : size = 1 := by exact_mod_cast this
    omega
  refine ⟨hs, i, j, fun q => ⟨fun hq => ent q ?_ hq.2.1, ?_⟩, fun q => ⟨fun hq => lea q (takesOut_in hq) hq.2.1, ?_⟩, bal⟩
  · obtain ⟨d, hd, _⟩ := hq.2.1
    exact inside_of_board (Takes.ne_empty hd)
  · rintro ⟨k, hk, rfl⟩
    obtain ⟨hi, ht⟩ := in0 k hk
    have hns : ¬ (a.board (toPlane (0, i + k))).IsSplitter := by
      rw [layout_board T hi, ht]
      rintro ⟨d, b, h⟩
      cases h
    have hent : EntersAt a.nb a.board (toPlane (0, i + k)) :=
      (enters_area hg hnw hi).2 ⟨.right, by rw [ht]; exact rfl, (Grid.nb_none_iff hg hi .left).2 ⟨by simp [Grid.wraps, hedge, Dir.axis], rfl⟩⟩
    rcases enters_ends hs hns hent with h | ⟨q, _, hl, hF⟩
    · exact h
    · obtain ⟨l, hl', rfl⟩ := lea q (inside_of_board (by obtain ⟨d, h, _⟩ := hl; exact Emits.ne_empty h)) hl
      exact (apart k hk l hl' fun F h => by rw [Nat.add_comm l j]; exact hF F h).elim
  · rintro ⟨k, hk, rfl⟩
    obtain ⟨hi, ht⟩ := in1 k hk
    have hns : ¬ (a.board (toPlane (g'.width - 1, j + k))).IsSplitter := by
      rw [layout_board T hi, ht]
      rintro ⟨d, b, h⟩
      cases h
    have hlv : LeavesAt a.nb a.board (toPlane (g'.width - 1, j + k)) :=
      ((copy_layout hg hnw T).leaves hi).2 (hlay.leaves hg hedge (by omega) (by omega)).2
    rcases leaves_begins hs hns hlv with h | ⟨q, _, hl, hF⟩
    · exact h
    · obtain ⟨l, hl', rfl⟩ := ent q (inside_of_board (by obtain ⟨d, h, _⟩ := hl; exact Takes.ne_empty h)) hl
      exact (apart l hl' k hk fun F h => by rw [Nat.add_comm k j]; exact hF F h).elim

theorem full_free {width height size : Nat} {ugLen : Option Nat} {aligned : Bool} {layout : Option (List (List Tile))} {g : Grid} {cs : Cnf}
    {s : Nat} (hw : 2 ≤ width) (hh : 0 < height) (hn : 2 ≤ size)
    (h : freeProgram width height ugLen size size aligned layout = .ok (g, cs, s)) {T : Nat × Nat → Tile} {full : Nat}
    (hT : ShareBalancer g T size full aligned) :
    FullSplitters (layoutArr g T).In (layoutArr g T).board (Connected (layoutArr g T).nb (layoutArr g T).board) := by
  obtain ⟨cs0, e0, _⟩ := createNToN_eq (ugLen := ugLen) (show 0 < width by omega) hh (show 0 < size by omega)
  obtain ⟨hgd, _⟩ := freeProgram_grid e0 h
  have hg : g.WF := by rw [hgd]; exact mkGrid_wf (by omega) hh _ none _ (by intro n h; cases h) _ _
  have hnw : g.NoWrap := by rw [hgd]; exact ⟨rfl, rfl⟩
  exact full_area hg hnw hT.2.1

theorem width_free {width height size : Nat} {ugLen : Option Nat} {aligned : Bool} {layout : Option (List (List Tile))} {g : Grid} {cs : Cnf}
    {s : Nat} (hw : 2 ≤ width) (hh : 0 < height) (hn : 2 ≤ size)
    (h : freeProgram width height ugLen size size aligned layout = .ok (g, cs, s)) : g.width = width := by
  obtain ⟨cs0, e0, _⟩ := createNToN_eq (ugLen := ugLen) (show 0 < width by omega) hh (show 0 < size by omega)
  obtain ⟨hgd, _⟩ := freeProgram_grid e0 h
  rw [hgd]
  rfl

/-- The cells of a board with some property, where these are the cells of a column. -/
theorem columns_filter {a : Arr Tile} {Q : Int × Int → Prop} [DecidablePred Q] {f : Nat → Int × Int} {n : Nat} (hf : Function.Injective f)
    (hin : ∀ q, Q q → a.In q) (h : ∀ q, Q q ↔ ∃ k < n, q = f k) : (a.columns.filter fun p => decide (Q p)).Perm ((List.range n).map f) := by
  rw [List.perm_ext_iff_of_nodup ((columns_nodup a).filter _) (List.nodup_range.map hf)]
  intro q
  simp only [List.mem_filter, mem_columns, decide_eq_true_eq, List.mem_map, List.mem_range]
  constructor
  · rintro ⟨_, hq⟩
    obtain ⟨k, hk, rfl⟩ := (h q).1 hq
    exact ⟨k, hk, rfl⟩
  · rintro ⟨k, hk, rfl⟩
    have := (h (f k)).2 ⟨k, hk, rfl⟩
    exact ⟨hin _ this, this⟩

section
variable {width height size : Nat} {ugLen : Option Nat} {aligned : Bool} {layout : Option (List (List Tile))} {g : Grid} {cs : Cnf} {s : Nat}
  {ordP : List (Int × Int) → List (Int × Int)} (hP : ∀ l, (ordP l).Perm l) {ordT : List Colour → List Colour} (hT : SetOrder ordT)
include hP hT

/-- C117: the file that `network parse` writes for a layout of `belt_balancer_net_free` with at least two belts can be opened, and holds a network with as many inputs and outputs
that always divides what it gets evenly. -/
theorem c117_layout (hw : 2 ≤ width) (hh : 0 < height) (hn : 2 ≤ size) (hL : ∀ l, ugLen = some l → 1 ≤ l)
    (h : freeProgram width height ugLen size size aligned layout = .ok (g, cs, s)) {T : Nat × Nat → Tile}
    (hB : ShareBalancer g T size (Nat.lcm (2 ^ Nat.clog 2 size) size) aligned) {text line : List Char} {rest : List (List Char)}
    (hi : IsInput text (line :: rest)) (hl : SolutionLine line (layoutArr g T)) {file : List Char}
    (hf : networkParse ordP ordT false text = some (.ok file)) :
    ∃ m x y, openNetwork file = .ok m ∧ Ends m x size y size ∧ DividesEvenly m x size y size ∧ IsBalancer m x y := by
  classical
  obtain ⟨hs, i, j, h1, h2, h3⟩ := free_even hw hh hn hL h hB
  have hb : ∀ q, BringsIn (layoutArr g T).nb (layoutArr g T).board q → (layoutArr g T).In q := by
    intro q hq
    obtain ⟨d, hd, _⟩ := hq.2.1
    exact inside_of_board (Takes.ne_empty hd)
  have p1 := columns_filter (f := fun k => toPlane (0, i + k)) (fun k l e => by simpa [toPlane] using e) hb h1
  have p2 := columns_filter (f := fun k => toPlane (width - 1, j + k)) (fun k l e => by simpa [toPlane] using e) (fun q hq => takesOut_in hq) h2
  have c1 := p1.length_eq
  have c2 := p2.length_eq
  rw [List.length_map, List.length_range, ← List.countP_eq_length_filter] at c1 c2
  obtain ⟨m, x, y, k1, k2, k3⟩ := c115_file hP hT hi hl (sound_valid hs) hs ⟨_, (h1 _).2 ⟨0, by omega, rfl⟩⟩ ⟨_, (h2 _).2 ⟨0, by omega, rfl⟩⟩ hf
  have hd : DividesEvenly m x size y size := by
    intro flow I O hfl
    obtain ⟨F, hF, rfl, rfl⟩ := (k3 I O).1 ⟨flow, hfl⟩
    rw [Multiset.coe_card, List.length_map, ← List.countP_eq_length_filter, Multiset.coe_card, List.length_map, ← List.countP_eq_length_filter]
    refine ⟨c1, c2, fun z hz => ?_⟩
    obtain ⟨q, hq, rfl⟩ := List.mem_map.1 (Multiset.mem_coe.1 hz)
    obtain ⟨k, hk, rfl⟩ := (h2 q).1 (by simpa using (List.mem_filter.1 hq).2)
    rw [h3 F hF k hk, Multiset.sum_coe, (p1.map F).sum_eq, List.map_map]
    have hsz : (size : ℚ) ≠ 0 := by exact_mod_cast (show size ≠ 0 by omega)
    rw [div_mul_cancel₀ _ hsz]
    rfl
  refine ⟨m, x, y, k1, by rw [← c1, ← c2] at *; exact k2, hd, fun flow I O hfl u hu w hw => ?_⟩
  obtain ⟨_, _, h5⟩ := hd flow I O hfl
  have hsz : (size : ℚ) ≠ 0 := by exact_mod_cast (show size ≠ 0 by omega)
  exact mul_right_cancel₀ hsz ((h5 u hu).trans (h5 w hw).symm)

/-- C117: `belt_balancer_net_free | network parse`, for equally many inputs and outputs, at least two.  If there is a balancer, then one is printed.  A file is
written for it unless an underground belt begins in its top row; and what is written is a balancer. -/
theorem c117_program (hw : 2 ≤ width) (hh : 0 < height) (hn : 2 ≤ size) (hL : ∀ l, ugLen = some l → 1 ≤ l)
    (h : freeProgram width height ugLen size size aligned layout = .ok (g, cs, s)) {solver : Oracle} (hs : CorrectSolver solver)
    (hf : CompleteSolver solver) (fuel : Nat) :
    let Wanted := fun T => (ShareBalancer g T size (Nat.lcm (2 ^ Nat.clog 2 size) size) aligned ∧
      TidyFree g.In g.nb width height ugLen T (fun p d => (T p).Takes d) (fun p d => (T p).Emits d)) ∧
      ∀ rows, layout = some rows → Contains T rows
    let printed := freeRun width height ugLen size size aligned layout solver false fuel
    (printed.out = [] ∧ ¬ ∃ T, Wanted T) ∨
    ∃ T, Wanted T ∧
      ((∀ x < width, ∀ d, T (x, 0) ≠ .underground d true) → ∃ file, networkParse ordP ordT false printed.out = some (.ok file)) ∧
      ∀ file, networkParse ordP ordT false printed.out = some (.ok file) →
        ∃ m x y, openNetwork file = .ok m ∧ Ends m x size y size ∧ DividesEvenly m x size y size ∧ IsBalancer m x y := by
  intro Wanted printed
  rcases (c105_free hw hh (by omega) hL h hs hf).2 fuel with ⟨e, hno⟩ | ⟨l, T, e, hi, hp, hW⟩
  · exact .inl ⟨congrArg Run.out e, hno⟩
  · have eo : printed.out = textOf [l] := congrArg Run.out e
    rw [eo]
    refine .inr ⟨T, hW, fun hrow => ?_, fun file => c117_layout hP hT hw hh hn hL h hW.1.1 hi (c96_printed hp)⟩
    obtain ⟨hsound, _⟩ := free_even hw hh hn hL h hW.1.1
    have hfull := full_free hw hh hn h hW.1.1
    refine (c96_parse hP hT hi (c96_printed hp) (sound_valid hsound) hsound).2.2 ((c62_succeeds_partial hsound ?_ hP false).2 ?_)
    · intro r d hr h0
      obtain ⟨p, hp, rfl⟩ := layout_in (by rw [hr]; simp)
      rw [layout_board T hp] at hr
      have : p = (p.1, 0) := by
        have : (p.2 : Int) = 0 := h0
        ext
        · rfl
        · show p.2 = 0
          omega
      rw [this] at hr
      exact hrow p.1 (by rw [← width_free hw hh hn h]; exact hp.1) d hr
    · intro p d b q hd hq
      obtain ⟨⟨r, h1⟩, r', _, h2⟩ := hfull p d b (inside_of_board (by rw [hd]; simp)) hd
      rcases hq with hq | hq
      · have : r = q := Option.some.inj (h1.1.symm.trans hq)
        subst this
        exact Takes.ne_empty h1.2.2
      · have : q = r' := Option.some.inj (hq.symm.trans (nb_back (inside_of_board (Emits.ne_empty h2.2.1)) h2.1))
        subst this
        exact Emits.ne_empty h2.2.1

end

/-! ### A case -/

/-- Two inputs and two outputs: a layout is printed, and the network read from it divides evenly. -/
example : ∃ solver file m x y, networkParse id id false (freeRun 3 2 (some 4) 2 2 true (some pairRows) solver false 0).out = some (.ok file) ∧
    openNetwork file = .ok m ∧ Ends m x 2 y 2 ∧ DividesEvenly m x 2 y 2 ∧ IsBalancer m x y := by
  obtain ⟨g, cs, s, h, hv⟩ := program_found pairRows_sat
  obtain ⟨solver, hs, hf⟩ := exists_complete
  have h1 := (c105_free (by decide) (by decide) (by decide) (by intro l h; cases h; decide) h hs hf).2 0
  obtain ⟨l, hl⟩ : ∃ l, freeRun 3 2 (some 4) 2 2 true (some pairRows) solver false 0 = ⟨textOf [l], .finished⟩ := by
    unfold freeRun at h1 ⊢
    rw [h] at h1 ⊢
    obtain ⟨l, _, hl, _⟩ := program_nonempty hs hv h1
    exact ⟨l, hl⟩
  rcases c117_program (ordP := id) (fun _ => .refl _) (ordT := id) (fun _ => .refl _) (by decide) (by decide) (by decide)
    (by intro l h; cases h; decide) h hs hf 0 with ⟨e, _⟩ | ⟨T, hW, h2, h3⟩
  · rw [hl] at e
    simp [textOf] at e
  · obtain ⟨cs0, e0, _⟩ := createNToN_eq (ugLen := some 4) (show 0 < 3 by decide) (show 0 < 2 by decide) (show 0 < 2 by decide)
    obtain ⟨hgd, _⟩ := freeProgram_grid e0 h
    have hg : g.WF := by rw [hgd]; exact mkGrid_wf (by omega) (by decide) _ none _ (by intro n h; cases h) _ _
    have ew : g.width = 3 := by rw [hgd]; rfl
    have eh : g.height = 2 := by rw [hgd]; rfl
    obtain ⟨⟨hR, _, i, j, b1, b2, _⟩, _⟩ := hW.1
    obtain ⟨file, hfile⟩ := h2 fun x hx d he => by
      rw [ew, eh] at b2
      rw [eh] at b1
      have i0 := b1.1
      have j0 := b2.1
      have t0 := b1.2 0 (by omega)
      have t2 := b2.2 0 (by omega)
      rw [if_pos (by omega)] at t0 t2
      have t1 : T (1, 1) = .splitter .right true := hW.2 pairRows rfl 1 1 _ _ rfl rfl (by simp)
      obtain ⟨q, hq, hp⟩ := hR.splitters.head (1, 1) .right ⟨by show 1 < g.width; omega, by show 1 < g.height; omega⟩ t1
      have hq' : q = (1, 0) := by
        have h5 := hp.2.1
        rw [hgd] at h5
        exact (Option.some.inj h5).symm
      subst hq'
      have := hp.2.2
      rcases (show x = 0 ∨ x = 1 ∨ x = 2 by omega) with rfl | rfl | rfl
      · rw [t0] at he; cases he
      · rw [this] at he; cases he
      · rw [t2] at he; cases he
    obtain ⟨m, x, y, k⟩ := h3 file hfile
    exact ⟨solver, file, m, x, y, hfile, k⟩

end FSat
