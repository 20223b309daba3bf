import Verif.Lemmas.MakeBlockFull
/-!
# What `make_block` accepts, and which blocks it finds
-/

set_option linter.unusedSimpArgs false

namespace FSat

/-- The limit on undergrounds that ends up in the clauses. -/
def BlockOptions.limit (o : BlockOptions) : Nat := if o.singleLoop then o.ugLen.toNat else if o.ugLen = 0 then 0 else 4

/-- Underground length of the grid. -/
def BlockOptions.gridLen (o : BlockOptions) : Nat := if o.singleLoop then o.ugLen.toNat else 4

section
variable {o : BlockOptions}

theorem block_grid (hw : 0 < o.width) (hh : 0 < o.height) : o.grid.WF ∧ o.grid.width = o.width ∧ o.grid.height = o.height ∧
    o.grid.edge = ⟨o.tile, o.tile⟩ ∧ o.grid.ugLen = some o.gridLen ∧ (o.singleLoop = true → o.grid.colours = some (o.width * o.height)) := by
  unfold BlockOptions.grid BlockOptions.gridLen
  cases o.singleLoop with
  | true => exact ⟨mkGrid_wf hw hh _ _ _ (by rintro n ⟨⟩; exact Nat.mul_pos hw hh) _ _, rfl, rfl, rfl, rfl, fun _ => rfl⟩
  | false => exact ⟨mkGrid_wf hw hh _ _ _ (by rintro n ⟨⟩; decide) _ _, rfl, rfl, rfl, rfl, fun h => by cases h⟩

theorem block_limit : blockLimit o o.gridLen = o.limit := by
  unfold blockLimit BlockOptions.gridLen BlockOptions.limit
  split
  · rename_i h
    rw [h]
    split <;> rfl
  · rfl

theorem block_len (hL : 0 ≤ o.ugLen) : o.ugLen = 0 ∨ 0 < o.gridLen := by
  unfold BlockOptions.gridLen
  split <;> omega

theorem makeBlock_ok {g : Grid} {cs : Cnf} (h : makeBlock o = .ok (g, cs)) :
    g = o.grid ∧ blockClauses o o.grid = .ok cs ∧ 0 < o.width ∧ 0 < o.height ∧ 0 ≤ o.ugLen ∧ ¬ (o.allowEmpty ∧ o.singleLoop) := by
  unfold makeBlock at h
  split at h
  · cases h
  split at h
  · cases h
  split at h
  · rename_i h1 h2 h3
    cases hb : blockClauses o o.grid with
    | error e => rw [hb] at h; cases h
    | ok cs' => rw [hb] at h; cases h; exact ⟨rfl, rfl, h3.1, h3.2, by omega, h1⟩
  · cases h

/-- The steps that make the program fail. -/
theorem joinE_error {l : List (Except PyErr Cnf)} {e : PyErr} {a : List (Except PyErr Cnf)} {x : Except PyErr Cnf} {b : List (Except PyErr Cnf)}
    (hl : l = a ++ x :: b) (ha : ∀ y ∈ a, ∃ c, y = .ok c) (hx : x = .error e) : joinE l = .error e := by
  subst hl
  induction a with
  | nil => subst hx; rfl
  | cons y a ih =>
    obtain ⟨c, hc⟩ := ha y (by simp)
    subst hc
    have := ih fun z hz => ha z (by simp [hz])
    unfold joinE at this ⊢
    simp only [List.cons_append, concatE, id, this]

theorem concatE_error {α : Type} {f : α → Except PyErr Cnf} {e : PyErr} {as : List α} (hor : ∀ a ∈ as, (∃ c, f a = .ok c) ∨ f a = .error e)
    (hex : ∃ a ∈ as, f a = .error e) : concatE f as = .error e := by
  induction as with
  | nil => obtain ⟨a, ha, _⟩ := hex; cases ha
  | cons b as ih =>
    rcases hor b (by simp) with ⟨c, hc⟩ | hb
    · have := ih (fun a ha => hor a (by simp [ha])) (by
        obtain ⟨a, ha, he⟩ := hex
        rcases List.mem_cons.1 ha with rfl | ha
        · rw [hc] at he; cases he
        · exact ⟨a, ha, he⟩)
      simp only [concatE, hc, this]
    · simp only [concatE, hb]

theorem preventParallel_cases {g : Grid} (hg : g.WF) :
    (preventParallel g = .error .typeError ↔ (2 ≤ g.width ∨ g.edge.wrapX = true) ∨ (2 ≤ g.height ∨ g.edge.wrapY = true)) ∧
    (preventParallel g = .ok [] ↔ ¬ ((2 ≤ g.width ∨ g.edge.wrapX = true) ∨ (2 ≤ g.height ∨ g.edge.wrapY = true))) := by
  have hw := hg.w
  have hh := hg.h
  have hin : ∀ p d, (∃ c, (match g.nb p (Dir.next d) with
      | none => (.ok [] : Except PyErr Cnf)
      | some _ => .error .typeError) = .ok c) ∨ (match g.nb p (Dir.next d) with
      | none => (.ok [] : Except PyErr Cnf)
      | some _ => .error .typeError) = .error .typeError := by
    intro p d
    cases g.nb p d.next with
    | none => exact .inl ⟨_, rfl⟩
    | some q => exact .inr rfl
  by_cases hc : (2 ≤ g.width ∨ g.edge.wrapX = true) ∨ (2 ≤ g.height ∨ g.edge.wrapY = true)
  · have herr : preventParallel g = .error .typeError := by
      have hex : ∃ p d, g.In p ∧ (d = Dir.right ∨ d = .up) ∧ g.nb p d.next ≠ none := by
        refine ⟨(g.width - 1, g.height - 1), ?_⟩
        have hlast : g.In (g.width - 1, g.height - 1) := ⟨by simp only; omega, by simp only; omega⟩
        rcases hc with hx | hy
        · refine ⟨.up, hlast, .inr rfl, fun h => ?_⟩
          obtain ⟨h1, h2⟩ := (Grid.nb_none_iff hg hlast _).1 h
          have h1 : g.edge.wrapX = false := h1
          have h2 : g.width - 1 = 0 := h2
          rcases hx with hx | hx
          · omega
          · rw [h1] at hx; cases hx
        · refine ⟨.right, hlast, .inl rfl, fun h => ?_⟩
          obtain ⟨h1, h2⟩ := (Grid.nb_none_iff hg hlast _).1 h
          have h1 : g.edge.wrapY = false := h1
          have h2 : g.height - 1 = 0 := h2
          rcases hy with hy | hy
          · omega
          · rw [h1] at hy; cases hy
      obtain ⟨p, d, hp, hd, hn⟩ := hex
      have hone : ∀ q, (∃ c, concatE (fun d : Dir => match g.nb q d.next with
          | none => (.ok [] : Except PyErr Cnf)
          | some _ => .error .typeError) [.right, .up] = .ok c) ∨ concatE (fun d : Dir => match g.nb q d.next with
          | none => (.ok [] : Except PyErr Cnf)
          | some _ => .error .typeError) [.right, .up] = .error .typeError := by
        intro q
        by_cases hall : ∀ d ∈ [Dir.right, .up], ∃ c, (match g.nb q (Dir.next d) with
            | none => (.ok [] : Except PyErr Cnf)
            | some _ => .error .typeError) = .ok c
        · exact .inl (concatE_total hall)
        · push Not at hall
          obtain ⟨d, hd, hne⟩ := hall
          exact .inr (concatE_error (fun d _ => hin q d) ⟨d, hd, (hin q d).resolve_left fun ⟨c, h⟩ => hne c h⟩)
      refine concatE_error (fun q _ => hone q) ⟨p, (g.mem_cells p).2 hp, concatE_error (fun d _ => hin p d) ⟨d, ?_, ?_⟩⟩
      · rcases hd with rfl | rfl <;> simp
      · cases hn' : g.nb p d.next with
        | none => exact absurd hn' hn
        | some q => rfl
    simp only [herr, hc, not_true_eq_false, iff_true, iff_false]
    exact ⟨trivial, fun h => by cases h⟩
  · have hnone : ∀ p ∈ g.cells, ∀ d : Dir, g.nb p d = none := by
      intro p hp d
      have hp' := (g.mem_cells p).1 hp
      have := hp'.1
      have := hp'.2
      push Not at hc
      obtain ⟨⟨h1, h2⟩, h3, h4⟩ := hc
      rw [Grid.nb_none_iff hg hp']
      cases d
      · exact ⟨Bool.eq_false_iff.2 h2, by show p.1 = _; omega⟩
      · exact ⟨Bool.eq_false_iff.2 h4, by show p.2 = _; omega⟩
      · exact ⟨Bool.eq_false_iff.2 h2, by show p.1 = _; omega⟩
      · exact ⟨Bool.eq_false_iff.2 h4, by show p.2 = _; omega⟩
    have hok : preventParallel g = .ok [] := by
      unfold preventParallel
      have : ∀ as : List (Nat × Nat), (∀ p ∈ as, p ∈ g.cells) → concatE (fun p => concatE (fun d : Dir =>
          match g.nb p d.next with
          | none => (.ok [] : Except PyErr Cnf)
          | some _ => .error .typeError) [.right, .up]) as = .ok [] := by
        intro as
        induction as with
        | nil => intro _; rfl
        | cons p as ih =>
          intro h
          have h1 := hnone p (h p (by simp))
          rw [concatE, ih fun q hq => h q (by simp [hq])]
          simp only [concatE, h1]
          rfl
      exact this _ fun p hp => hp
    simp only [hok, hc, not_false_eq_true, iff_true, iff_false]
    exact ⟨(fun h => by cases h), trivial⟩

/-- With `--single-loop` every step that is taken has a number to count with. -/
theorem block_bits (hw : 0 < o.width) (hh : 0 < o.height) (hs : o.singleLoop = true) (hsize : 2 ≤ o.width * o.height) : 0 < o.grid.bits := by
  obtain ⟨_, _, _, _, _, hc⟩ := block_grid hw hh
  unfold Grid.bits
  rw [hc hs, Option.getD_some]
  by_contra hn
  have : (o.width * o.height - 1).size ≤ 0 := by omega
  rw [Nat.size_le] at this
  omega

theorem block_flat (hw : 0 < o.width) (hh : 0 < o.height) (hsize : ¬ 2 ≤ o.width * o.height) (ht : o.tile = false) (p : Nat × Nat) (d : Dir)
    (hp : o.grid.In p) : o.grid.nb p d = none := by
  obtain ⟨hg, hw', hh', he, _⟩ := block_grid hw hh
  have hw1 : o.width = 1 := by
    by_contra h
    have : 2 * 1 ≤ o.width * o.height := Nat.mul_le_mul (by omega) (by omega)
    omega
  have hh1 : o.height = 1 := by
    by_contra h
    have : 1 * 2 ≤ o.width * o.height := Nat.mul_le_mul (by omega) (by omega)
    omega
  have h1 := hp.1
  have h2 := hp.2
  rw [hw', hw1] at h1
  rw [hh', hh1] at h2
  rw [Grid.nb_none_iff hg hp]
  unfold Grid.wraps
  rw [he, ht]
  refine ⟨by split <;> rfl, ?_⟩
  cases d <;> simp only [Grid.OnEdge] <;> omega

/-- The options the solver is started with. -/
structure BlockOptions.Usable (o : BlockOptions) : Prop where
  width : 0 < o.width
  height : 0 < o.height
  len : 0 ≤ o.ugLen
  empty : ¬ (o.allowEmpty = true ∧ o.singleLoop = true)
  parallel : o.noParallel = false
  size : o.singleLoop = true → o.tile = true → 2 ≤ o.width * o.height

theorem makeBlock_means (h : o.Usable) : ∃ cs, makeBlock o = .ok (o.grid, cs) ∧ ∀ v, Sat v cs ↔ BlockSem o o.grid (o.grid.vals v) ∧
    Sat v (preventSmallLoops o.grid) ∧ (0 < o.gridLen → Sat v (preventEmptyAlongUnderground o.grid)) := by
  obtain ⟨hg, hw', hh', he, hl, hc⟩ := block_grid h.width h.height
  obtain ⟨cs, h1, h2⟩ := block_means hg h.parallel hl (fun hs p d q hp hq => by
    by_cases hsize : 2 ≤ o.width * o.height
    · exact block_bits h.width h.height hs hsize
    · cases ht : o.tile with
      | true => exact absurd (h.size hs ht) hsize
      | false =>
        rw [block_flat h.width h.height hsize ht p d hp] at hq
        cases hq)
  refine ⟨cs, ?_, h2⟩
  unfold makeBlock
  rw [if_neg h.empty, if_neg (by have := h.len; omega), if_pos ⟨h.width, h.height⟩]
  simp only [h1]

/-- When the program starts the solver it had usable options, except that `--no-parallel` is harmless for a block of one cell. -/
theorem makeBlock_usable {g : Grid} {cs : Cnf} (h : makeBlock o = .ok (g, cs)) :
    ∃ o' : BlockOptions, o'.Usable ∧ makeBlock o' = .ok (g, cs) ∧ o' = { o with noParallel := false } := by
  obtain ⟨hg', hb, hw, hh, hL, hne⟩ := makeBlock_ok h
  obtain ⟨hg, hw', hh', he, hl, hc⟩ := block_grid hw hh
  have hgrid : ({ o with noParallel := false } : BlockOptions).grid = o.grid := rfl
  have hsize : o.singleLoop = true → o.tile = true → 2 ≤ o.width * o.height := by
    intro hs ht
    by_contra hsmall
    have hbits : o.grid.bits = 0 := by
      unfold Grid.bits
      rw [hc hs, Option.getD_some, show o.width * o.height - 1 = 0 by omega]
      rfl
    have hlast : o.grid.In (0, 0) := ⟨hg.w, hg.h⟩
    obtain ⟨q, hq⟩ : ∃ q, o.grid.nb (0, 0) .right = some q := by
      cases hn : o.grid.nb (0, 0) .right with
      | some q => exact ⟨q, rfl⟩
      | none =>
        have := ((Grid.nb_none_iff hg hlast _).1 hn).1
        have : o.grid.edge.wrapX = false := this
        rw [he, ht] at this
        cases this
    have hinc : ∀ a b : List Lit, a.length = 0 → incrementNumber a b = .error .assertion := by
      intro a b ha
      unfold incrementNumber
      rw [if_neg (by omega)]
    have hbad : ∀ c, loopDir o.grid (0, 0) .right ≠ .ok c := by
      intro c hcon
      unfold loopDir at hcon
      simp only [hq] at hcon
      obtain ⟨c', hc'⟩ := concatE_ok hcon (impliesE ((o.grid.at' (0, 0)).inp Dir.right :: invertComponents (dirs (o.grid.at' (0, 0)).out))
        (incrementNumber (o.grid.at' (0, 0)).colour ((o.grid.at' q).colourU Dir.right))) (by simp)
      rw [id, hinc _ _ (by rw [hg.c, hbits])] at hc'
      cases hc'
    unfold blockClauses at hb
    obtain ⟨c1, h1⟩ := concatE_ok hb (if o.singleLoop then ensureLoopLength o.grid else .ok []) (by simp)
    rw [hs, if_pos rfl] at h1
    obtain ⟨c2, h2⟩ := concatE_ok h1 (0, 0) ((o.grid.mem_cells _).2 hlast)
    obtain ⟨c3, h3⟩ := concatE_ok h2 (concatE (loopDir o.grid (0, 0)) Dir.all) (by simp)
    obtain ⟨c4, h4⟩ := concatE_ok h3 .right (by simp [Dir.all])
    exact hbad c4 h4
  have hus : ({ o with noParallel := false } : BlockOptions).Usable := ⟨hw, hh, hL, hne, rfl, hsize⟩
  refine ⟨_, hus, ?_, rfl⟩
  cases hp : o.noParallel with
  | false =>
    have : ({ o with noParallel := false } : BlockOptions) = o := by cases o; cases hp; rfl
    rw [this]; exact h
  | true =>
    obtain ⟨cs', h1, _⟩ := makeBlock_means hus
    have hb' := (makeBlock_ok h1).2.1
    rw [h1, hg']
    rw [hgrid] at hb' ⊢
    suffices cs' = cs by rw [this]
    obtain ⟨c, hpar⟩ := concatE_ok hb (if o.noParallel then preventParallel o.grid else .ok []) (by simp)
    rw [hp] at hpar
    have hpar' : preventParallel o.grid = .ok [] := by
      have := preventParallel_cases hg
      by_cases hcase : (2 ≤ o.grid.width ∨ o.grid.edge.wrapX = true) ∨ (2 ≤ o.grid.height ∨ o.grid.edge.wrapY = true)
      · rw [if_pos rfl, this.1.2 hcase] at hpar; cases hpar
      · exact this.2.2 hcase
    have : blockClauses o o.grid = blockClauses { o with noParallel := false } o.grid := by
      unfold blockClauses
      rw [hp, if_pos rfl, hpar']
      rfl
    rw [this, hb'] at hb
    cases hb; rfl

/-! ### Which blocks are found -/

theorem LoopSem.congr {g : Grid} (hg : g.WF) {C C' : Nat × Nat → CellVal} (h : ∀ p, g.In p → C' p = C p) (hs : LoopSem g C) :
    LoopSem g C' := by
  refine ⟨by rw [h _ ⟨hg.w, hg.h⟩]; exact hs.start, fun p hp => by rw [h p hp]; exact hs.other p hp, fun p q d hp hq => ?_⟩
  have := hs.step p q d hp hq
  have e1 := h p hp
  have e2 := h q (Grid.nb_in hg hq)
  exact ⟨by rw [e1]; exact this.back, by rw [e1, e2]; exact this.forth, by rw [e1, e2]; exact this.enter, by rw [e1, e2]; exact this.exit,
    by rw [e1, e2]; exact this.under⟩

theorem BlockSem.congr {g : Grid} (hg : g.WF) {C C' : Nat × Nat → CellVal} (h : ∀ p, g.In p → C' p = C p) (hs : BlockSem o g C) :
    BlockSem o g C' :=
  ⟨hs.init.congr hg h, hs.inter.congr hg h, hs.under.congr hg h, hs.belt.congr h, hs.ug.congr h, fun hl => (hs.len hl).congr hg h,
    fun hl => (hs.loop hl).congr hg h, fun he p hp => by rw [h p hp]; exact hs.noEmpty he p hp,
    fun hu p d hp => by rw [h p hp]; exact hs.noUg hu p d hp, fun p hp => by rw [h p hp]; exact hs.noSplit p hp⟩

theorem block_lays {v : Asg} {T : Nat × Nat → Tile} {cs : Cnf} (h : makeBlock o = .ok (o.grid, cs)) (hv : Sat v cs) (hw : 0 < o.width)
    (hh : 0 < o.height) (hT : Decodes o.grid v T) : Lays o.grid (o.grid.vals v) T := by
  obtain ⟨hg, _⟩ := block_grid hw hh
  obtain ⟨ci, hi1, hi2⟩ := init_iff hg
  have hb := (makeBlock_ok h).2.1
  unfold blockClauses at hb
  obtain ⟨c, hc1, hc2⟩ := concatE_sat hb hv (initClauses o.grid) (by simp)
  rw [id, hi1] at hc1
  cases hc1
  exact lays_of_decodes ((hi2 v).1 hc2) hT

/-- The blocks that are found, with or without `--single-loop`. -/
theorem block_exact (h : o.Usable) : ∃ cs, makeBlock o = .ok (o.grid, cs) ∧ ∀ T, (∃ v, Sat v cs ∧ Decodes o.grid v T) ↔
    BlockRules o.width o.height o.grid.In o.grid.nb T (o.grid.shut (.ofBool !o.tile)) o.allowEmpty o.limit ∧
    (o.singleLoop = true → SingleLoop o.grid.In (Follows o.grid.nb T) (0, 0) (o.width * o.height) ∧ LoopEntry o.grid T) := by
  obtain ⟨cs, hcs, hsat⟩ := makeBlock_means h
  obtain ⟨hg, hw', hh', he, hl, hc⟩ := block_grid h.width h.height
  refine ⟨cs, hcs, fun T => ⟨?_, ?_⟩⟩
  · rintro ⟨v, hv, hT⟩
    have hT := block_lays hcs hv h.width h.height hT
    obtain ⟨h1, h2, h3⟩ := (hsat v).1 hv
    have hr := block_rules hg he hl (block_len h.len) hT h1 h2 h3
    refine ⟨by rw [block_limit, hw', hh'] at hr; exact hr, fun hs => ?_⟩
    have hN : o.grid.colours = some (o.grid.width * o.grid.height) := by rw [hc hs, hw', hh']
    have hae : o.allowEmpty = false := by
      have := h.empty
      rw [hs] at this
      simpa using this
    have hloop := block_loop hg he hT h1 hr hae hs
    refine ⟨by rw [hw', hh'] at hloop; exact hloop, block_entry hg hN hT h1 hs hloop⟩
  · rintro ⟨hr, hloop⟩
    rw [← block_limit, ← hw', ← hh'] at hr
    have hfree : ∀ col col' : Nat × Nat → Nat, ∃ v, ∀ p, o.grid.In p → o.grid.vals v p = realiseLoop o.grid T col col' p := by
      intro col col'
      have : ∃ (n : Option Nat) (l : Option Nat), o.grid = mkGrid o.width o.height ⟨o.tile, o.tile⟩ n l .nil 0 := by
        unfold BlockOptions.grid
        split
        · exact ⟨_, _, rfl⟩
        · exact ⟨_, _, rfl⟩
      obtain ⟨n, l, hgd⟩ := this
      rw [hgd]
      obtain ⟨v, _, hv⟩ := mkGrid_free o.width o.height ⟨o.tile, o.tile⟩ n l .nil 0 (fun _ => false)
        (realiseLoop (mkGrid o.width o.height ⟨o.tile, o.tile⟩ n l .nil 0) T col col')
        (fun _ => List.replicate TFields.nil.variableCount false)
        (fun p => by simp [realiseLoop, realise, drawCell, Grid.bits]; rfl) (fun p => by simp [realiseLoop, realise, drawCell, Grid.bits]; rfl)
        (fun p => by simp [realiseLoop, realise, drawCell, Grid.bits]; rfl) (fun p => by simp)
      exact ⟨v, fun p hp => (hv p hp).1⟩
    have hfin : ∀ (col col' : Nat × Nat → Nat), (∀ p, o.grid.In p → col p < o.grid.colours.getD 1) →
        (∀ p, o.grid.In p → col' p < o.grid.colours.getD 1) → (o.singleLoop = true → LoopSem o.grid (realiseLoop o.grid T col col')) →
        ∃ v, Sat v cs ∧ Decodes o.grid v T := by
      intro col col' h1 h2 h3
      obtain ⟨v, hvals⟩ := hfree col col'
      have hsem : BlockSem o o.grid (o.grid.vals v) := (realiseLoop_sem hg hl hr h1 h2 h3).congr hg hvals
      have hlays : Lays o.grid (o.grid.vals v) T := by
        intro p hp
        rw [hvals p hp]
        exact realise_lays (col := col) hg hr.basic.basic hr.basic.joined hr.basic.ends p hp
      have hbase : Base o.grid v T := ⟨hg, hlays, hsem.inter, hsem.under, hsem.init.splitter⟩
      exact ⟨v, (hsat v).2 ⟨hsem, (Sat_smallLoops hbase).2 hr.noSmallLoop, fun _ => (Sat_emptySpans hbase).2 fun p q d k hp _ => hr.noSpan p q d k hp⟩,
        decodes_of_lays hlays⟩
    cases hs : o.singleLoop with
    | false =>
      have h1 : ∀ p, o.grid.In p → (fun _ : Nat × Nat => 0) p < o.grid.colours.getD 1 := by
        intro p _
        have : o.grid.colours = some 1 := by
          unfold BlockOptions.grid
          rw [hs]
          rfl
        rw [this]
        exact Nat.one_pos
      exact hfin _ _ h1 h1 fun h => by rw [hs] at h; cases h
    | true =>
      obtain ⟨hloop, hent⟩ := hloop hs
      rw [← hw', ← hh'] at hloop
      have hN : o.grid.colours = some (o.grid.width * o.grid.height) := by rw [hc hs, hw', hh']
      have hpos : 0 < o.grid.width * o.grid.height := Nat.mul_pos hg.w hg.h
      obtain ⟨col, h1, h2, h3, h4⟩ := hloop.numbers hpos
      refine hfin col (fun p => (col p + 1) % (o.grid.width * o.grid.height)) (by rw [hN]; exact h1)
        (by rw [hN]; exact fun p _ => Nat.mod_lt _ hpos) fun _ => realiseLoop_loop hg hN hr hent h1 h2 h3 h4

/-- Without `--tile` the loop comes back to the first cell over the surface from within the block. -/
theorem flat_entry (h : o.Usable) (ht : o.tile = false) {T : Nat × Nat → Tile} {ae : Bool} {L : Nat}
    (hr : BlockRules o.width o.height o.grid.In o.grid.nb T (o.grid.shut (.ofBool !o.tile)) ae L)
    (hloop : SingleLoop o.grid.In (Follows o.grid.nb T) (0, 0) (o.width * o.height)) : LoopEntry o.grid T := by
  obtain ⟨hg, hw', hh', he, hl, hc⟩ := block_grid h.width h.height
  obtain ⟨f, h0, h1, h2, h3, h4⟩ := hloop.tour
  have hpos : 0 < o.width * o.height := Nat.mul_pos h.width h.height
  have hlast := h2 (o.width * o.height - 1)
  rw [Nat.sub_add_cancel hpos, h1] at hlast
  have hdir : ∀ (p : Nat × Nat) d, o.grid.nb p d = some (0, 0) → DirectEntry p d := by
    intro p d hq
    rw [Grid.nb, Grid.offset_iff hg, he, ht] at hq
    obtain ⟨⟨_, a⟩, _, b⟩ := hq
    simp only [Bool.false_eq_true, if_false] at a b
    exact ⟨a, b⟩
  rcases hlast with ⟨d, hcon⟩ | ⟨d, k, hpair⟩
  · exact .inr ⟨_, d, h3 _, hcon, hdir _ _ hcon.1⟩
  · exfalso
    obtain ⟨hk, hwalk, _, hex, _⟩ := hpair
    obtain ⟨k, rfl⟩ : ∃ k', k = k' + 1 := ⟨k - 1, by omega⟩
    rw [walk] at hwalk
    cases hr' : walk o.grid.nb (f (o.width * o.height - 1)) d k with
    | none => rw [hr'] at hwalk; cases hwalk
    | some r =>
      rw [hr'] at hwalk
      obtain ⟨e1, e2⟩ := hdir r d hwalk
      have hz : o.grid.In (0, 0) := ⟨hg.w, hg.h⟩
      have hemit : (T (0, 0)).Emits d := by rw [hex]; simp [Tile.Emits]
      have hshut : ∀ d, o.grid.OnEdge (0, 0) d → o.grid.shut (.ofBool !o.tile) (0, 0) d := by
        intro d hd
        refine ⟨?_, hd⟩
        rw [ht]
        cases d <;> rfl
      cases d with
      | right => simp only [Dir.dx, Dir.dy] at e1 e2; omega
      | down => simp only [Dir.dx, Dir.dy] at e1 e2; omega
      | left => exact (hr.basic.surface _ _ hz (hshut .left rfl)).1 hemit
      | up => exact (hr.basic.surface _ _ hz (hshut .up rfl)).1 hemit

end

end FSat
