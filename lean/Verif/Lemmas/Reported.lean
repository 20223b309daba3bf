import Verif.Spec.Reported
import Verif.Lemmas.NetworkFlow
import Verif.Lemmas.NetworkTotal
import Verif.Lemmas.FillSpan
import Verif.Lemmas.SolveBalancer
import Verif.Props.ProgramPasted
/-!
# Flows on layouts that implement a network
-/

namespace FSat

section
variable {g : Grid} {T : Nat × Nat → Tile} {F : Flow (Nat × Nat)} {n : Network} {lab : Nat × Nat → Option Node}
  {shutB shutU : Nat × Nat → Dir → Prop} {L : Option Nat}

theorem comesIn_iff {P : Type} {nb : P → Dir → Option P} {F : Flow P} (p : P) : F.comesIn nb p = true ↔ EntryAt nb F p := by
  unfold Flow.comesIn EntryAt
  simp only [List.any_eq_true, Bool.and_eq_true, Option.isNone_iff_eq_none]
  exact ⟨fun ⟨d, _, h⟩ => ⟨d, h⟩, fun ⟨d, h⟩ => ⟨d, by cases d <;> simp, h⟩⟩

theorem goesOut_iff {P : Type} {nb : P → Dir → Option P} {F : Flow P} (p : P) : F.goesOut nb p = true ↔ ExitAt nb F p := by
  unfold Flow.goesOut ExitAt
  simp only [List.any_eq_true, Bool.and_eq_true, Option.isNone_iff_eq_none]
  exact ⟨fun ⟨d, _, h⟩ => ⟨d, h⟩, fun ⟨d, h⟩ => ⟨d, by cases d <;> simp, h⟩⟩

/-- Both halves of a splitter have the connections of its node. -/
theorem half_node (hR : PairedSplitters g.In g.nb T) (hI : Realises g.nb T F g.cells n lab) {p : Nat × Nat} {d : Dir} {h : Bool}
    (hp : g.In p) (hT : T p = .splitter d h) :
    ∃ k ∈ n, (∃ q, g.nb p d = some q) ∧ (k.1.1 ≠ none ∧ k.1.2 ≠ none → F.inp p d = true) ∧ (k.2.1 ≠ none ∧ k.2.2 ≠ none → F.out p d = true) := by
  have key : ∀ r q, g.In r → SplitterPair g.nb T r q d → ∃ k ∈ n, ((∃ s, g.nb r d = some s) ∧ ∃ s, g.nb q d = some s) ∧
      (k.1.1 ≠ none ∧ k.1.2 ≠ none → F.inp r d = true ∧ F.inp q d = true) ∧ (k.2.1 ≠ none ∧ k.2.2 ≠ none → F.out r d = true ∧ F.out q d = true) := by
    intro r q hr hpr
    have hm := (g.mem_cells r).2 hr
    obtain ⟨k, hk⟩ := (hI.heads r hm).2 ⟨d, hpr.1⟩
    have hkn : k ∈ n := by
      rw [← List.count_pos_iff, ← hI.used, List.countP_pos_iff]
      exact ⟨r, hm, by simpa using hk⟩
    obtain ⟨q', r2, q2, hpr', h1, h2, h3, h4⟩ := hI.wired r hm k d hk hpr.1
    have := hpr.2.1.symm.trans hpr'.2.1
    cases this
    have side : ∀ (u v : Bool) (x y : Nat) (s : Colour × Colour), SameSide (colourIf u x, colourIf v y) s → s.1 ≠ none ∧ s.2 ≠ none →
        u = true ∧ v = true := by
      rintro u v x y ⟨s1, s2⟩ hs ⟨n1, n2⟩
      unfold SameSide colourIf at hs
      cases u <;> cases v <;> simp_all
      all_goals rcases hs with ⟨rfl, rfl⟩ | ⟨rfl, rfl⟩ <;> simp_all
    exact ⟨k, hkn, ⟨⟨_, h1⟩, _, h2⟩, side _ _ _ _ _ h3, side _ _ _ _ _ h4⟩
  cases h with
  | true =>
    obtain ⟨q, hq, hpr⟩ := hR.head p d hp hT
    obtain ⟨k, h1, h2, h3, h4⟩ := key p q hp hpr
    exact ⟨k, h1, h2.1, fun h => (h3 h).1, fun h => (h4 h).1⟩
  | false =>
    obtain ⟨q, hq, hpr⟩ := hR.tail p d hp hT
    obtain ⟨k, h1, h2, h3, h4⟩ := key q p hq hpr
    exact ⟨k, h1, h2.2, fun h => (h3 h).2, fun h => (h4 h).2⟩

theorem tracks_of_layout (hg : g.WF) (hR : BasicRules g.In g.nb T shutB shutU L) (hI : Implements g.In g.nb T F g.cells n lab) :
    Tracks g.cells g.nb T F := by
  have mem := fun p => (g.mem_cells p)
  refine ⟨g.cells_nodup, fun p q d hp hq => ?_, fun p hp => hR.basic p ((mem p).1 hp), fun p hp d h => hI.fits.takes p d ((mem p).1 hp) h,
    fun p hp d h => hI.fits.emits p d ((mem p).1 hp) h, fun p hp hs d h => hI.fits.inp p d ((mem p).1 hp) hs h,
    fun p hp hs d h => hI.fits.out p d ((mem p).1 hp) hs h, fun p q d hp hq => hI.fits.same p q d ((mem p).1 hp) hq, fun p hp d ht => ?_,
    fun q hq d ht => ?_, fun p p' q d d' k k' hp hp' h h' => ?_,
    fun p q d hp ho hq hs => hI.surface p q d ((mem p).1 hp) hq (hI.fits.emits p d ((mem p).1 hp) ho) hs,
    fun p q d k hp h => hI.under p q d k ((mem p).1 hp) h, fun p d hp hs ho => ?_⟩
  · exact ⟨(mem q).2 (g.nb_in hg hq), g.nb_opp hg ((mem p).1 hp) hq⟩
  · obtain ⟨q, k, a, b⟩ := hR.undergrounds.entrance p d ((mem p).1 hp) ht
    exact ⟨q, k, (mem q).2 a, b⟩
  · obtain ⟨p, k, a, b⟩ := hR.undergrounds.exit q d ((mem q).1 hq) ht
    exact ⟨p, k, (mem p).2 a, b⟩
  · have e := h.2.2.2.1.symm.trans h'.2.2.2.1
    simp only [Tile.underground.injEq, and_true] at e
    subst e
    exact ((UgPair.back hg ((mem p).1 hp) h).unique (UgPair.back hg ((mem p').1 hp') h')).2
  · obtain ⟨e, b, ht⟩ := hs
    have := hI.fits.emits p d ((mem p).1 hp) ho
    rw [ht] at this
    cases (show e = d from this)
    obtain ⟨k, -, h, -⟩ := half_node hR.splitters hI.realises ((mem p).1 hp) ht
    exact h

/-- The connections of the layout are those of the network, if no two splitters that are next to each other have unused ends there. -/
theorem linked_iff (hg : g.WF) (hR : BasicRules g.In g.nb T shutB shutU L) (hI : Implements g.In g.nb T F g.cells n lab)
    (hX : AllOutputsUsed n ∨ AllInputsUsed n ∨ Apart g.In g.nb T) {p : Nat × Nat} (hp : g.In p) (q : Nat × Nat) (d : Dir) :
    Connected g.nb T p q d ↔ g.nb p d = some q ∧ F.out p d = true := by
  constructor
  · rintro ⟨h1, h2, h3⟩
    have hq := g.nb_in hg h1
    refine ⟨h1, ?_⟩
    by_cases hs : (T p).IsSplitter
    · by_cases hs' : (T q).IsSplitter
      · obtain ⟨e, b, ht⟩ := hs
        obtain ⟨e', b', ht'⟩ := hs'
        have hd : e = d := by rw [ht] at h2; exact h2
        have hd' : e' = d := by rw [ht'] at h3; exact h3
        subst hd hd'
        obtain ⟨k, a1, -, -, a2⟩ := half_node hR.splitters hI.realises hp ht
        obtain ⟨k', b1, -, b2, -⟩ := half_node hR.splitters hI.realises hq ht'
        rcases hX with hX | hX | hX
        · exact a2 (hX k a1)
        · rw [hI.fits.same p q e' hp h1]
          exact b2 (hX k' b1)
        · exact absurd ⟨⟨_, _, ht⟩, _, _, ht'⟩ (hX p q e' hp ⟨h1, h2, h3⟩)
      · rw [hI.fits.same p q d hp h1]
        exact hI.fits.inp q d hq hs' h3
    · exact hI.fits.out p d hp hs h2
  · rintro ⟨h1, h2⟩
    refine ⟨h1, hI.fits.emits p d hp h2, hI.fits.takes q d (g.nb_in hg h1) ?_⟩
    rw [← hI.fits.same p q d hp h1]
    exact h2

/-- Belts leave the layout where the network has outputs. -/
theorem leaves_iff (hR : BasicRules g.In g.nb T shutB shutU L) (hI : Implements g.In g.nb T F g.cells n lab) {p : Nat × Nat} (hp : g.In p) :
    LeavesAt g.nb T p ↔ ExitAt g.nb F p := by
  constructor
  · rintro ⟨d, h1, h2⟩
    refine ⟨d, hI.fits.out p d hp ?_ h1, h2⟩
    rintro ⟨e, b, ht⟩
    have : e = d := by rw [ht] at h1; exact h1
    subst this
    obtain ⟨k, -, ⟨q, hq⟩, -⟩ := half_node hR.splitters hI.realises hp ht
    rw [h2] at hq
    cases hq
  · rintro ⟨d, h1, h2⟩
    exact ⟨d, hI.fits.emits p d hp h1, h2⟩

open Classical in
/-- What flows on the layout is a flow through the network. -/
theorem layout_flow (hg : g.WF) (hR : BasicRules g.In g.nb T shutB shutU L) (hI : Implements g.In g.nb T F g.cells n lab) {a i b k : Int}
    (hE : Ends n a i b k) (hX : AllOutputsUsed n ∨ AllInputsUsed n ∨ Apart g.In g.nb T) {supplied : Nat × Nat → Prop}
    (hs : ∀ p d h, g.In p → T p = .splitter d h → g.nb p d.opp = none → (supplied p ↔ EntryAt g.nb F p)) {X : Nat × Nat → ℚ}
    (hC : Carries g.In g.nb T (Connected g.nb T) supplied X) :
    ∃ flow, NetworkFlow n a b flow ((g.cells.filter fun p => EntryAt g.nb F p).map X : List ℚ)
      ((g.cells.filter fun p => LeavesAt g.nb T p).map X : List ℚ) := by
  have hconn := fun p hp q d => linked_iff hg hR hI hX (p := p) hp q d
  have hfed : ∀ p d h, g.In p → T p = .splitter d h → (FedAt g.In g.nb (Connected g.nb T) supplied p d ↔
      FedAt g.In g.nb (fun p q d => g.nb p d = some q ∧ F.out p d = true) (EntryAt g.nb F) p d) := by
    intro p d h hp ht
    unfold FedAt
    exact or_congr (exists_congr fun r => and_congr_right fun hr => hconn r hr p d) (and_congr_right fun hn => hs p d h hp ht hn)
  have hC' : Carries g.In g.nb T (fun p q d => g.nb p d = some q ∧ F.out p d = true) (EntryAt g.nb F) X := by
    refine ⟨fun p q d hp h hs => hC.surface p q d hp ((hconn p hp q d).2 h) hs, hC.under, fun p q d hp hq hpr r hr => ?_⟩
    have := hC.splitter p q d hp hq hpr r (hr.imp (hconn p hp r d).2 (hconn q hq r d).2)
    unfold gets outlets at this ⊢
    simp only [hfed p d _ hp hpr.1, hfed q d _ hq hpr.2.2, hconn p hp, hconn q hq] at this
    convert this
  obtain ⟨a', i', b', k', hE', -, -, h3, h4⟩ := hI.ends
  have ea := ((gio_iff _ _ _ _ _).2 hE).symm.trans ((gio_iff _ _ _ _ _).2 hE')
  simp only [Except.ok.injEq, Prod.mk.injEq] at ea
  obtain ⟨⟨rfl, rfl⟩, rfl, rfl⟩ := ea
  have hpair := hR.splitters
  have ht := tracks_of_layout hg hR hI
  rw [← g.cellsIn] at hpair hC'
  obtain ⟨flow, hf⟩ := ht.networkFlow hpair hI.realises (fun p hp h => h3 p ((g.mem_cells p).1 hp) ((comesIn_iff p).2 h))
    (fun p hp h => h4 p ((g.mem_cells p).1 hp) ((goesOut_iff p).2 h)) hC'
  refine ⟨flow, ?_⟩
  rw [show (g.cells.filter fun p => LeavesAt g.nb T p) = g.cells.filter fun p => ExitAt g.nb F p from
    List.filter_congr fun p hp => by simpa using leaves_iff hR hI ((g.mem_cells p).1 hp)]
  exact hf

end

section
variable {g : Grid} {T : Nat × Nat → Tile} {F : Flow (Nat × Nat)} {n : Network} {lab : Nat × Nat → Option Node}
  {shutB shutU : Nat × Nat → Dir → Prop} {L : Option Nat} {a i b k : Int}

/-- A set of `m` cells of a list that has no more members contains all of them. -/
theorem all_in_column {cells : List (Nat × Nat)} (hn : cells.Nodup) {f : Nat × Nat → Bool} {x s m : Nat} (hc : cells.countP f = m)
    (h : ∀ y, s ≤ y → y < s + m → (x, y) ∈ cells ∧ f (x, y) = true) {p : Nat × Nat} (hp : p ∈ cells) (hf : f p = true) :
    p.1 = x ∧ s ≤ p.2 ∧ p.2 < s + m := by
  classical
  let A : Finset (Nat × Nat) := (cells.filter f).toFinset
  let B : Finset (Nat × Nat) := (Finset.Ico s (s + m)).image fun y => (x, y)
  have hA : A.card = m := by
    rw [List.toFinset_card_of_nodup (hn.filter _), ← List.countP_eq_length_filter, hc]
  have hB : B.card = m := by
    rw [Finset.card_image_of_injective _ fun y y' e => (Prod.mk.inj e).2]
    simp
  have hsub : B ⊆ A := by
    intro q hq
    obtain ⟨y, hy, rfl⟩ := Finset.mem_image.1 hq
    obtain ⟨h1, h2⟩ := Finset.mem_Ico.1 hy
    exact List.mem_toFinset.2 (List.mem_filter.2 (h y h1 h2))
  have e := Finset.eq_of_subset_of_card_le hsub (by omega)
  have : p ∈ B := by
    rw [e]
    exact List.mem_toFinset.2 (List.mem_filter.2 ⟨hp, hf⟩)
  obtain ⟨y, hy, rfl⟩ := Finset.mem_image.1 this
  obtain ⟨h1, h2⟩ := Finset.mem_Ico.1 hy
  exact ⟨rfl, h1, h2⟩

/-- Where the inputs and outputs of a balancer are that the search finds. -/
structure EndsInColumns (g : Grid) (T : Nat × Nat → Tile) (F : Flow (Nat × Nat)) : Prop where
  entry : ∀ p, g.In p → (EntryAt g.nb F p ↔ p.1 = 0 ∧ (T p).Takes .right)
  first : ∀ p, g.In p → p.1 = 0 → (T p).Takes .right ∨ T p = .empty
  exit : ∀ p, g.In p → ExitAt g.nb F p → p.1 + 1 = g.width ∧ ∃ i, T p = .belt i .right

theorem ends_in_columns (hg : g.WF) (he : g.edge = ⟨false, false⟩) (hI : Implements g.In g.nb T F g.cells n lab) (hE : Ends n a i b k)
    (hp : EndsPlaced T F g.width g.height searchOptions i.toNat k.toNat) : EndsInColumns g T F := by
  have hw := hg.w
  have hp' : ∃ i0 j0, EntryBlock T F (fun y => (0, y)) g.height .right i.toNat false i0 ∧
      ExitBlock T F (fun y => (g.width - 1, y)) g.height .right k.toNat false j0 ∧
      (true = true → RowsNested i0 i.toNat j0 k.toNat) := hp
  obtain ⟨i0, j0, h1, h2, -⟩ := hp'
  obtain ⟨a', i', b', k', hE', c1, c2, -, -⟩ := hI.ends
  have ea := ((gio_iff _ _ _ _ _).2 hE).symm.trans ((gio_iff _ _ _ _ _).2 hE')
  simp only [Except.ok.injEq, Prod.mk.injEq] at ea
  obtain ⟨⟨rfl, rfl⟩, rfl, rfl⟩ := ea
  have hnb := nb_box hg he
  have left : ∀ y, g.nb (0, y) .left = none := fun y => by rw [hnb]; simp [boxNb]
  have right : ∀ y, g.nb (g.width - 1, y) .right = none := fun y => by rw [hnb]; simp only [boxNb]; rw [if_neg (by omega)]
  have e1 : ∀ y < g.height, (i0 ≤ y ∧ y < i0 + i.toNat → F.inp (0, y) .right = true) ∧
      (¬ (i0 ≤ y ∧ y < i0 + i.toNat) → T (0, y) = .empty) := by
    intro y hy
    unfold EntryBlock at h1
    split at h1
    · exact ⟨fun _ => h1.2 y hy, fun h => by omega⟩
    · have := h1.2.2 y hy
      split at this
      · rename_i hin
        obtain ⟨o, ho⟩ := this
        refine ⟨fun _ => hI.fits.inp (0, y) .right ⟨hw, hy⟩ ?_ ?_, fun h => absurd hin h⟩
        · rw [ho]; rintro ⟨_, _, h⟩; cases h
        · rw [ho]; rfl
      · rename_i hin
        exact ⟨fun h => absurd h hin, fun _ => by simpa using this⟩
  have b1 : i0 + i.toNat ≤ g.height := by
    unfold EntryBlock at h1
    split at h1
    · omega
    · omega
  have e2 : ∀ y < g.height, (j0 ≤ y ∧ y < j0 + k.toNat → ∃ i, T (g.width - 1, y) = .belt i .right) := by
    intro y hy
    unfold ExitBlock at h2
    split at h2
    · exact fun _ => h2.2 y hy
    · have := h2.2.2 y hy
      split at this
      · exact fun _ => this
      · rename_i hin
        exact fun h => absurd h hin
  have b2 : j0 + k.toNat ≤ g.height := by
    unfold ExitBlock at h2
    split at h2
    · omega
    · omega
  have f1 : ∀ p, g.In p → EntryAt g.nb F p → p.1 = 0 ∧ i0 ≤ p.2 ∧ p.2 < i0 + i.toNat := by
    intro p hp h
    have hpos := hE.pos
    refine all_in_column g.cells_nodup (f := F.comesIn g.nb) (m := i.toNat) (by omega) (fun y y1 y2 => ?_) ((g.mem_cells p).2 hp) ((comesIn_iff p).2 h)
    exact ⟨(g.mem_cells _).2 ⟨hw, by show y < g.height; omega⟩, (comesIn_iff _).2 ⟨.right, (e1 y (by omega)).1 ⟨y1, y2⟩, left y⟩⟩
  have f2 : ∀ p, g.In p → ExitAt g.nb F p → p.1 = g.width - 1 ∧ j0 ≤ p.2 ∧ p.2 < j0 + k.toNat := by
    intro p hp h
    have hpos := hE.neg
    refine all_in_column g.cells_nodup (f := F.goesOut g.nb) (m := k.toNat) (by omega) (fun y y1 y2 => ?_) ((g.mem_cells p).2 hp) ((goesOut_iff p).2 h)
    have hin : g.In (g.width - 1, y) := ⟨by show g.width - 1 < g.width; omega, by show y < g.height; omega⟩
    obtain ⟨u, hu⟩ := e2 y (by omega) ⟨y1, y2⟩
    refine ⟨(g.mem_cells _).2 hin, (goesOut_iff _).2 ⟨.right, hI.fits.out _ .right hin ?_ ?_, right y⟩⟩
    · rw [hu]; rintro ⟨_, _, h⟩; cases h
    · rw [hu]; rfl
  have g1 : ∀ p, g.In p → p.1 = 0 → (EntryAt g.nb F p ∧ (T p).Takes .right) ∨ T p = .empty := by
    rintro ⟨x, y⟩ hp hx
    simp only at hx
    subst hx
    by_cases hin : i0 ≤ y ∧ y < i0 + i.toNat
    · have := (e1 y hp.2).1 hin
      exact .inl ⟨⟨.right, this, left y⟩, hI.fits.takes _ _ hp this⟩
    · exact .inr ((e1 y hp.2).2 hin)
  refine ⟨fun p hp => ⟨fun h => ?_, fun ⟨h, ht⟩ => ?_⟩, fun p hp h => (g1 p hp h).imp And.right id, fun p hp h => ?_⟩
  · have := f1 p hp h
    refine ⟨this.1, ?_⟩
    obtain ⟨x, y⟩ := p
    obtain ⟨rfl, h1, h2⟩ := this
    exact hI.fits.takes _ _ hp ((e1 y hp.2).1 ⟨h1, h2⟩)
  · rcases g1 p hp h with h' | h'
    · exact h'.1
    · rw [h'] at ht
      exact ht.elim
  · have := f2 p hp h
    obtain ⟨x, y⟩ := p
    obtain ⟨rfl, h1, h2⟩ := this
    exact ⟨by show g.width - 1 + 1 = g.width; omega, e2 y hp.2 ⟨h1, h2⟩⟩

theorem EndsInColumns.straight (hg : g.WF) (he : g.edge = ⟨false, false⟩) (hR : BasicRules g.In g.nb T shutB shutU L)
    (hI : Implements g.In g.nb T F g.cells n lab) (hC : EndsInColumns g T F) : StraightFromOutside g T := by
  intro p u o hp h hn
  have hns : ¬ (T p).IsSplitter := by rw [h]; rintro ⟨_, _, h⟩; cases h
  have ht := (hC.entry p hp).1 ⟨u, hI.fits.inp p u hp hns (by rw [h]; rfl), hn⟩
  have hu : u = .right := by rw [h] at ht; exact ht.2
  subst hu
  have hem : (T p).Emits o := by rw [h]; rfl
  have hb := hR.basic p hp
  rw [h] at hb
  cases hq : g.nb p o with
  | none =>
    obtain ⟨-, i', hi⟩ := hC.exit p hp ⟨o, hI.fits.out p o hp hns hem, hq⟩
    rw [h] at hi
    cases hi
    rfl
  | some q =>
    have htq := hR.joined.out p q o hp hq hem hns
    have hqi := g.nb_in hg hq
    have h0 := hC.first q hqi
    rw [nb_box hg he] at hq
    obtain ⟨x, y⟩ := p
    have hx : x = 0 := ht.1
    subst hx
    have col : q.1 = 0 → o = .right := fun hx => by
      rcases h0 hx with h' | h'
      · exact takes_once htq h'
      · rw [h'] at htq
        exact htq.elim
    cases o with
    | right => rfl
    | left => exact absurd rfl hb
    | up =>
      refine (col ?_).symm
      simp only [boxNb] at hq
      split at hq <;> cases hq
      rfl
    | down =>
      refine (col ?_).symm
      simp only [boxNb] at hq
      split at hq <;> cases hq
      rfl

end

end FSat
