import Verif.Props.ParseFlow
import Mathlib.Tactic.FieldSimp
/-!
# A flow through the network read from a layout as a flow on the layout
-/

set_option linter.unusedVariables false
set_option linter.unusedSectionVars false

namespace FSat

variable {a : Arr Tile} {heads : List (Int × Int)} {net : Network} {fl : List (Node × Amounts)} {p q r : Int × Int}

/-- What arrives at the splitter half `r`. -/
def Slot (a : Arr Tile) (heads : List (Int × Int)) (fl : List (Node × Amounts)) (r : Int × Int) (v : ℚ) : Prop :=
  ∃ (i : Nat) (h q : Int × Int) (d : Dir) (x : Node × Amounts), heads[i]? = some h ∧ fl[i]? = some x ∧ SplitterPair a.nb a.board h q d ∧
    (r = h ∧ v = x.2.1.1 ∨ r = q ∧ v = x.2.1.2)

/-- The line of the cell ends at the splitter half `r`. -/
def ComesTo (a : Arr Tile) (p r : Int × Int) : Prop :=
  (p = r ∨ ¬ (a.board p).IsSplitter ∧ Reaches a.nb a.board p r) ∧ (a.board r).IsSplitter

/-- What each output of a splitter carries. -/
def share (x : Node × Amounts) : ℚ := (x.2.1.1 + x.2.1.2) / x.1.outputs

/-- What arrives at the cell: what the splitter shares that its line comes from, or what arrives where its line leads to. -/
def Holds (a : Arr Tile) (heads : List (Int × Int)) (fl : List (Node × Amounts)) (p : Int × Int) (v : ℚ) : Prop :=
  (∃ (i : Nat) (x : Node × Amounts), FromNo a heads p i ∧ fl[i]? = some x ∧ v = share x) ∨
    (¬ ∃ i, FromNo a heads p i) ∧ ∃ r, ComesTo a p r ∧ Slot a heads fl r v

open Classical in
noncomputable def amountAt (a : Arr Tile) (heads : List (Int × Int)) (fl : List (Node × Amounts)) (p : Int × Int) : ℚ :=
  if h : ∃ v, Holds a heads fl p v then h.choose else 0

theorem ComesTo.step (hf : Follows a.nb a.board p q) (hp : ¬ (a.board p).IsSplitter) : ComesTo a p r ↔ ComesTo a q r := by
  constructor
  · rintro ⟨rfl | ⟨_, h⟩, hr⟩
    · exact absurd hr hp
    · obtain ⟨q', h1, h2⟩ := reaches_front h
      cases h1.right_unique hf
      exact ⟨h2, hr⟩
  · rintro ⟨rfl | ⟨h1, h2⟩, hr⟩
    · exact ⟨.inr ⟨hp, .step hf⟩, hr⟩
    · exact ⟨.inr ⟨hp, reaches_prepend hf h1 h2⟩, hr⟩

theorem reaches_end_unique {r' : Int × Int} (h : Reaches a.nb a.board p r) (h' : Reaches a.nb a.board p r') (hr : (a.board r).IsSplitter)
    (hr' : (a.board r').IsSplitter) : r = r' := by
  induction h with
  | step h =>
    obtain ⟨q, h1, h2⟩ := reaches_front h'
    cases h.right_unique h1
    rcases h2 with h2 | ⟨h2, _⟩
    · exact h2
    · exact absurd hr h2
  | @on x y h1 hx h2 ih =>
    have key : ∀ z, Reaches a.nb a.board p z → ¬ (a.board z).IsSplitter → Reaches a.nb a.board z r' := by
      intro z hz
      induction hz with
      | step hz =>
        intro hns
        obtain ⟨q, h3, h4⟩ := reaches_front h'
        cases hz.right_unique h3
        rcases h4 with rfl | ⟨_, h4⟩
        · exact absurd hr' hns
        · exact h4
      | on _ h5 h6 ih' =>
        intro hns
        obtain ⟨q, h3, h4⟩ := reaches_front (ih' h5)
        cases h6.right_unique h3
        rcases h4 with rfl | ⟨_, h4⟩
        · exact absurd hr' hns
        · exact h4
    obtain ⟨q, h3, h4⟩ := reaches_front (key x h1 hx)
    cases h2.right_unique h3
    rcases h4 with h4 | ⟨h4, _⟩
    · exact h4
    · exact absurd hr h4

theorem ComesTo.unique {r' : Int × Int} (h : ComesTo a p r) (h' : ComesTo a p r') : r = r' := by
  obtain ⟨h1, h2⟩ := h
  obtain ⟨h3, h4⟩ := h'
  rcases h1 with rfl | ⟨h1, h5⟩ <;> rcases h3 with rfl | ⟨h3, h6⟩
  · rfl
  · exact absurd h2 h3
  · exact absurd h4 h1
  · exact reaches_end_unique h5 h6 h2 h4

theorem Slot.unique (hn : heads.Nodup) {v w : ℚ} (h : Slot a heads fl r v) (h' : Slot a heads fl r w) : v = w := by
  obtain ⟨i, y, q, d, x, h1, h2, h3, h4⟩ := h
  obtain ⟨i', y', q', d', x', h1', h2', h3', h4'⟩ := h'
  have hy : y = y' := HalfOf.unique (a := a) (r := r) ⟨q, d, h3, h4.imp (·.1) (·.1)⟩ ⟨q', d', h3', h4'.imp (·.1) (·.1)⟩
  subst hy
  have hi : i = i' := by
    obtain ⟨l, e⟩ := List.getElem?_eq_some_iff.1 h1
    obtain ⟨l', e'⟩ := List.getElem?_eq_some_iff.1 h1'
    exact (List.Nodup.getElem_inj_iff hn).1 (e.trans e'.symm)
  subst hi
  rw [h2] at h2'
  cases h2'
  have hne : ∀ {q d}, SplitterPair a.nb a.board y q d → y ≠ q := by
    rintro q d h rfl
    have e1 := h.1
    have e2 := h.2.2
    rw [e1] at e2
    cases e2
  rcases h4 with ⟨rfl, rfl⟩ | ⟨rfl, rfl⟩ <;> rcases h4' with ⟨e, rfl⟩ | ⟨e, rfl⟩
  · rfl
  · exact absurd e (hne h3')
  · exact absurd e.symm (hne h3)
  · rfl

section
variable (hs : SoundLayout a.In a.nb a.board) (hn : heads.Nodup) (hm : ∀ p, p ∈ heads ↔ ∃ d, a.board p = .splitter d true)
include hs hn hm

theorem Holds.unique {v w : ℚ} (h : Holds a heads fl p v) (h' : Holds a heads fl p w) : v = w := by
  rcases h with ⟨i, x, h1, h2, rfl⟩ | ⟨h1, r, h2, h3⟩ <;> rcases h' with ⟨i', x', h1', h2', rfl⟩ | ⟨h1', r', h2', h3'⟩
  · cases FromNo.unique hn h1 h1'
    rw [h2] at h2'
    cases h2'
    rfl
  · exact absurd ⟨i, h1⟩ h1'
  · exact absurd ⟨i', h1'⟩ h1
  · cases h2.unique h2'
    exact h3.unique hn h3'

theorem amountAt_eq {v : ℚ} (h : Holds a heads fl p v) : amountAt a heads fl p = v := by
  have hx : ∃ v, Holds a heads fl p v := ⟨v, h⟩
  unfold amountAt
  rw [dif_pos hx]
  exact Holds.unique hs hn hm hx.choose_spec h

theorem amountAt_step (hf : Follows a.nb a.board p q) (hp : ¬ (a.board p).IsSplitter) : amountAt a heads fl q = amountAt a heads fl p := by
  have : Holds a heads fl q = Holds a heads fl p := by
    funext v
    unfold Holds
    simp only [fromNo_step hs hn hm hf hp, ComesTo.step hf hp]
  unfold amountAt
  rw [this]

end

theorem mem_arriving' {c : Colour} {v : ℚ} : v ∈ arriving fl c ↔ ∃ x ∈ fl, x.1.1.1 = c ∧ v = x.2.1.1 ∨ x.1.1.2 = c ∧ v = x.2.1.2 := by
  unfold arriving
  rw [Multiset.mem_coe, List.mem_filterMap]
  constructor
  · rintro ⟨y, hy, hv⟩
    obtain ⟨x, hx, hy⟩ := List.mem_flatMap.1 hy
    split at hv
    · rename_i hc
      cases hv
      simp only [List.mem_cons, List.not_mem_nil, or_false] at hy
      rcases hy with rfl | rfl
      · exact ⟨x, hx, .inl ⟨hc, rfl⟩⟩
      · exact ⟨x, hx, .inr ⟨hc, rfl⟩⟩
    · cases hv
  · rintro ⟨x, hx, ⟨rfl, rfl⟩ | ⟨rfl, rfl⟩⟩
    · exact ⟨(x.1.1.1, x.2.1.1), List.mem_flatMap.2 ⟨x, hx, by simp⟩, by simp⟩
    · exact ⟨(x.1.1.2, x.2.1.2), List.mem_flatMap.2 ⟨x, hx, by simp⟩, by simp⟩

theorem mem_leaving' {c : Colour} {v : ℚ} : v ∈ leaving fl c ↔ ∃ x ∈ fl, x.1.2.1 = c ∧ v = x.2.2.1 ∨ x.1.2.2 = c ∧ v = x.2.2.2 := by
  unfold leaving
  rw [Multiset.mem_coe, List.mem_filterMap]
  constructor
  · rintro ⟨y, hy, hv⟩
    obtain ⟨x, hx, hy⟩ := List.mem_flatMap.1 hy
    split at hv
    · rename_i hc
      cases hv
      simp only [List.mem_cons, List.not_mem_nil, or_false] at hy
      rcases hy with rfl | rfl
      · exact ⟨x, hx, .inl ⟨hc, rfl⟩⟩
      · exact ⟨x, hx, .inr ⟨hc, rfl⟩⟩
    · cases hv
  · rintro ⟨x, hx, ⟨rfl, rfl⟩ | ⟨rfl, rfl⟩⟩
    · exact ⟨(x.1.2.1, x.2.2.1), List.mem_flatMap.2 ⟨x, hx, by simp⟩, by simp⟩
    · exact ⟨(x.1.2.2, x.2.2.2), List.mem_flatMap.2 ⟨x, hx, by simp⟩, by simp⟩

theorem Shares.share1 {x : Node × Amounts} (h : Shares x.1 x.2) (hc : x.1.2.1 ≠ none) : x.2.2.1 = share x := by
  have := h.out1
  rw [if_neg hc] at this
  unfold share
  rw [← this]
  have : (x.1.outputs : ℚ) ≠ 0 := by
    unfold Node.outputs
    obtain ⟨c, hc⟩ := Option.ne_none_iff_exists'.1 hc
    rw [hc]
    simp only [List.countP_cons, Option.isSome_some]
    push_cast
    positivity
  field_simp

theorem Shares.share2 {x : Node × Amounts} (h : Shares x.1 x.2) (hc : x.1.2.2 ≠ none) : x.2.2.2 = share x := by
  have := h.out2
  rw [if_neg hc] at this
  unfold share
  rw [← this]
  have : (x.1.outputs : ℚ) ≠ 0 := by
    unfold Node.outputs
    obtain ⟨c, hc⟩ := Option.ne_none_iff_exists'.1 hc
    rw [hc]
    simp only [List.countP_cons, Option.isSome_some]
    push_cast
    positivity
  field_simp

/-- A flow through the network, its nodes in the order of the splitters. -/
structure ReadFlow (a : Arr Tile) (heads : List (Int × Int)) (net : Network) (fl : List (Node × Amounts)) : Prop where
  sound : SoundLayout a.In a.nb a.board
  nodup : heads.Nodup
  splits : ∀ p, p ∈ heads ↔ ∃ d, a.board p = .splitter d true
  network : NetworkOf a.In a.nb a.board false heads net
  nodes : fl.map Prod.fst = net
  shares : ∀ x ∈ fl, Shares x.1 x.2
  inner : ∀ j : Nat, j < heads.length → leaving fl (some ((j : Int) + 1)) = arriving fl (some ((j : Int) + 1))

namespace ReadFlow

variable (h : ReadFlow a heads net fl)
include h

theorem length : fl.length = heads.length := by
  rw [← h.network.length, ← h.nodes, List.length_map]

theorem node {i : Nat} {x : Node × Amounts} (hx : fl[i]? = some x) : net[i]? = some x.1 := by
  rw [← h.nodes, List.getElem?_map, hx]
  rfl

theorem at_index {i : Nat} {y : Int × Int} (hy : heads[i]? = some y) : ∃ x, fl[i]? = some x := by
  have := (List.getElem?_eq_some_iff.1 hy).1
  exact ⟨fl[i]'(by rw [h.length]; exact this), List.getElem?_eq_getElem _⟩

/-- The pair of the splitter number `i`. -/
theorem pair {i : Nat} {x : Node × Amounts} (hx : fl[i]? = some x) :
    ∃ y q d, heads[i]? = some y ∧ SplitterPair a.nb a.board y q d := by
  have hlt : i < heads.length := h.length ▸ (List.getElem?_eq_some_iff.1 hx).1
  obtain ⟨d, hd⟩ := (h.splits heads[i]).1 (List.getElem_mem hlt)
  obtain ⟨q, _, hpair⟩ := h.sound.splitters.head heads[i] d (inside_of_board (by rw [hd]; simp)) hd
  exact ⟨_, q, d, List.getElem?_eq_getElem hlt, hpair⟩

theorem leaving_share {j : Nat} {y : Node × Amounts} (hy : fl[j]? = some y) {w : ℚ} (hw : w ∈ leaving fl (some ((j : Int) + 1))) :
    w = share y := by
  obtain ⟨x, hx, hxw⟩ := mem_leaving'.1 hw
  obtain ⟨i, hi⟩ := List.mem_iff_getElem?.1 hx
  obtain ⟨z, q, d, hz, hpair⟩ := h.pair hi
  obtain ⟨o1, o2⟩ := h.network.outputs i z x.1 hz (h.node hi) q d hpair
  have hlt : j < heads.length := h.length ▸ (List.getElem?_eq_some_iff.1 hy).1
  have key : ∀ (p : Int × Int) (c : Option Int), OutputColour a.nb a.board false heads i p d c → c = some ((j : Int) + 1) → i = j := by
    intro p c hc e
    by_cases h3 : DrainsTo a.nb a.board false p d
    · by_cases h4 : ∃ h r, h ∈ heads ∧ HalfOf a.nb a.board h r ∧ Reaches a.nb a.board p r
      · rw [hc.inner.2 h4, Option.some.injEq] at e
        omega
      · rw [hc.outside.2 ⟨h3, fun h r x y w => h4 ⟨h, r, x, y, w⟩⟩, Option.some.injEq] at e
        omega
    · rw [hc.none.2 h3] at e
      cases e
  rcases hxw with ⟨e, rfl⟩ | ⟨e, rfl⟩
  · cases key _ _ o1 e
    rw [hi] at hy
    cases hy
    exact (h.shares _ hx).share1 (by rw [e]; nofun)
  · cases key _ _ o2 e
    rw [hi] at hy
    cases hy
    exact (h.shares _ hx).share2 (by rw [e]; nofun)

/-- Each half has a slot, with the colour that the layout has there. -/
theorem slot_colour {d : Dir} {b : Bool} {v : ℚ} (hr : a.board r = .splitter d b) (hv : Slot a heads fl r v) :
    ∃ c, InputColour a.In a.nb a.board false heads r d c ∧ v ∈ arriving fl c := by
  obtain ⟨i, y, q, e, x, h1, h2, h3, h4⟩ := hv
  obtain ⟨o1, o2⟩ := h.network.inputs i y x.1 h1 (h.node h2) q e h3
  have hx : x ∈ fl := List.mem_of_getElem? h2
  rcases h4 with ⟨rfl, rfl⟩ | ⟨rfl, rfl⟩
  · have := h3.1
    rw [hr] at this
    cases this
    exact ⟨_, o1, mem_arriving'.2 ⟨x, hx, .inl ⟨rfl, rfl⟩⟩⟩
  · have := h3.2.2
    rw [hr] at this
    cases this
    exact ⟨_, o2, mem_arriving'.2 ⟨x, hx, .inr ⟨rfl, rfl⟩⟩⟩

theorem amount_half {d : Dir} {b : Bool} {v : ℚ} (hr : a.board r = .splitter d b) (hv : Slot a heads fl r v) : amountAt a heads fl r = v := by
  obtain ⟨c, hc, hm⟩ := h.slot_colour hr hv
  by_cases hx : ∃ i, FromNo a heads r i
  · obtain ⟨j, hj⟩ := hx
    have hj' := hj
    obtain ⟨y, _, hy, _⟩ := hj'
    obtain ⟨x, hx⟩ := h.at_index hy
    rw [(hc.splitter j).2 hj, ← h.inner j (List.getElem?_eq_some_iff.1 hy).1] at hm
    rw [h.leaving_share hx hm]
    exact amountAt_eq h.sound h.nodup h.splits (.inl ⟨j, x, hj, hx, rfl⟩)
  · exact amountAt_eq h.sound h.nodup h.splits (.inr ⟨hx, r, ⟨.inl rfl, ⟨d, b, hr⟩⟩, hv⟩)

theorem amount_from {i : Nat} {x : Node × Amounts} (hx : fl[i]? = some x) (hp : FromNo a heads p i) : amountAt a heads fl p = share x :=
  amountAt_eq h.sound h.nodup h.splits (.inl ⟨i, x, hp, hx, rfl⟩)

theorem outs_cast (x : Node × Amounts) : (x.1.outputs : ℚ) = (if x.1.2.1 = none then 0 else 1) + if x.1.2.2 = none then 0 else 1 := by
  unfold Node.outputs
  obtain ⟨⟨_, c1, c2⟩, _⟩ := x
  cases c1 <;> cases c2 <;> simp <;> norm_num

theorem steady : Steady a.In a.nb a.board (Connected a.nb a.board) (amountAt a heads fl) := by
  refine ⟨fun p q d _ hc hp => amountAt_step h.sound h.nodup h.splits (.inl ⟨d, hc⟩) hp, fun p q d k _ hu => ?_, fun p q d _ _ hpair r hr => ?_⟩
  · exact amountAt_step h.sound h.nodup h.splits (.inr ⟨d, k, hu⟩) (by
      rintro ⟨e, b, hb⟩
      rw [hu.2.2.1] at hb
      cases hb)
  · obtain ⟨i, hi⟩ := List.mem_iff_getElem?.1 ((h.splits p).2 ⟨d, hpair.1⟩)
    obtain ⟨x, hx⟩ := h.at_index hi
    have hsh := h.shares x (List.mem_of_getElem? hx)
    obtain ⟨o1, o2⟩ := h.network.outputs i p x.1 hi (h.node hx) q d hpair
    obtain ⟨i1, i2⟩ := h.network.inputs i p x.1 hi (h.node hx) q d hpair
    have hfrom : FromNo a heads r i := by
      rcases hr with hr | hr
      · exact ⟨p, p, hi, ⟨q, d, hpair, .inl rfl⟩, .step (.inl ⟨d, hr⟩)⟩
      · exact ⟨p, q, hi, ⟨q, d, hpair, .inr rfl⟩, .step (.inl ⟨d, hr⟩)⟩
    rw [h.amount_from hx hfrom]
    have out : ∀ {s : Int × Int} {c : Colour}, OutputColour a.nb a.board false heads i s d c →
        outlets (Connected a.nb a.board) s d = if c = none then 0 else 1 := by
      intro s c hc
      unfold outlets
      by_cases hn : c = none
      · rw [if_pos hn, if_neg]
        exact fun hh => hc.none.1 hn (.inl hh)
      · rw [if_neg hn, if_pos]
        have := mt hc.none.2 hn
        rw [not_not] at this
        exact this.resolve_right fun hh => by cases hh.1
    have arr : ∀ {s : Int × Int} {b : Bool} {c : Colour} {v : ℚ}, a.board s = .splitter d b → InputColour a.In a.nb a.board false heads s d c →
        Slot a heads fl s v → (c = none → v = 0) → arrives a.In (Connected a.nb a.board) (amountAt a heads fl) s d = v := by
      intro s b c v hb hc hv h0
      unfold arrives
      by_cases hn : c = none
      · rw [if_neg fun hh => hc.none.1 hn (.inl hh), h0 hn]
      · rw [h.amount_half hb hv, if_pos]
        have := mt hc.none.2 hn
        rw [not_not] at this
        exact this.resolve_right fun hh => by cases hh.1
    rw [out o1, out o2, arr hpair.1 i1 ⟨i, p, q, d, x, hi, hx, hpair, .inl ⟨rfl, rfl⟩⟩ hsh.in1,
      arr hpair.2.2 i2 ⟨i, p, q, d, x, hi, hx, hpair, .inr ⟨rfl, rfl⟩⟩ hsh.in2, ← h.outs_cast]
    have hne : (x.1.outputs : ℚ) ≠ 0 := by
      rw [h.outs_cast, ← out o1, ← out o2]
      unfold outlets
      rcases hr with hr | hr
      · rw [if_pos ⟨r, hr⟩]
        split <;> norm_num
      · rw [if_pos (⟨r, hr⟩ : ∃ r, Connected a.nb a.board q r d)]
        split <;> norm_num
    unfold share
    field_simp

end ReadFlow

end FSat
