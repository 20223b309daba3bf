import Verif.Props.Commands
import Verif.Props.BalancerMain
/-!
# C103: the blueprint of a printed balancer is a balancer
-/

namespace FSat

/-! ### Flows on a copy of a layout -/

section
variable {P Q : Type} {In : P → Prop} {nb : P → Dir → Option P} {T : P → Tile} {supplied : P → Prop} {In' : Q → Prop} {nb' : Q → Dir → Option Q}
  {T' : Q → Tile} {supplied' : Q → Prop} {e : P → Q}

/-- The layout `T'` is a copy of the layout `T`, except that belts may have other inputs, which makes no difference to the connections. -/
structure LayoutCopy (In : P → Prop) (nb : P → Dir → Option P) (T : P → Tile) (In' : Q → Prop) (nb' : Q → Dir → Option Q) (T' : Q → Tile) (e : P → Q) :
    Prop where
  maps : ∀ p, In p → In' (e p)
  onto : ∀ r, In' r → ∃ p, In p ∧ r = e p
  inj : ∀ p q, e p = e q → p = q
  nbs : ∀ p d, In p → nb' (e p) d = (nb p d).map e
  nbIn : ∀ p q d, In p → nb p d = some q → In q
  same : ∀ p, In p → (∀ i o, T p ≠ .belt i o) → T' (e p) = T p
  belt : ∀ p i o, In p → T p = .belt i o → ∃ i', T' (e p) = .belt i' o
  conn : ∀ p q d, In p → In q → (Connected nb' T' (e p) (e q) d ↔ Connected nb T p q d)

variable (C : LayoutCopy In nb T In' nb' T' e)
include C

theorem LayoutCopy.splitter {p : P} (hp : In p) (d : Dir) (h : Bool) : T' (e p) = .splitter d h ↔ T p = .splitter d h := by
  by_cases hb : ∃ i o, T p = .belt i o
  · obtain ⟨i, o, hb⟩ := hb
    obtain ⟨i', hi⟩ := C.belt p i o hp hb
    rw [hb, hi]
    exact ⟨nofun, nofun⟩
  · push Not at hb
    rw [C.same p hp hb]

theorem LayoutCopy.walk {p : P} (hp : In p) (d : Dir) (k : Nat) : walk nb' (e p) d k = (walk nb p d k).map e ∧ ∀ q, FSat.walk nb p d k = some q → In q := by
  induction k with
  | zero =>
    refine ⟨rfl, fun q h => ?_⟩
    cases h
    exact hp
  | succ k ih =>
    simp only [FSat.walk]
    rw [ih.1]
    cases hw : FSat.walk nb p d k with
    | none => exact ⟨rfl, nofun⟩
    | some r =>
      have hr := ih.2 r hw
      exact ⟨C.nbs r d hr, fun q hq => C.nbIn r q d hr hq⟩

theorem LayoutCopy.underground {p : P} (hp : In p) (d : Dir) (h : Bool) : T p = .underground d h → T' (e p) = .underground d h := by
  intro ht
  rw [C.same p hp (by rw [ht]; nofun), ht]

theorem LayoutCopy.along {p : P} (hp : In p) (d : Dir) : (T' (e p)).UgAlong d ↔ (T p).UgAlong d := by
  by_cases hb : ∃ i o, T p = .belt i o
  · obtain ⟨i, o, hb⟩ := hb
    obtain ⟨i', hi⟩ := C.belt p i o hp hb
    rw [hb, hi]
    rfl
  · push Not at hb
    rw [C.same p hp hb]

theorem LayoutCopy.emits {p : P} (hp : In p) (d : Dir) : (T' (e p)).Emits d ↔ (T p).Emits d := by
  by_cases hb : ∃ i o, T p = .belt i o
  · obtain ⟨i, o, hb⟩ := hb
    obtain ⟨i', hi⟩ := C.belt p i o hp hb
    rw [hb, hi]
    rfl
  · push Not at hb
    rw [C.same p hp hb]

theorem LayoutCopy.isSplitter {p : P} (hp : In p) : (T' (e p)).IsSplitter ↔ (T p).IsSplitter := by
  by_cases hb : ∃ i o, T p = .belt i o
  · obtain ⟨i, o, hb⟩ := hb
    obtain ⟨i', hi⟩ := C.belt p i o hp hb
    rw [hb, hi]
    constructor <;> rintro ⟨_, _, h⟩ <;> cases h
  · push Not at hb
    rw [C.same p hp hb]

theorem LayoutCopy.leaves {p : P} (hp : In p) : LeavesAt nb' T' (e p) ↔ LeavesAt nb T p := by
  unfold LeavesAt
  refine exists_congr fun d => ?_
  rw [C.emits hp, C.nbs p d hp]
  simp

theorem LayoutCopy.outlets {p : P} (hp : In p) (d : Dir) : outlets (Connected nb' T') (e p) d = outlets (Connected nb T) p d := by
  have : (∃ r, Connected nb' T' (e p) r d) ↔ ∃ r, Connected nb T p r d := by
    constructor
    · rintro ⟨r, hr⟩
      have h1 := hr.1
      rw [C.nbs p d hp, Option.map_eq_some_iff] at h1
      obtain ⟨q, hq, rfl⟩ := h1
      exact ⟨q, (C.conn p q d hp (C.nbIn p q d hp hq)).1 hr⟩
    · rintro ⟨q, hq⟩
      exact ⟨e q, (C.conn p q d hp (C.nbIn p q d hp hq.1)).2 hq⟩
  unfold FSat.outlets
  classical
  exact if_congr this rfl rfl

theorem LayoutCopy.gets (hs : ∀ p, In p → (supplied' (e p) ↔ supplied p)) {p : P} (hp : In p) (d : Dir) (F : Q → ℚ) :
    gets In' nb' (Connected nb' T') supplied' F (e p) d = gets In nb (Connected nb T) supplied (fun p => F (e p)) p d := by
  have : FedAt In' nb' (Connected nb' T') supplied' (e p) d ↔ FedAt In nb (Connected nb T) supplied p d := by
    unfold FedAt
    rw [hs p hp, C.nbs p d.opp hp]
    refine or_congr ⟨?_, ?_⟩ (by simp)
    · rintro ⟨r, hr, hc⟩
      obtain ⟨q, hq, rfl⟩ := C.onto r hr
      exact ⟨q, hq, (C.conn q p d hq hp).1 hc⟩
    · rintro ⟨q, hq, hc⟩
      exact ⟨e q, C.maps q hq, (C.conn q p d hq hp).2 hc⟩
  unfold FSat.gets
  classical
  exact if_congr this rfl rfl

/-- A flow on the copy is one on the original. -/
theorem LayoutCopy.carries (hs : ∀ p, In p → (supplied' (e p) ↔ supplied p)) {F : Q → ℚ} (hF : Carries In' nb' T' (Connected nb' T') supplied' F) :
    Carries In nb T (Connected nb T) supplied fun p => F (e p) := by
  refine ⟨fun p q d hp hc hn => ?_, fun p q d k hp hu => ?_, fun p q d hp hq hpr r hr => ?_⟩
  · exact hF.surface _ _ d (C.maps p hp) ((C.conn p q d hp (C.nbIn p q d hp hc.1)).2 hc) (fun h => hn ((C.isSplitter hp).1 h))
  · obtain ⟨h1, h2, h3, h4, h5⟩ := hu
    have hq := (C.walk hp d k).2 q h2
    refine hF.under _ _ d k (C.maps p hp) ⟨h1, ?_, C.underground hp d _ h3, C.underground hq d _ h4, fun i hi hk r hr => ?_⟩
    · rw [(C.walk hp d k).1, h2]
      rfl
    · rw [(C.walk hp d i).1, Option.map_eq_some_iff] at hr
      obtain ⟨s, hs, rfl⟩ := hr
      rw [C.along ((C.walk hp d i).2 s hs)]
      exact h5 i hi hk s hs
  · have hpr' : SplitterPair nb' T' (e p) (e q) d := by
      refine ⟨(C.splitter hp d _).2 hpr.1, ?_, (C.splitter hq d _).2 hpr.2.2⟩
      rw [C.nbs p d.ccw hp, hpr.2.1]
      rfl
    have hr' : Connected nb' T' (e p) (e r) d ∨ Connected nb' T' (e q) (e r) d := by
      rcases hr with hr | hr
      · exact .inl ((C.conn p r d hp (C.nbIn p r d hp hr.1)).2 hr)
      · exact .inr ((C.conn q r d hq (C.nbIn q r d hq hr.1)).2 hr)
    have := hF.splitter _ _ d (C.maps p hp) (C.maps q hq) hpr' _ hr'
    rw [C.outlets hp, C.outlets hq, C.gets hs hp, C.gets hs hq] at this
    exact this

/-- A flow on the original is one on the copy. -/
theorem LayoutCopy.carries_back (hs : ∀ p, In p → (supplied' (e p) ↔ supplied p)) {F : Q → ℚ}
    (hF : Carries In nb T (Connected nb T) supplied fun p => F (e p)) : Carries In' nb' T' (Connected nb' T') supplied' F := by
  have down : ∀ p d r, In p → nb' (e p) d = some r → ∃ q, In q ∧ r = e q ∧ nb p d = some q := by
    intro p d r hp h
    rw [C.nbs p d hp, Option.map_eq_some_iff] at h
    obtain ⟨q, hq, rfl⟩ := h
    exact ⟨q, C.nbIn p q d hp hq, rfl, hq⟩
  have ug : ∀ p d h, In p → T' (e p) = .underground d h → T p = .underground d h := by
    intro p d h hp ht
    by_cases hb : ∃ i o, T p = .belt i o
    · obtain ⟨i, o, hb⟩ := hb
      obtain ⟨i', hi⟩ := C.belt p i o hp hb
      rw [hi] at ht
      cases ht
    · push Not at hb
      rw [← C.same p hp hb, ht]
  refine ⟨fun p' r' d hp' hc hn => ?_, fun p' q' d k hp' hu => ?_, fun p' q' d hp' hq' hpr r' hr => ?_⟩
  · obtain ⟨p, hp, rfl⟩ := C.onto p' hp'
    obtain ⟨q, hq, rfl, _⟩ := down p d r' hp hc.1
    exact hF.surface p q d hp ((C.conn p q d hp hq).1 hc) (fun h => hn ((C.isSplitter hp).2 h))
  · obtain ⟨p, hp, rfl⟩ := C.onto p' hp'
    obtain ⟨h1, h2, h3, h4, h5⟩ := hu
    rw [(C.walk hp d k).1, Option.map_eq_some_iff] at h2
    obtain ⟨q, h2, rfl⟩ := h2
    have hq := (C.walk hp d k).2 q h2
    refine hF.under p q d k hp ⟨h1, h2, ug p d _ hp h3, ug q d _ hq h4, fun i hi hk r hr => ?_⟩
    have := h5 i hi hk (e r) (by rw [(C.walk hp d i).1, hr]; rfl)
    rwa [C.along ((C.walk hp d i).2 r hr)] at this
  · obtain ⟨p, hp, rfl⟩ := C.onto p' hp'
    obtain ⟨q, hq, rfl⟩ := C.onto q' hq'
    have hpr' : SplitterPair nb T p q d := by
      refine ⟨(C.splitter hp d _).1 hpr.1, ?_, (C.splitter hq d _).1 hpr.2.2⟩
      obtain ⟨q2, _, e2, h2⟩ := down p d.ccw _ hp hpr.2.1
      rw [h2, C.inj _ _ e2]
    obtain ⟨r, hr2, rfl⟩ : ∃ r, (Connected nb T p r d ∨ Connected nb T q r d) ∧ r' = e r := by
      rcases hr with hr | hr
      · obtain ⟨r, hrIn, rfl, _⟩ := down p d r' hp hr.1
        exact ⟨r, .inl ((C.conn p r d hp hrIn).1 hr), rfl⟩
      · obtain ⟨r, hrIn, rfl, _⟩ := down q d r' hq hr.1
        exact ⟨r, .inr ((C.conn q r d hq hrIn).1 hr), rfl⟩
    have := hF.splitter p q d hp hq hpr' r hr2
    rw [← C.outlets hp, ← C.outlets hq, ← C.gets hs hp, ← C.gets hs hq] at this
    exact this

end

/-! ### The layout that a blueprint is decoded to -/

/-- What stands on the plane when the upper left corner of the array is put at `(x0, y0)`. -/
def placed (b : Arr Tile) (x0 y0 : Int) (p : Int × Int) : Tile := b.board (p.1 - x0, p.2 - y0)

theorem toPlane_inj (p q : Nat × Nat) (h : toPlane p = toPlane q) : p = q := by
  unfold toPlane at h
  simp only [Prod.mk.injEq] at h
  ext <;> omega

theorem inArea {g : Grid} (T : Nat × Nat → Tile) (q : Int × Int) : (layoutArr g T).In q ↔ ∃ p, g.In p ∧ q = toPlane p := by
  unfold Arr.In layoutArr
  constructor
  · rintro ⟨h1, h2, h3, h4⟩
    dsimp only at h2 h4
    exact ⟨(q.1.toNat, q.2.toNat), ⟨by simp; omega, by simp; omega⟩, by ext <;> simp [toPlane] <;> omega⟩
  · rintro ⟨p, ⟨h1, h2⟩, rfl⟩
    simp only [toPlane]
    omega

theorem nb_area {g : Grid} (hg : g.WF) (hw : g.NoWrap) (T : Nat × Nat → Tile) {p : Nat × Nat} (hp : g.In p) (d : Dir) :
    (layoutArr g T).nb (toPlane p) d = (g.nb p d).map toPlane := by
  cases hn : g.nb p d with
  | some q =>
    have hq := Grid.nb_in hg hn
    have h := (nb_plane hg hw hp hq d).1 hn
    unfold Arr.nb
    rw [h]
    simp only [Option.map_some]
    rw [Option.filter_some, if_pos]
    simpa [Arr.In] using (inArea T (toPlane q)).2 ⟨q, hq, rfl⟩
  | none =>
    rw [Option.map_none, Option.eq_none_iff_forall_not_mem]
    intro r hr
    unfold Arr.nb at hr
    rw [Option.mem_def, Option.filter_eq_some_iff] at hr
    obtain ⟨q, hq, rfl⟩ := (inArea T r).1 (by simpa [Arr.In] using hr.2)
    rw [(nb_plane hg hw hp hq d).2 hr.1] at hn
    cases hn

/-- Exporting a solution of the basic rules and decoding the result gives a copy of it. -/
theorem copy_restored {g : Grid} (hg : g.WF) (hw : g.NoWrap) {T : Nat × Nat → Tile} (hj : Joined g.In g.nb T) (he : SplitterEnds g.In g.nb T)
    {B : Int × Int → Tile} (hB : ∀ p, Restored (layoutArr g T).board p (B p)) (hbasic : ∀ p, g.In p → (T p).Basic) :
    LayoutCopy g.In g.nb T (layoutArr g T).In (layoutArr g T).nb B toPlane ∧
      ∀ p, g.In p → B (toPlane p) = T p ∨ ∃ i o, T p = .belt i o ∧ g.nb p i.opp = none ∧ B (toPlane p) = .belt o o := by
  have hbelt : ∀ p i o, g.In p → T p = .belt i o → B (toPlane p) = .belt (if (g.nb p i.opp).isSome then i else o) o := by
    intro p i o hp hb
    have hf := fed_layout hg hw hj he hp hb
    have hr := hB (toPlane p)
    unfold Restored at hr
    rw [layout_board T hp, hb] at hr
    obtain ⟨i', h1, h2⟩ := hr
    rw [h1]
    congr 1
    split
    · rename_i hs
      have honly : OnlyFeeder (layoutArr g T).board (toPlane p) i := fun d => by
        rw [hf]
        exact ⟨fun h => h.1, fun h => ⟨h, hs⟩⟩
      rcases h2 with h2 | ⟨h2, _⟩
      · exact ((hf i').1 ((h2 i').2 rfl)).1
      · exact absurd ⟨i, honly⟩ h2
    · rename_i hs
      rcases h2 with h2 | ⟨_, h2⟩
      · exact absurd ((hf i').1 ((h2 i').2 rfl)).2 hs
      · exact h2
  have hsame : ∀ p, g.In p → (∀ i o, T p ≠ .belt i o) → B (toPlane p) = T p := by
    intro p hp hb
    have hr := hB (toPlane p)
    have hbas := hbasic p hp
    unfold Restored at hr
    rw [layout_board T hp] at hr
    revert hr hb hbas
    cases T p <;> simp [Tile.Basic]
  have hemits : ∀ p d, g.In p → ((B (toPlane p)).Emits d ↔ (T p).Emits d) := by
    intro p d hp
    by_cases hb : ∃ i o, T p = .belt i o
    · obtain ⟨i, o, hb⟩ := hb
      rw [hbelt p i o hp hb, hb]
      rfl
    · push Not at hb
      rw [hsame p hp hb]
  refine ⟨⟨fun p hp => (inArea T _).2 ⟨p, hp, rfl⟩, fun r hr => (inArea T r).1 hr, toPlane_inj, fun p d hp => nb_area hg hw T hp d,
    fun p q d hp hq => Grid.nb_in hg hq, hsame, fun p i o hp hb => ⟨_, hbelt p i o hp hb⟩, fun p q d hp hq => ?_⟩, fun p hp => ?_⟩
  · unfold Connected
    rw [nb_area hg hw T hp, hemits p d hp]
    have hn : Option.map toPlane (g.nb p d) = some (toPlane q) ↔ g.nb p d = some q := by
      rw [Option.map_eq_some_iff]
      constructor
      · rintro ⟨q', h, e⟩
        rw [h, toPlane_inj _ _ e]
      · intro h
        exact ⟨q, h, rfl⟩
    rw [hn]
    refine and_congr_right fun hnb => and_congr_right fun hem => ?_
    by_cases hb : ∃ i o, T q = .belt i o
    · obtain ⟨i, o, hb⟩ := hb
      have hf := (fed_layout hg hw hj he hq hb d).1 ⟨toPlane p, (nb_plane hg hw hp hq d).1 hnb, by rw [layout_board T hp]; exact hem⟩
      rw [hbelt q i o hq hb, hb, if_pos hf.2]
    · push Not at hb
      rw [hsame q hq hb]
  · by_cases hb : ∃ i o, T p = .belt i o
    · obtain ⟨i, o, hb⟩ := hb
      have := hbelt p i o hp hb
      split at this
      · exact .inl (this.trans hb.symm)
      · rename_i hs
        exact .inr ⟨i, o, hb, by simpa using hs, this⟩
    · push Not at hb
      exact .inl (hsame p hp hb)

section
variable {lib : CardLib} {net : PyDict Node Nat} {width height : Nat} {ugLen : Option Nat} {o : BalancerOptions} {g : Grid}
  {node : Nat × Nat → List Lit} {cs : Cnf} {s' : Nat}

/-- The blueprint text `text` of the layout `T` is decoded to an array which, with its corner put at `(x0, y0)`, is `B`. -/
def PastedAs (c : Codec) (text : List Char) (B : Int × Int → Tile) : Prop :=
  ∃ (data : Json) (b : Arr Tile) (x0 y0 : Int), decodeBlueprint c text = .ok data ∧ importBlueprint data = .ok b ∧ B = placed b x0 y0

/-- Something is supplied at the inputs of the solution. -/
def Grid.inputAt (g : Grid) (v : Asg) (q : Int × Int) : Prop := ∃ p, g.In p ∧ q = toPlane p ∧ ev v (g.at' p).isInput = true

/-- C103: a layout printed by `belt_balancer` and turned into a blueprint by `blueprint encode`.  Put where it came from, what the blueprint is
decoded to has the tiles of the printed layout and no others, except that belts fed from outside run straight; and items move on it as they
do on the printed layout. -/
theorem c103_pasted (hl : lib.Correct) (hpos : ∀ c ∈ netColours net, 0 ≤ c) (hw : 2 ≤ width) (hh : 2 ≤ height)
    (hc : balancerMain lib net width height ugLen o = .ok (g, node, cs, s')) (v : Asg) (hs : Sat v cs) (T : Nat × Nat → Tile)
    (hT : Decodes g v T) (hk : ∃ p, g.In p ∧ T p ≠ .empty) (c : Codec) (label : Option (List Char)) (level : BeltLevel) {line : List Char}
    (hline : SolutionLine line (layoutArr g T)) :
    ∃ text B, encodeLine c label level line = .ok text ∧ PastedAs c text B ∧
      (∀ q, B q ≠ .empty → ∃ p, g.In p ∧ q = toPlane p) ∧
      (∀ p, g.In p → B (toPlane p) = T p ∨ ∃ i o, T p = .belt i o ∧ g.nb p i.opp = none ∧ B (toPlane p) = .belt o o) ∧
      (∀ p, g.In p → (LeavesAt (layoutArr g T).nb B (toPlane p) ↔ LeavesAt g.nb T p)) ∧
      ∀ F : Int × Int → ℚ,
        Carries (layoutArr g T).In (layoutArr g T).nb B (Connected (layoutArr g T).nb B) (g.inputAt v) F ↔
        Carries g.In g.nb T (Connected g.nb T) (fun p => ev v (g.at' p).isInput = true) fun p => F (toPlane p) := by
  obtain ⟨P, hP⟩ := balancerMain_parts hc
  have hH := (hP v).1 hs
  have hx := hH.2.1
  obtain ⟨k, V, a0, m0, b0, n0, hR⟩ := P.ready hl hpos hw hh
  have hg := hR.wf
  have hnw : g.NoWrap := by unfold Grid.NoWrap; rw [hR.edge]; exact ⟨rfl, rfl⟩
  obtain ⟨hi, _⟩ := hR.base.sound v hH.1
  obtain ⟨ci, hci, hci'⟩ := init_iff hg
  have hsi := (hci' v).2 hi
  have hlay := lays_of_decodes hi hT
  have hj := c18_joined hg hci v hsi hx T hT
  have he := ends_of_sem hg hlay ((Sat_intersection g v).1 hx)
  have hbasic : ∀ p, g.In p → (T p).Basic := fun p hp => (hlay p hp).basic
  have hval : (layoutArr g T).AllValid := by
    intro y x
    have := hbasic (x.val, y.val) ⟨x.isLt, y.isLt⟩
    show (T (x.val, y.val)).Valid
    revert this
    cases T (x.val, y.val) <;> simp [Tile.Basic, Tile.Valid]
    exact fun h e => h e.symm
  have henc := c45_encodable hg hnw hci v hsi hx T hT
  have hkept : ∃ p, ((layoutArr g T).board p).Kept := by
    obtain ⟨p, hp, hne⟩ := hk
    refine ⟨toPlane p, ?_⟩
    rw [layout_board T hp]
    have := hbasic p hp
    revert this hne
    cases T p <;> simp [Tile.Basic, Tile.Kept]
  obtain ⟨data, b, x0, y0, h1, h2, h3, h4⟩ := c44_roundtrip level label (layoutArr g T) henc hkept
  obtain ⟨C, hC⟩ := copy_restored hg hnw hj he (B := placed b x0 y0) h4 hbasic
  have hsup : ∀ p, g.In p → (g.inputAt v (toPlane p) ↔ ev v (g.at' p).isInput = true) := by
    intro p hp
    constructor
    · rintro ⟨p', _, e, h⟩
      rw [toPlane_inj _ _ e]
      exact h
    · intro h
      exact ⟨p, hp, rfl, h⟩
  refine ⟨encodeBlueprint c data, placed b x0 y0, ?_, ⟨data, b, x0, y0, c72_export c _ label _ data h1, h2, rfl⟩, fun q hq => ?_, hC,
    fun p hp => C.leaves hp, fun F => ⟨C.carries hsup, C.carries_back hsup⟩⟩
  · unfold encodeLine
    rw [layoutOf_line hval hline]
    simp only
    rw [h1]
  · apply layout_in (T := T)
    intro hem
    have := h4 q
    unfold Restored at this
    rw [hem] at this
    exact hq this

/-- C103, partial: the blueprint of a printed balancer is a balancer.  Whatever is supplied at the inputs, all belts leaving the area carry the
same, provided that no splitter stands directly in front of another.  Without this condition it is false, as for the printed layout:
`c77_adjacent_refuted`. -/
theorem c103_balances_partial (hl : lib.Correct) (hv : net.Valid) (hpos : ∀ c ∈ netColours net, 0 ≤ c) (hw : 2 ≤ width) (hh : 2 ≤ height)
    (hc : balancerMain lib net width height ugLen o = .ok (g, node, cs, s')) (v : Asg) (hs : Sat v cs) (T : Nat × Nat → Tile)
    (hT : Decodes g v T) (hk : ∃ p, g.In p ∧ T p ≠ .empty) (a m a' n : Int) (hE : Ends (elements net) a m a' n)
    (hbal : IsBalancer (elements net) a a')
    (hapart : ∀ p q d, g.In p → Connected g.nb T p q d → ¬ ((T p).IsSplitter ∧ (T q).IsSplitter))
    (c : Codec) (label : Option (List Char)) (level : BeltLevel) {line : List Char} (hline : SolutionLine line (layoutArr g T)) :
    ∃ text B, encodeLine c label level line = .ok text ∧ PastedAs c text B ∧ ∀ F : Int × Int → ℚ,
      Carries (layoutArr g T).In (layoutArr g T).nb B (Connected (layoutArr g T).nb B) (g.inputAt v) F →
        ∀ p q, (layoutArr g T).In p → (layoutArr g T).In q → LeavesAt (layoutArr g T).nb B p → LeavesAt (layoutArr g T).nb B q → F p = F q := by
  obtain ⟨text, B, h1, h2, _, _, h5, h6⟩ := c103_pasted hl hpos hw hh hc v hs T hT hk c label level hline
  refine ⟨text, B, h1, h2, fun F hF p q hp hq hlp hlq => ?_⟩
  obtain ⟨P, hP⟩ := balancerMain_parts hc
  have hH := (hP v).1 hs
  obtain ⟨p, hp', rfl⟩ := (inArea T p).1 hp
  obtain ⟨q, hq', rfl⟩ := (inArea T q).1 hq
  exact c77_balances_partial hl hv hpos P.hbase hw hh v hH.1 hH.2.1 T hT a m a' n hE hbal hapart _ ((h6 F).1 hF) p q hp' hq'
    ((h5 p hp').1 hlp) ((h5 q hq').1 hlq)

end

/-! ### A case: one splitter between belts -/

theorem exShareMain_sat : okSat exShareAsg (balancerCnf (balancerMain naiveLib exOne 3 2 (some 4) {})) = true := by decide +kernel

/-- The text that the case of C77 is printed as. -/
def exShareText : List Char := (cellsJson (tileCells (layoutArr exShareGrid exShareLayout))).dumps

/-- The hypotheses of C103 are met by the case of C77, and there is a flow in which the inputs differ. -/
example : ∃ node cs s', exOne.Valid ∧ (∀ c ∈ netColours exOne, 0 ≤ c) ∧
    balancerMain naiveLib exOne 3 2 (some 4) {} = .ok (exShareGrid, node, cs, s') ∧ Sat exShareAsg cs ∧
    Decodes exShareGrid exShareAsg exShareLayout ∧ Ends (elements exOne) 0 2 1 2 ∧ IsBalancer (elements exOne) 0 1 ∧
    (∀ p q d, exShareGrid.In p → Connected exShareGrid.nb exShareLayout p q d →
      ¬ ((exShareLayout p).IsSplitter ∧ (exShareLayout q).IsSplitter)) ∧
    SolutionLine exShareText (layoutArr exShareGrid exShareLayout) ∧
    ∃ text B F, encodeLine pairCodec none .normal exShareText = .ok text ∧ PastedAs pairCodec text B ∧
      Carries (layoutArr exShareGrid exShareLayout).In (layoutArr exShareGrid exShareLayout).nb B
        (Connected (layoutArr exShareGrid exShareLayout).nb B) (exShareGrid.inputAt exShareAsg) F ∧ F (0, 0) = 1 ∧ F (0, 1) = 5 := by
  obtain ⟨_, _, _, h1, h2, _, _, _, h3, h4, h5, h6, h7⟩ := exShare_case
  obtain ⟨g, node, cs, s', h8, h9⟩ := balancerCnf_ok exShareMain_sat
  obtain ⟨P, hP⟩ := balancerMain_parts h8
  have := createBalancer_grid P.hbase (m := 1) (by decide)
  subst this
  have hline : SolutionLine exShareText (layoutArr exShareGrid exShareLayout) := solutionLine_write (by decide) (by decide)
  obtain ⟨text, B, e1, e2, _, _, _, e6⟩ := c103_pasted naiveLib_correct h2 (by decide) (by decide) h8 exShareAsg h9 exShareLayout h3
    ⟨(0, 0), ⟨by decide, by decide⟩, by decide⟩ pairCodec none .normal hline
  refine ⟨node, cs, s', h1, h2, h8, h9, h3, h4, h5, h6, hline, text, B, fun p => exShareFlow (p.1.toNat, p.2.toNat), e1, e2, (e6 _).2 ?_, rfl, rfl⟩
  exact h7

end FSat
