import Verif.Spec.ReadBack
import Verif.Props.PrintPrograms
import Verif.Props.Pasted
/-!
# C110: `... | blueprint encode | blueprint decode` for the programs without a network and for `interchange`
-/

namespace FSat

section
variable {g : Grid} {T : Nat × Nat → Tile} {shutB shutU : Nat × Nat → Dir → Prop} {L : Option Nat}

theorem encodable_of_rules (hg : g.WF) (hw : g.NoWrap) (hr : BasicRules g.In g.nb T shutB shutU L) : Encodable (layoutArr g T).board := by
  have basic : ∀ q, ((layoutArr g T).board q).Basic := by
    intro q
    by_cases h0 : (layoutArr g T).board q = .empty
    · rw [h0]; trivial
    · obtain ⟨p, hp, rfl⟩ := layout_in h0
      rw [layout_board T hp]
      exact hr.basic p hp
  refine ⟨fun p x y h => ?_, fun p d k h => ?_, ⟨fun q d _ h => ?_, fun q d _ h => ?_⟩, fun q i o hb ho => ?_⟩
  · have := basic p; rw [h] at this; exact this
  · have := basic p; rw [h] at this; exact this.elim
  · obtain ⟨p, hp, rfl⟩ := layout_in (g := g) (T := T) (q := q) (by rw [h]; simp)
    rw [layout_board T hp] at h
    obtain ⟨r, hr, h1, h2, h3⟩ := hr.splitters.head p d hp h
    exact ⟨toPlane r, trivial, by rw [layout_board T hp]; exact h1, (nb_plane hg hw hp hr _).1 h2, by rw [layout_board T hr]; exact h3⟩
  · obtain ⟨p, hp, rfl⟩ := layout_in (g := g) (T := T) (q := q) (by rw [h]; simp)
    rw [layout_board T hp] at h
    obtain ⟨r, hr, h1, h2, h3⟩ := hr.splitters.tail p d hp h
    exact ⟨toPlane r, trivial, by rw [layout_board T hr]; exact h1, (nb_plane hg hw hr hp _).1 h2, by rw [layout_board T hp]; exact h3⟩
  · obtain ⟨p, hp, rfl⟩ := layout_in (g := g) (T := T) (q := q) (by rw [hb]; simp)
    rw [layout_board T hp] at hb
    have := ((fed_layout hg hw hr.joined hr.ends hp hb _).1 ((ho _).2 rfl)).1
    have hbas := hr.basic p hp
    rw [hb] at hbas
    exact hbas (by rw [← this]; cases o <;> rfl)

theorem valid_of_rules (hr : BasicRules g.In g.nb T shutB shutU L) : (layoutArr g T).AllValid := by
  intro y x
  have := hr.basic (x.val, y.val) ⟨x.isLt, y.isLt⟩
  show (T (x.val, y.val)).Valid
  revert this
  cases T (x.val, y.val) <;> simp [Tile.Basic, Tile.Valid]
  exact fun h e => h e.symm

theorem kept_of_rules (hr : BasicRules g.In g.nb T shutB shutU L) {p : Nat × Nat} (hp : g.In p) (hne : T p ≠ .empty) :
    ((layoutArr g T).board (toPlane p)).Kept := by
  rw [layout_board T hp]
  have := hr.basic p hp
  revert this hne
  cases T p <;> simp [Tile.Basic, Tile.Kept]

/-- Belts that are fed from outside run straight. -/
def StraightFromOutside (g : Grid) (T : Nat × Nat → Tile) : Prop := ∀ p i o, g.In p → T p = .belt i o → g.nb p i.opp = none → i = o

theorem restored_same (hg : g.WF) (hw : g.NoWrap) (hr : BasicRules g.In g.nb T shutB shutU L) (hst : StraightFromOutside g T)
    {B : Int × Int → Tile} (hB : ∀ p, Restored (layoutArr g T).board p (B p)) (p : Int × Int) : B p = (layoutArr g T).board p := by
  by_cases h0 : (layoutArr g T).board p = .empty
  · have := hB p
    unfold Restored at this
    rw [h0] at this
    rw [h0]
    exact this
  · obtain ⟨q, hq, rfl⟩ := layout_in h0
    rw [layout_board T hq]
    rcases (copy_restored hg hw hr.joined hr.ends hB hr.basic).2 q hq with h | ⟨i, o, h1, h2, h3⟩
    · exact h
    · rw [h3, h1, hst q i o hq h1 h2]

theorem cut_full (hr : BasicRules g.In g.nb T shutB shutU L) (hw : 0 < g.width) (hh : 0 < g.height)
    (h0 : ∀ y < g.height, T (0, y) ≠ .empty) (h1 : ∀ y < g.height, T (g.width - 1, y) ≠ .empty) {b : Arr Tile} (hc : CutOf g T b) :
    b = layoutArr g T := by
  obtain ⟨x0, y0, hb, he⟩ := hc
  have k : ∀ x y, x < g.width → y < g.height → T (x, y) ≠ .empty →
      x0 ≤ x ∧ (x : Int) < x0 + b.cols ∧ y0 ≤ y ∧ (y : Int) < y0 + b.rows := fun x y hx hy hne =>
    hb.inside (toPlane (x, y)) (kept_of_rules hr ⟨hx, hy⟩ hne)
  have hin : ∀ p, ((layoutArr g T).board p).Kept → 0 ≤ p.1 ∧ p.1 < g.width ∧ 0 ≤ p.2 ∧ p.2 < g.height := by
    intro p hp
    obtain ⟨q, hq, rfl⟩ := layout_in (g := g) (T := T) (q := p) (by intro h; rw [h] at hp; exact hp)
    have := hq.1
    have := hq.2
    simp only [toPlane]
    omega
  have a1 := k 0 0 hw hh (h0 0 hh)
  have a2 := k (g.width - 1) (g.height - 1) (by omega) (by omega) (h1 _ (by omega))
  obtain ⟨p1, b1, c1⟩ := hb.left
  obtain ⟨p2, b2, c2⟩ := hb.right
  obtain ⟨p3, b3, c3⟩ := hb.top
  obtain ⟨p4, b4, c4⟩ := hb.bottom
  have d1 := hin p1 b1
  have d2 := hin p2 b2
  have d3 := hin p3 b3
  have d4 := hin p4 b4
  have ex : x0 = 0 := by omega
  have ey : y0 = 0 := by omega
  subst ex ey
  refine Arr.ext' (show b.rows = g.height by omega) (show b.cols = g.width by omega) fun i j hi hj => ?_
  have := he ((j : Int), (i : Int))
  simp only [sub_zero] at this
  have e1 := b.board_get ⟨i, hi⟩ ⟨j, hj⟩
  have e2 := layout_board (g := g) T (p := (j, i)) ⟨show j < g.width by omega, show i < g.height by omega⟩
  simp only [toPlane] at e2
  rw [← e1, this, e2]
  rfl

end

/-- C110: lines printed for layouts that obey the basic rules, contain something and whose belts fed from outside run straight come back from
`blueprint encode | blueprint decode` unchanged, cut to what they contain. -/
theorem c110_lines {g : Grid} (hg : g.WF) (hw : g.NoWrap) {c : Codec} (h1 : c.OneLine) (label : Option (List Char)) (level : BeltLevel)
    {shutB shutU : Nat × Nat → Dir → Prop} {L : Option Nat} {Wanted : (Nat × Nat → Tile) → Prop}
    (hW : ∀ T, Wanted T → BasicRules g.In g.nb T shutB shutU L ∧ StraightFromOutside g T ∧ ∃ p, g.In p ∧ T p ≠ .empty)
    {ls : List (List Char)} {Ts : List (Nat × Nat → Tile)} (hi : IsInput (textOf ls) ls)
    (hp : List.Forall₂ PrintedLine ls (Ts.map (layoutArr g))) (hT : ∀ T ∈ Ts, Wanted T) :
    ComesBack g Wanted (CutOf g) c label level ⟨textOf ls, .finished⟩ := by
  obtain ⟨mid, outs, bs, e1, e2, e3, e4⟩ := c96_blueprint h1 label level hi (hp.imp fun _ _ h => c96_printed h) (by
    intro a ha
    obtain ⟨T, hTm, rfl⟩ := List.mem_map.1 ha
    obtain ⟨hr, _, p, hp, hne⟩ := hW T (hT T hTm)
    exact ⟨valid_of_rules hr, encodable_of_rules hg hw hr, _, kept_of_rules hr hp hne⟩)
  refine ⟨ls, Ts, mid, outs, bs, rfl, hp, hT, e1, e2, e3, ?_⟩
  clear e1 e2 e3 hi hp
  induction Ts generalizing bs with
  | nil =>
    rw [List.map_nil, List.forall₂_nil_left_iff] at e4
    subst e4
    exact .nil
  | cons T Ts ih =>
    rw [List.map_cons] at e4
    cases e4 with
    | cons h t =>
      obtain ⟨x0, y0, h2, h3⟩ := h
      obtain ⟨hr, hst, _⟩ := hW T (hT T (.head _))
      exact .cons ⟨x0, y0, h2, fun p => restored_same hg hw hr hst h3 p⟩ (ih (fun T h => hT T (.tail _ h)) _ t)

/-- The same without anything cut off. -/
theorem c110_lines_full {g : Grid} (hg : g.WF) (hw : g.NoWrap) {c : Codec} (h1 : c.OneLine) (label : Option (List Char)) (level : BeltLevel)
    {shutB shutU : Nat × Nat → Dir → Prop} {L : Option Nat} {Wanted : (Nat × Nat → Tile) → Prop}
    (hW : ∀ T, Wanted T → BasicRules g.In g.nb T shutB shutU L ∧ StraightFromOutside g T ∧
      ∀ y < g.height, T (0, y) ≠ .empty ∧ T (g.width - 1, y) ≠ .empty)
    {ls : List (List Char)} {Ts : List (Nat × Nat → Tile)} (hi : IsInput (textOf ls) ls)
    (hp : List.Forall₂ PrintedLine ls (Ts.map (layoutArr g))) (hT : ∀ T ∈ Ts, Wanted T) :
    ComesBack g Wanted (fun T b => b = layoutArr g T) c label level ⟨textOf ls, .finished⟩ := by
  have hw0 : 0 < g.width := by have := hg.w; omega
  have hh0 : 0 < g.height := by have := hg.h; omega
  obtain ⟨ls', Ts', mid, outs, bs, e0, e1, e2, e3, e4, e5, e6⟩ := c110_lines hg hw h1 label level
    (fun T h => ⟨(hW T h).1, (hW T h).2.1, (0, 0), ⟨hw0, hh0⟩, ((hW T h).2.2 0 hh0).1⟩) hi hp hT
  refine ⟨ls', Ts', mid, outs, bs, e0, e1, e2, e3, e4, e5, ?_⟩
  clear e1 e3 e4 e5
  induction e6 with
  | nil => exact .nil
  | cons h _ ih =>
    obtain ⟨hr, _, hne⟩ := hW _ (e2 _ (.head _))
    exact .cons (cut_full hr hw0 hh0 (fun y hy => (hne y hy).1) (fun y hy => (hne y hy).2) h) (ih fun T hT => e2 T (.tail _ hT))

/-- Both ways to call a program. -/
theorem comesBack_runs {g : Grid} {Wanted : (Nat × Nat → Tile) → Prop} {Back : (Nat × Nat → Tile) → Arr Tile → Prop} {c : Codec}
    {label : Option (List Char)} {level : BeltLevel}
    (hlines : ∀ (ls : List (List Char)) (Ts : List (Nat × Nat → Tile)), IsInput (textOf ls) ls → List.Forall₂ PrintedLine ls (Ts.map (layoutArr g)) → (∀ T ∈ Ts, Wanted T) →
      ComesBack g Wanted Back c label level ⟨textOf ls, .finished⟩) {all first : Nat → Run} (ha : PrintsAll g Wanted all)
    (hf : ∀ fuel, PrintsFirst g Wanted (first fuel)) :
    (∃ enough, ∀ fuel, enough ≤ fuel → ComesBack g Wanted Back c label level (all fuel)) ∧
      ∀ fuel, ComesBack g Wanted Back c label level (first fuel) := by
  constructor
  · obtain ⟨enough, h⟩ := ha
    refine ⟨enough, fun fuel hle => ?_⟩
    obtain ⟨ls, Ts, e1, e2, e3, e4, _⟩ := h fuel hle
    rw [e1]
    exact hlines ls Ts e2 e3 e4
  · intro fuel
    rcases hf fuel with ⟨e, _⟩ | ⟨l, T, e1, e2, e3, e4⟩
    · rw [e]
      exact hlines [] [] (isInput_textOf (ls := []) (by simp)) .nil (by simp)
    · rw [e1]
      exact hlines [l] [T] e2 (.cons e3 .nil) (by simpa using e4)

theorem PrintsOnce.all {g : Grid} {Wanted : (Nat × Nat → Tile) → Prop} {run : Nat → Run} (h : PrintsOnce g Wanted run) : PrintsAll g Wanted run := by
  obtain ⟨enough, h⟩ := h
  refine ⟨enough, fun fuel hle => ?_⟩
  obtain ⟨ls, Ts, e1, e2, e3, e4, e5, _⟩ := h fuel hle
  exact ⟨ls, Ts, e1, e2, e3, e4, e5⟩

section
variable {g : Grid} {T : Nat × Nat → Tile} {shutU : Nat × Nat → Dir → Prop} {L : Option Nat}

/-- Nothing comes in through the upper and lower sides, so only the first and last columns matter. -/
theorem straight_of_columns (hg : g.WF) (hr : BasicRules g.In g.nb T (g.shut (.ofPair false true)) shutU L)
    (h0 : ∀ y < g.height, ∀ o, T (0, y) = .belt .right o → o = .right) (h1 : ∀ y < g.height, ∀ o, T (g.width - 1, y) ≠ .belt .left o) :
    StraightFromOutside g T := by
  intro p i o hp h hn
  obtain ⟨x, y⟩ := p
  have hon := ((Grid.nb_none_iff hg hp _).1 hn).2
  have hsh := hr.surface (x, y) i.opp hp
  cases i
  · have : x = 0 := hon
    subst this
    exact (h0 y hp.2 o h).symm
  · exact absurd (show (T (x, y)).Takes .up by rw [h]; rfl) (hsh ⟨rfl, hon⟩).2.1
  · have : x = g.width - 1 := hon
    subst this
    exact absurd h (h1 y hp.2 o)
  · exact absurd (show (T (x, y)).Takes .down by rw [h]; rfl) (hsh ⟨rfl, hon⟩).2.1

/-- Blocks of straight belts in the first and last columns. -/
theorem straight_of_blocks (hg : g.WF) (hr : BasicRules g.In g.nb T (g.shut (.ofPair false true)) shutU L) {i j m n : Nat}
    (h0 : BlockAt g.height i m (fun y => T (0, y) = .belt .right .right) (fun y => T (0, y) = .empty))
    (h1 : BlockAt g.height j n (fun y => T (g.width - 1, y) = .belt .right .right) (fun y => T (g.width - 1, y) = .empty)) :
    StraightFromOutside g T := by
  refine straight_of_columns hg hr (fun y hy o h => ?_) fun y hy o h => ?_
  · have := h0.2 y hy
    split at this
    · rw [this] at h; cases h; rfl
    · rw [this] at h; cases h
  · have := h1.2 y hy
    split at this
    · rw [this] at h; cases h
    · rw [this] at h; cases h

theorem takes_once {t : Tile} {d e : Dir} (h1 : t.Takes d) (h2 : t.Takes e) : d = e := by
  cases t with
  | belt i o => exact (show i = d from h1).symm.trans h2
  | underground x b => cases b with
    | true => exact (show x = d from h1).symm.trans h2
    | false => exact h1.elim
  | splitter x b => exact (show x = d from h1).symm.trans h2
  | _ => exact h1.elim

theorem straight_of_entry (hg : g.WF) (he : g.edge = ⟨false, false⟩) (hr : BasicRules g.In g.nb T (g.shut (.ofPair false true)) shutU L)
    (h0 : ∀ y < g.height, (T (0, y)).Takes .right) (h1 : ∀ y < g.height, (T (g.width - 1, y)).Emits .right) : StraightFromOutside g T := by
  have hw0 : 0 < g.width := by have := hg.w; omega
  refine straight_of_columns hg hr (fun y hy o h => ?_) fun y hy o h => ?_
  · have hp : g.In (0, y) := ⟨hw0, hy⟩
    have hem : (T (0, y)).Emits o := by rw [h]; rfl
    cases hn : g.nb (0, y) o with
    | some q =>
      have ht := hr.joined.out (0, y) q o hp hn hem (by rw [h]; simp [Tile.IsSplitter])
      have hq := Grid.nb_in hg hn
      have hb := hr.basic q hq
      have hbp := hr.basic (0, y) hp
      rw [h] at hbp
      cases o
      · rfl
      all_goals (
        rw [nb_flat hg he hp] at hn
        first
        | exact absurd rfl hbp
        | (obtain ⟨a, b⟩ := q
           have h0' : a = 0 := by simp [Dir.dx, Dir.dy] at hn; omega
           subst h0'
           have := h0 b hq.2
           exact absurd (takes_once ht this) (by decide)))
    | none =>
      have hon := ((Grid.nb_none_iff hg hp _).1 hn).2
      have hsh := hr.surface (0, y) o hp
      have hbp := hr.basic (0, y) hp
      rw [h] at hbp
      cases o
      · rfl
      · exact absurd hem (hsh ⟨rfl, hon⟩).1
      · exact absurd rfl hbp
      · exact absurd hem (hsh ⟨rfl, hon⟩).1
  · have := h1 y hy
    have hb := hr.basic (g.width - 1, y) ⟨by show _ < _; omega, hy⟩
    rw [h] at this hb
    have : o = .right := this
    subst this
    exact hb rfl

end

section
variable {width height : Nat} {ugLen : Option Nat} {aligned : Bool} {layout : Option (List (List Tile))} {g : Grid} {cs : Cnf} {s : Nat}
  {solver : Oracle} {c : Codec}

/-- C110: what `belt_balancer_net_free` prints for equally many inputs and outputs comes back from `blueprint encode | blueprint decode`. -/
theorem c110_free {size : Nat} (hw : 2 ≤ width) (hh : 0 < height) (hn : 0 < size) (hL : ∀ l, ugLen = some l → 1 ≤ l)
    (h : freeProgram width height ugLen size size aligned layout = .ok (g, cs, s)) (hs : CorrectSolver solver) (hf : CompleteSolver solver)
    (h1 : c.OneLine) (label : Option (List Char)) (level : BeltLevel) :
    let Wanted := fun T => (ShareBalancer g T size (Nat.lcm (2 ^ Nat.clog 2 size) size) aligned ∧
      TidyFree g.In g.nb width height ugLen T (fun p d => (T p).Takes d) (fun p d => (T p).Emits d)) ∧
      ∀ rows, layout = some rows → Contains T rows
    (∃ enough, ∀ fuel, enough ≤ fuel →
      ComesBack g Wanted (CutOf g) c label level (freeRun width height ugLen size size aligned layout solver true fuel)) ∧
    ∀ fuel, ComesBack g Wanted (CutOf g) c label level (freeRun width height ugLen size size aligned layout solver false fuel) := by
  intro Wanted
  obtain ⟨_, e0, _⟩ := createNToN_eq (ugLen := ugLen) (show 0 < width by omega) hh hn
  obtain ⟨hgd, _⟩ := freeProgram_grid e0 h
  have hg : g.WF := by rw [hgd]; exact mkGrid_wf (by omega) hh _ none _ (by intro n h; cases h) _ _
  have hnw : g.NoWrap := by rw [hgd]; exact ⟨rfl, rfl⟩
  obtain ⟨k1, k2⟩ := c105_free hw hh hn hL h hs hf
  refine comesBack_runs (fun ls Ts hi hp hT => c110_lines hg hnw h1 label level (Wanted := Wanted)
    (shutB := g.shut (.ofPair false true)) (shutU := g.shut (.ofBool true)) (L := g.ugLen) ?_ hi hp hT) k1.all k2
  rintro T ⟨⟨⟨hr, _, i, j, b0, b1, _⟩, _⟩, _⟩
  have hi := b0.1
  refine ⟨hr, straight_of_blocks hg hr b0 b1, (0, i), ⟨by show 0 < _; have := hg.w; omega, by show i < _; omega⟩, ?_⟩
  have := b0.2 i (by omega)
  rw [if_pos (by omega)] at this
  rw [this]
  simp

/-- C110: the same for other numbers of inputs and outputs. -/
theorem c110_mix {m n : Nat} (hw : 2 ≤ width) (hh : 0 < height) (hm : 0 < m) (hn : 0 < n) (hne : m ≠ n) (hL : ∀ l, ugLen = some l → 1 ≤ l)
    (h : freeProgram width height ugLen m n aligned layout = .ok (g, cs, s)) (hs : CorrectSolver solver) (hf : CompleteSolver solver)
    (h1 : c.OneLine) (label : Option (List Char)) (level : BeltLevel) :
    let Wanted := fun T => (∃ conn, MixBalancer g T conn m n (mixUnit m n) aligned ∧
      TidyFree g.In g.nb width height ugLen T (EntryUsed g.nb T conn) (ExitUsed g.nb T conn)) ∧
      ∀ rows, layout = some rows → Contains T rows
    (∃ enough, ∀ fuel, enough ≤ fuel →
      ComesBack g Wanted (CutOf g) c label level (freeRun width height ugLen m n aligned layout solver true fuel)) ∧
    ∀ fuel, ComesBack g Wanted (CutOf g) c label level (freeRun width height ugLen m n aligned layout solver false fuel) := by
  intro Wanted
  obtain ⟨_, e0, _⟩ := createNToM_eq (ugLen := ugLen) (show 0 < width by omega) hh hm hn hne
  obtain ⟨hgd, _⟩ := freeProgram_grid e0 h
  have hg : g.WF := by rw [hgd]; exact mkGrid_wf (by omega) hh _ none _ (by intro n h; cases h) _ _
  have hnw : g.NoWrap := by rw [hgd]; exact ⟨rfl, rfl⟩
  obtain ⟨k1, k2⟩ := c105_mix hw hh hm hn hne hL h hs hf
  refine comesBack_runs (fun ls Ts hi hp hT => c110_lines hg hnw h1 label level (Wanted := Wanted)
    (shutB := g.shut (.ofPair false true)) (shutU := g.shut (.ofBool true)) (L := g.ugLen) ?_ hi hp hT) k1 k2
  rintro T ⟨⟨_, ⟨hr, _, _, i, j, b0, b1, _⟩, _⟩, _⟩
  have hi := b0.1
  refine ⟨hr, straight_of_blocks hg hr b0 b1, (0, i), ⟨by show 0 < _; have := hg.w; omega, by show i < _; omega⟩, ?_⟩
  have := b0.2 i (by omega)
  rw [if_pos (by omega)] at this
  rw [this]
  simp

/-- C110: what `belt_balancer_net_free_power_of_2` prints comes back exactly. -/
theorem c110_power {lib : CardLib} (hl : lib.Correct) (hw : 2 ≤ width) (hL : ∀ l, ugLen = some l → 1 ≤ l)
    (h : powerProgram lib width height ugLen layout = .ok (g, cs, s)) (hs : CorrectSolver solver) (hf : CompleteSolver solver)
    (h1 : c.OneLine) (label : Option (List Char)) (level : BeltLevel) :
    let Wanted := fun T => (PowerBalancer g T width height ugLen ∧
      TidyPower g.In g.nb width height ugLen T (fun p d => (T p).Takes d) (fun p d => (T p).Emits d)) ∧
      ∀ rows, layout = some rows → Contains T rows
    (∃ enough, ∀ fuel, enough ≤ fuel →
      ComesBack g Wanted (fun T b => b = layoutArr g T) c label level (powerRun lib width height ugLen layout solver true fuel)) ∧
    ∀ fuel, ComesBack g Wanted (fun T b => b = layoutArr g T) c label level (powerRun lib width height ugLen layout solver false fuel) := by
  intro Wanted
  obtain ⟨cs0, cs1, e0, e1, _⟩ := withPartial_exact h
  obtain ⟨hh, hgd⟩ : 0 < height ∧
      g = mkGrid width height ⟨false, false⟩ (some (2 ^ (height / 2))) ugLen (levelFields (powerLevels height)) 0 := by
    unfold powerBalancerMain at e0
    split at e0
    · cases e0
    · rename_i e2
      split at e0
      · cases e0
      · simp only [Except.ok.injEq, Prod.mk.injEq] at e0
        obtain ⟨rfl, rfl, rfl⟩ := e0
        obtain ⟨_, b, c, _⟩ := power_mentions e2
        exact ⟨b, c⟩
  have hg : g.WF := by rw [hgd]; exact mkGrid_wf (by omega) hh _ _ _ (by intro n h; cases h; exact Nat.one_le_two_pow) _ _
  have hnw : g.NoWrap := by rw [hgd]; exact ⟨rfl, rfl⟩
  have ew : g.width = width := by rw [hgd]; rfl
  have eh : g.height = height := by rw [hgd]; rfl
  obtain ⟨k1, k2⟩ := c105_power hl hw hL h hs hf
  refine comesBack_runs (fun ls Ts hi hp hT => c110_lines_full hg hnw h1 label level (Wanted := Wanted)
    (shutB := g.shut (.ofPair false true)) (shutU := g.shut (.ofBool true)) (L := ugLen) ?_ hi hp hT) k1.all k2
  rintro T ⟨⟨⟨hr, hcol, _⟩, _⟩, _⟩
  rw [← ew, ← eh] at hcol
  refine ⟨hr, straight_of_columns hg hr (fun y hy o h => ?_) fun y hy o h => ?_, fun y hy => ?_⟩
  · rw [(hcol y hy).1] at h; cases h; rfl
  · rw [(hcol y hy).2] at h; cases h
  · rw [(hcol y hy).1, (hcol y hy).2]; simp

/-- C110: what `interchange` prints comes back exactly. -/
theorem c110_interchange {lib : CardLib} (hl : lib.Correct) {width height L : Nat} {o : InterchangeOptions} {g : Grid} {cs : Cnf} {s : Nat}
    (h : interchangeMain lib width height L o = .ok (g, cs, s)) {solver : Oracle} (hs : CorrectSolver solver) (hf : CompleteSolver solver)
    (h1 : c.OneLine) (label : Option (List Char)) (level : BeltLevel) :
    let Wanted := fun T => (∃ col, IsInterchange g.nb g.In (g.shut (.ofPair false true)) (g.shut (.ofBool true)) width height L o.alternating
      o.rotSymmetry T col) ∧ ∀ rows, o.partialLayout = some rows → Contains T rows
    (∃ enough, ∀ fuel, enough ≤ fuel →
      ComesBack g Wanted (fun T b => b = layoutArr g T) c label level (interchangeRun lib width height L o solver true fuel)) ∧
    ∀ fuel, ComesBack g Wanted (fun T b => b = layoutArr g T) c label level (interchangeRun lib width height L o solver false fuel) := by
  intro Wanted
  obtain ⟨P⟩ := interchangeMain_parts h
  have hg : g.WF := P.wf.1
  have he : g.edge = ⟨false, false⟩ := by rw [P.gd]; rfl
  have hnw : g.NoWrap := by rw [P.gd]; exact ⟨rfl, rfl⟩
  have ew : g.width = width := by rw [P.gd]; rfl
  have eh : g.height = height := by rw [P.gd]; rfl
  obtain ⟨k1, k2⟩ := c105_interchange hl h hs hf
  refine comesBack_runs (fun ls Ts hi hp hT => c110_lines_full hg hnw h1 label level (Wanted := Wanted)
    (shutB := g.shut (.ofPair false true)) (shutU := g.shut (.ofBool true)) (L := some L) ?_ hi hp hT) k1.all k2
  rintro T ⟨⟨col, hI⟩, _⟩
  have h0 := hI.entry
  have h2 := hI.exit
  rw [← eh] at h0
  rw [← ew, ← eh] at h2
  refine ⟨hI.rules, straight_of_entry hg he hI.rules h0 h2, fun y hy => ⟨fun e => ?_, fun e => ?_⟩⟩
  · have := h0 y hy; rw [e] at this; exact this
  · have := h2 y hy; rw [e] at this; exact this

end

/-! ### Instances -/

theorem pairCodec_oneLine : pairCodec.OneLine := by
  intro t h
  obtain ⟨c, -, hc⟩ := List.mem_flatMap.1 h
  split at hc
  · simp at hc
  · rename_i hn
    simp only [List.mem_cons, List.not_mem_nil, or_false] at hc
    rcases hc with hc | hc
    · cases hc
    · exact hn hc.symm

theorem comesBack_one {g : Grid} {Wanted : (Nat × Nat → Tile) → Prop} {Back : (Nat × Nat → Tile) → Arr Tile → Prop} {c : Codec}
    {label : Option (List Char)} {level : BeltLevel} {run : Run} {l : List Char} (h : ComesBack g Wanted Back c label level run)
    (e : run = ⟨textOf [l], .finished⟩) : ∃ T b mid out outs, Wanted T ∧ Back T b ∧
      blueprintEncode c label level (textOf [l]) = ⟨mid, .endOfInput⟩ ∧ blueprintDecode c mid = ⟨textOf (out :: outs), .endOfInput⟩ ∧
      SolutionLine out b := by
  obtain ⟨ls, Ts, mid, outs, bs, e0, e1, e2, e3, e4, e5, e6⟩ := h
  have h0 : textOf ls = textOf [l] := congrArg Run.out (e0.symm.trans e)
  rw [e] at e3
  cases e6 with
  | nil =>
    rw [List.map_nil, List.forall₂_nil_right_iff] at e1
    subst e1
    simp [textOf] at h0
  | cons hb t =>
    cases e5 with
    | cons ho t' => exact ⟨_, _, mid, _, _, e2 _ (.head _), hb, e3, e4, ho⟩

/-- Two inputs and two outputs: a line is printed and comes back. -/
example : ∃ solver l mid out outs g T b, freeRun 3 2 (some 4) 2 2 true (some pairRows) solver false 0 = ⟨textOf [l], .finished⟩ ∧
    blueprintEncode pairCodec none .normal (textOf [l]) = ⟨mid, .endOfInput⟩ ∧
    blueprintDecode pairCodec mid = ⟨textOf (out :: outs), .endOfInput⟩ ∧ SolutionLine out b ∧ CutOf g T b ∧ T (1, 1) = .splitter .right true := by
  obtain ⟨g, cs, s, h, hv⟩ := program_found pairRows_sat
  obtain ⟨solver, hs, hf⟩ := exists_complete
  have h1 := (c105_free (by decide) (by decide) (by decide) (by intro l h; cases h; decide) h hs hf).2 0
  have h2 := (c110_free (by decide) (by decide) (by decide) (by intro l h; cases h; decide) h hs hf pairCodec_oneLine none .normal).2 0
  obtain ⟨l, hl⟩ : ∃ l, freeRun 3 2 (some 4) 2 2 true (some pairRows) solver false 0 = ⟨textOf [l], .finished⟩ := by
    unfold freeRun at h1 ⊢
    rw [h] at h1 ⊢
    obtain ⟨l, _, hl, _⟩ := program_nonempty hs hv h1
    exact ⟨l, hl⟩
  obtain ⟨T, b, mid, out, outs, w, h3, h4, h5, h6⟩ := comesBack_one h2 hl
  exact ⟨solver, l, mid, out, outs, g, T, b, hl, h4, h5, h6, h3, w.2 pairRows rfl 1 1 _ _ rfl rfl (by simp)⟩

/-- An interchange of two belts. -/
example : ∃ solver l mid out outs g T, interchangeRun naiveLib 2 2 1 { alternating := true, rotSymmetry := true } solver false 0 =
      ⟨textOf [l], .finished⟩ ∧
    blueprintEncode pairCodec none .normal (textOf [l]) = ⟨mid, .endOfInput⟩ ∧
    blueprintDecode pairCodec mid = ⟨textOf (out :: outs), .endOfInput⟩ ∧ SolutionLine out (layoutArr g T) := by
  obtain ⟨g, cs, s, h, hv⟩ := interchangeCnf_sat exPair_sat
  obtain ⟨solver, hs, hf⟩ := exists_complete
  have h1 := (c105_interchange naiveLib_correct h hs hf).2 0
  have h2 := (c110_interchange naiveLib_correct h hs hf pairCodec_oneLine none .normal).2 0
  obtain ⟨l, hl⟩ : ∃ l, interchangeRun naiveLib 2 2 1 { alternating := true, rotSymmetry := true } solver false 0 = ⟨textOf [l], .finished⟩ := by
    unfold interchangeRun at h1 ⊢
    rw [h] at h1 ⊢
    obtain ⟨l, _, hl, _⟩ := program_nonempty hs hv h1
    exact ⟨l, hl⟩
  obtain ⟨T, b, mid, out, outs, _, rfl, h4, h5, h6⟩ := comesBack_one h2 hl
  exact ⟨solver, l, mid, out, outs, g, T, hl, h4, h5, h6⟩

end FSat
