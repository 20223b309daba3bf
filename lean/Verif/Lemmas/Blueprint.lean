import Verif.Model.Blueprint
import Verif.Spec.Blueprint
import Verif.Lemmas.Dict
import Verif.Lemmas.Tile
import Mathlib.Data.List.Basic
import Mathlib.Data.List.Nodup
/-!
# Lemmas about blueprints
-/

set_option linter.unusedSimpArgs false

namespace FSat

/-! ### Arrays as boards -/

theorem Arr.board_outside (a : Arr Tile) (p : Int × Int) (h : ¬ (0 ≤ p.1 ∧ p.1 < a.cols ∧ 0 ≤ p.2 ∧ p.2 < a.rows)) :
    a.board p = .empty := by rw [Arr.board, dif_neg h]

theorem Arr.board_get (a : Arr Tile) (y : Fin a.rows) (x : Fin a.cols) : a.board ((x.val : Int), (y.val : Int)) = a.get y x := by
  rw [Arr.board, dif_pos ⟨by simp, by simp, by simp, by simp⟩]
  simp

theorem Arr.board_setAt (a : Arr Tile) (y : Fin a.rows) (x : Fin a.cols) (t : Tile) (p : Int × Int) :
    (a.setAt y x t).board p = if p = ((x.val : Int), (y.val : Int)) then t else a.board p := by
  obtain ⟨px, py⟩ := p
  by_cases h : 0 ≤ px ∧ px < a.cols ∧ 0 ≤ py ∧ py < a.rows
  · have e1 : (a.setAt y x t).board (px, py) = (a.setAt y x t).get ⟨py.toNat, show _ < a.rows by omega⟩ ⟨px.toNat, show _ < a.cols by omega⟩ :=
      dif_pos h
    have e2 : a.board (px, py) = a.get ⟨py.toNat, by omega⟩ ⟨px.toNat, by omega⟩ := dif_pos h
    rw [e1, e2]
    simp only [Arr.setAt]
    have : ((⟨py.toNat, by omega⟩ : Fin a.rows) = y ∧ (⟨px.toNat, by omega⟩ : Fin a.cols) = x) ↔
        ((px, py) : Int × Int) = ((x.val : Int), (y.val : Int)) := by
      rw [Fin.ext_iff, Fin.ext_iff, Prod.mk.injEq]
      simp only
      constructor
      · rintro ⟨h1, h2⟩; constructor <;> omega
      · rintro ⟨h1, h2⟩; constructor <;> omega
    by_cases h' : ((px, py) : Int × Int) = ((x.val : Int), (y.val : Int))
    · rw [if_pos h', if_pos (this.2 h')]
    · rw [if_neg h', if_neg (fun e => h' (this.1 e))]
  · rw [Arr.board_outside a _ h, Arr.board_outside (a.setAt y x t) _ h, if_neg]
    rintro e
    rw [Prod.mk.injEq] at e
    have := x.isLt
    have := y.isLt
    omega

theorem Arr.lookup_eq (a : Arr Tile) (x y : Int) :
    a.lookup x y = if 0 ≤ x ∧ x < a.cols ∧ 0 ≤ y ∧ y < a.rows then some (a.board (x, y)) else none := by
  unfold Arr.lookup Arr.board
  split
  · rfl
  · rfl

theorem Arr.mem_cells {α : Type} (a : Arr α) (p : Fin a.rows × Fin a.cols) : p ∈ a.cells := by
  simp only [Arr.cells, List.mem_flatMap, List.mem_map, List.mem_finRange, true_and]
  exact ⟨p.1, p.2, rfl⟩

theorem Arr.cells_nodup {α : Type} (a : Arr α) : a.cells.Nodup := by
  unfold Arr.cells
  rw [List.nodup_flatMap]
  refine ⟨fun y _ => (List.nodup_finRange _).map fun x x' h => by simpa using h, ?_⟩
  refine (List.nodup_finRange _).imp fun {y y'} h => ?_
  rw [Function.onFun, List.disjoint_left]
  intro p h1 h2
  simp only [List.mem_map, List.mem_finRange, true_and] at h1 h2
  obtain ⟨x, rfl⟩ := h1
  obtain ⟨x', h'⟩ := h2
  simp only [Prod.mk.injEq] at h'
  exact h h'.1.symm

theorem Tile.emits_iff (t : Tile) (d : Dir) : t.Emits d ↔ t.outputDirection = some d := by
  cases t with
  | underground e b => cases b <;> simp [Tile.Emits, Tile.outputDirection]
  | _ => simp [Tile.Emits, Tile.outputDirection]

theorem planeNb_iff (p q : Int × Int) (d : Dir) : planeNb q d = some p ↔ q = (p.1 - d.dx, p.2 - d.dy) := by
  obtain ⟨px, py⟩ := p
  obtain ⟨qx, qy⟩ := q
  cases d <;> simp [planeNb, Dir.dx, Dir.dy] <;> omega

theorem fed_iff (T : Int × Int → Tile) (p : Int × Int) (d : Dir) :
    Fed T p d ↔ (T (p.1 - d.dx, p.2 - d.dy)).outputDirection = some d := by
  unfold Fed
  simp only [planeNb_iff, exists_eq_left, Tile.emits_iff]

/-! ### Input directions -/

/-- The sole feeder found by the loop over the sides. -/
def feedSpec (T : Int × Int → Tile) (p : Int × Int) : List Dir → Option Dir → Option Dir
  | [], found => found
  | d :: rest, found =>
    if (T (p.1 - d.dx, p.2 - d.dy)).outputDirection = some d then
      match found with
      | none => feedSpec T p rest (some d)
      | some _ => none
    else feedSpec T p rest found

theorem feedLoop_eq (a : Arr Tile) (x y : Int) (ds : List Dir) (found : Option Dir) :
    feedLoop a x y ds found = feedSpec a.board (x, y) ds found := by
  induction ds generalizing found with
  | nil => rfl
  | cons d ds ih =>
    simp only [feedLoop, feedSpec, Arr.lookup_eq]
    by_cases h : 0 ≤ x - d.dx ∧ x - d.dx < a.cols ∧ 0 ≤ y - d.dy ∧ y - d.dy < a.rows
    · rw [if_pos h]
      simp only
      by_cases h' : (a.board (x - d.dx, y - d.dy)).outputDirection = some d
      · rw [if_neg (by simpa using h'), if_pos h']
        cases found <;> simp [ih]
      · rw [if_pos h', if_neg h', ih]
    · rw [if_neg h, Arr.board_outside _ _ h]
      simp only [Tile.outputDirection, reduceCtorEq, if_false, ih]

theorem feedSpec_congr {T T' : Int × Int → Tile} (h : ∀ p, (T p).outputDirection = (T' p).outputDirection) (p : Int × Int)
    (ds : List Dir) (found : Option Dir) : feedSpec T p ds found = feedSpec T' p ds found := by
  induction ds generalizing found with
  | nil => rfl
  | cons d ds ih =>
    simp only [feedSpec, h]
    split
    · cases found <;> simp [ih]
    · exact ih _

/-- The input direction given to a belt at `p`. -/
def feedOf (T : Int × Int → Tile) (p : Int × Int) : Option Dir := feedSpec T p Dir.all none

theorem feedOf_iff (T : Int × Int → Tile) (p : Int × Int) (d : Dir) : feedOf T p = some d ↔ OnlyFeeder T p d := by
  unfold OnlyFeeder
  simp only [fed_iff]
  have key : ∀ (b : Dir → Prop) [DecidablePred b],
      ((if b .right then if b .up then none else if b .left then none else if b .down then none else some Dir.right
        else if b .up then if b .left then none else if b .down then none else some Dir.up
        else if b .left then if b .down then none else some Dir.left
        else if b .down then some Dir.down else none) = some d ↔ ∀ e, b e ↔ e = d) := by
    intro b _
    have hall : (∀ e, b e ↔ e = d) ↔ (b .right ↔ .right = d) ∧ (b .up ↔ .up = d) ∧ (b .left ↔ .left = d) ∧ (b .down ↔ .down = d) :=
      ⟨fun h => ⟨h _, h _, h _, h _⟩, fun ⟨h1, h2, h3, h4⟩ e => by cases e <;> assumption⟩
    rw [hall]
    by_cases h1 : b .right <;> by_cases h2 : b .up <;> by_cases h3 : b .left <;> by_cases h4 : b .down <;>
      cases d <;> simp [h1, h2, h3, h4]
  rw [← key fun e => (T (p.1 - e.dx, p.2 - e.dy)).outputDirection = some e]
  rfl

/-- The tile `resolve_belt_input_directions` leaves. -/
def resolved (T : Int × Int → Tile) (p : Int × Int) : Tile :=
  match T p with
  | .belt _ o => .belt ((feedOf T p).getD o) o
  | t => t

theorem resolved_congr {T T' : Int × Int → Tile} (h : ∀ p, (T p).outputDirection = (T' p).outputDirection) {p : Int × Int}
    (hp : T p = T' p) : resolved T p = resolved T' p := by
  unfold resolved feedOf
  rw [hp, feedSpec_congr h]

theorem Dir.reverse_eq_opp (d : Dir) : d.reverse = d.opp := by cases d <;> rfl
theorem Dir.next_eq_ccw (d : Dir) : d.next = d.ccw := by cases d <;> rfl

/-- The cells of an array, as positions of the plane. -/
def pos (p : Nat × Nat) : Int × Int := ((p.2 : Int), (p.1 : Int))

theorem pos_inj {p q : Nat × Nat} (h : pos p = pos q) : p = q := by
  obtain ⟨a, b⟩ := p
  obtain ⟨c, d⟩ := q
  simp only [pos, Prod.mk.injEq] at h
  ext <;> simp <;> omega

theorem resolveLoop_ok (l : List (Nat × Nat)) (a : Arr Tile) (hl : l.Nodup) (hin : ∀ p ∈ l, p.1 < a.rows ∧ p.2 < a.cols)
    (hh : ∀ p ∈ l, ∀ i o, a.board (pos p) = .belt i o → feedOf a.board (pos p) ≠ some o.opp) :
    ∃ b, resolveLoop a l = .ok b ∧ b.rows = a.rows ∧ b.cols = a.cols ∧
      ∀ p, b.board p = if p ∈ l.map pos then resolved a.board p else a.board p := by
  induction l generalizing a with
  | nil => exact ⟨a, by simp [resolveLoop], rfl, rfl, by simp⟩
  | cons c l ih =>
    obtain ⟨y, x⟩ := c
    obtain ⟨hc, hl'⟩ := List.nodup_cons.1 hl
    have hb := hin (y, x) (by simp)
    have hg : a.board (pos (y, x)) = a.get ⟨y, hb.1⟩ ⟨x, hb.2⟩ := Arr.board_get a ⟨y, hb.1⟩ ⟨x, hb.2⟩
    have hcm : pos (y, x) ∉ l.map pos := by
      rw [List.mem_map]
      rintro ⟨q, hq, he⟩
      exact hc (pos_inj he ▸ hq)
    rw [resolveLoop, dif_pos hb]
    have other : (∀ i o, a.get ⟨y, hb.1⟩ ⟨x, hb.2⟩ ≠ .belt i o) → ∃ b, resolveLoop a l = .ok b ∧ b.rows = a.rows ∧ b.cols = a.cols ∧
        ∀ p, b.board p = if p ∈ ((y, x) :: l).map pos then resolved a.board p else a.board p := by
      intro hn
      obtain ⟨b, h1, h2, h3, h4⟩ := ih a hl' (fun p hp => hin p (List.mem_cons_of_mem _ hp)) (fun p hp => hh p (List.mem_cons_of_mem _ hp))
      refine ⟨b, h1, h2, h3, fun p => ?_⟩
      rw [h4]
      by_cases hp : p = pos (y, x)
      · subst hp
        rw [if_neg hcm, if_pos (by simp)]
        unfold resolved
        rw [hg]
        split
        · rename_i i o he
          exact absurd he (hn i o)
        · rfl
      · simp only [List.map_cons, List.mem_cons, hp, false_or]
    split
    · rename_i i o ho
      rw [ho] at hg
      have hfeed : feedLoop a x y Dir.all none = feedOf a.board (pos (y, x)) := feedLoop_eq a x y Dir.all none
      rw [hfeed]
      have hne : ((feedOf a.board (pos (y, x))).getD o).reverse ≠ o := by
        rw [Dir.reverse_eq_opp]
        have := hh (y, x) (by simp) i o hg
        cases hf : feedOf a.board (pos (y, x)) with
        | none => cases o <;> simp [Dir.opp]
        | some d =>
          rw [hf] at this
          simp only [ne_eq, Option.some.injEq] at this
          simp only [Option.getD_some]
          intro he
          exact this (by rw [← he]; cases d <;> rfl)
      rw [Tile.mkBelt, if_neg hne]
      simp only
      set t : Tile := .belt ((feedOf a.board (pos (y, x))).getD o) o with ht
      have hset : ∀ p, (a.setAt ⟨y, hb.1⟩ ⟨x, hb.2⟩ t).board p = if p = pos (y, x) then t else a.board p :=
        Arr.board_setAt a ⟨y, hb.1⟩ ⟨x, hb.2⟩ t
      have hout : ∀ p, ((a.setAt ⟨y, hb.1⟩ ⟨x, hb.2⟩ t).board p).outputDirection = (a.board p).outputDirection := by
        intro p
        rw [hset]
        by_cases hp : p = pos (y, x)
        · rw [if_pos hp, hp, hg]; rfl
        · rw [if_neg hp]
      obtain ⟨b, h1, h2, h3, h4⟩ := ih (a.setAt ⟨y, hb.1⟩ ⟨x, hb.2⟩ t) hl' (fun p hp => hin p (List.mem_cons_of_mem _ hp)) (by
        intro p hp i' o' hbelt
        have hpne : pos p ≠ pos (y, x) := fun e => hcm (e ▸ List.mem_map_of_mem hp)
        rw [hset, if_neg hpne] at hbelt
        unfold feedOf
        rw [feedSpec_congr hout]
        exact hh p (List.mem_cons_of_mem _ hp) i' o' hbelt)
      refine ⟨b, h1, h2, h3, fun p => ?_⟩
      rw [h4]
      by_cases hp : p = pos (y, x)
      · subst hp
        rw [if_neg hcm, if_pos (by simp), hset, if_pos rfl]
        unfold resolved
        rw [hg]
      · simp only [List.map_cons, List.mem_cons, hp, false_or]
        by_cases hm : p ∈ l.map pos
        · rw [if_pos hm, if_pos hm]
          exact resolved_congr hout (by rw [hset, if_neg hp])
        · rw [if_neg hm, if_neg hm, hset, if_neg hp]
    · rename_i hn
      exact other fun i o h => hn i o h

theorem resolveInputs_ok (a : Arr Tile) (hh : ∀ p i o, a.board p = .belt i o → ¬ OnlyFeeder a.board p o.opp) :
    ∃ b, resolveInputs a = .ok b ∧ b.rows = a.rows ∧ b.cols = a.cols ∧ ∀ p, b.board p = resolved a.board p := by
  obtain ⟨b, h1, h2, h3, h4⟩ := resolveLoop_ok (a.cells.map fun p => (p.1.val, p.2.val)) a
    (a.cells_nodup.map fun p q h => by
      obtain ⟨p1, p2⟩ := p
      obtain ⟨q1, q2⟩ := q
      simp only [Prod.mk.injEq] at h ⊢
      exact ⟨Fin.ext h.1, Fin.ext h.2⟩)
    (by
      intro p hp
      obtain ⟨q, -, rfl⟩ := List.mem_map.1 hp
      exact ⟨q.1.isLt, q.2.isLt⟩)
    (fun p _ i o hb => by rw [ne_eq, feedOf_iff]; exact hh _ i o hb)
  refine ⟨b, h1, h2, h3, fun p => ?_⟩
  rw [h4]
  split
  · rfl
  · rename_i hm
    have hout : ¬ (0 ≤ p.1 ∧ p.1 < a.cols ∧ 0 ≤ p.2 ∧ p.2 < a.rows) := by
      intro hi
      apply hm
      refine List.mem_map.2 ⟨(p.2.toNat, p.1.toNat), List.mem_map.2 ⟨(⟨p.2.toNat, by omega⟩, ⟨p.1.toNat, by omega⟩),
        a.mem_cells _, rfl⟩, ?_⟩
      simp only [pos]
      ext <;> simp <;> omega
    unfold resolved
    rw [a.board_outside p hout]

theorem resolveLoop_error (l : List (Nat × Nat)) (a : Arr Tile) (hl : l.Nodup) (hin : ∀ p ∈ l, p.1 < a.rows ∧ p.2 < a.cols)
    (hh : ∃ p ∈ l, ∃ i o, a.board (pos p) = .belt i o ∧ feedOf a.board (pos p) = some o.opp) :
    resolveLoop a l = .error .runtimeError := by
  induction l generalizing a with
  | nil => obtain ⟨p, hp, -⟩ := hh; simp at hp
  | cons c l ih =>
    obtain ⟨y, x⟩ := c
    obtain ⟨hc, hl'⟩ := List.nodup_cons.1 hl
    have hb := hin (y, x) (by simp)
    have hg : a.board (pos (y, x)) = a.get ⟨y, hb.1⟩ ⟨x, hb.2⟩ := Arr.board_get a ⟨y, hb.1⟩ ⟨x, hb.2⟩
    obtain ⟨p, hp, i', o', h1, h2⟩ := hh
    rw [resolveLoop, dif_pos hb]
    split
    · rename_i i o ho
      rw [ho] at hg
      have hfeed : feedLoop a x y Dir.all none = feedOf a.board (pos (y, x)) := feedLoop_eq a x y Dir.all none
      rw [hfeed]
      rcases List.mem_cons.1 hp with rfl | hp
      · rw [hg] at h1
        simp only [Tile.belt.injEq] at h1
        obtain ⟨rfl, rfl⟩ := h1
        rw [h2, Tile.mkBelt, if_pos (by cases o <;> rfl)]
      · rw [Tile.mkBelt]
        split
        · rename_i e he
          split at he
          · cases he; rfl
          · cases he
        · rename_i t ht
          have hto : t.outputDirection = some o ∧ ∃ i, t = .belt i o := by
            split at ht
            · cases ht
            · cases ht; exact ⟨rfl, _, rfl⟩
          have hset : ∀ p, (a.setAt ⟨y, hb.1⟩ ⟨x, hb.2⟩ t).board p = if p = pos (y, x) then t else a.board p :=
            Arr.board_setAt a ⟨y, hb.1⟩ ⟨x, hb.2⟩ t
          have hout : ∀ p, ((a.setAt ⟨y, hb.1⟩ ⟨x, hb.2⟩ t).board p).outputDirection = (a.board p).outputDirection := by
            intro p
            rw [hset]
            by_cases hp : p = pos (y, x)
            · rw [if_pos hp, hp, hg, hto.1]; rfl
            · rw [if_neg hp]
          refine ih _ hl' (fun p hp => hin p (List.mem_cons_of_mem _ hp)) ⟨p, hp, i', o', ?_, ?_⟩
          · rw [hset, if_neg, h1]
            intro e
            exact hc (pos_inj e ▸ hp)
          · unfold feedOf
            rw [feedSpec_congr hout]
            exact h2
    · rename_i hn
      rcases List.mem_cons.1 hp with rfl | hp
      · exact absurd (hg.symm.trans h1) (hn _ _)
      · exact ih a hl' (fun p hp => hin p (List.mem_cons_of_mem _ hp)) ⟨p, hp, i', o', h1, h2⟩

theorem Arr.board_inside (a : Arr Tile) (p : Int × Int) (h : a.board p ≠ .empty) : 0 ≤ p.1 ∧ p.1 < a.cols ∧ 0 ≤ p.2 ∧ p.2 < a.rows := by
  by_contra hn
  exact h (a.board_outside p hn)

theorem resolveInputs_error (a : Arr Tile) (hh : ∃ p i o, a.board p = .belt i o ∧ OnlyFeeder a.board p o.opp) :
    resolveInputs a = .error .runtimeError := by
  obtain ⟨p, i, o, h1, h2⟩ := hh
  have hi := a.board_inside p (by rw [h1]; simp)
  have hp : pos (p.2.toNat, p.1.toNat) = p := by
    simp only [pos]
    ext <;> simp <;> omega
  refine resolveLoop_error _ a
    (a.cells_nodup.map fun p q h => by
      obtain ⟨p1, p2⟩ := p
      obtain ⟨q1, q2⟩ := q
      simp only [Prod.mk.injEq] at h ⊢
      exact ⟨Fin.ext h.1, Fin.ext h.2⟩)
    (by
      intro p hp
      obtain ⟨q, -, rfl⟩ := List.mem_map.1 hp
      exact ⟨q.1.isLt, q.2.isLt⟩)
    ⟨(p.2.toNat, p.1.toNat), List.mem_map.2 ⟨(⟨p.2.toNat, by omega⟩, ⟨p.1.toNat, by omega⟩), a.mem_cells _, rfl⟩, i, o, ?_, ?_⟩
  · rw [hp, h1]
  · rw [hp, feedOf_iff]; exact h2

theorem restored_of_resolved {T : Int × Int → Tile} {p : Int × Int} (h : T p ≠ .filler) : Restored T p (resolved T p) := by
  unfold Restored resolved
  cases hT : T p with
  | belt i o =>
    simp only
    refine ⟨_, rfl, ?_⟩
    cases hf : feedOf T p with
    | some d => exact Or.inl ((feedOf_iff T p d).1 hf)
    | none =>
      refine Or.inr ⟨?_, rfl⟩
      rintro ⟨d, hd⟩
      rw [(feedOf_iff T p d).2 hd] at hf
      cases hf
  | filler => exact absurd hT h
  | _ => rfl

/-! ### Entities -/

theorem entityTiles_belt (l : BeltLevel) (n : Nat) (x2 y2 : Int) (d : Dir) :
    entityTiles (.obj (entityHead n x2 y2 ++ [(Word.name, .str l.beltVariant)] ++ directionMember d)) =
      .ok [((x2 / 2, y2 / 2), .belt d d)] := by
  cases l <;> cases d <;> rfl

theorem entityTiles_underground (l : BeltLevel) (n : Nat) (x2 y2 : Int) (d : Dir) (b : Bool) :
    entityTiles (.obj (entityHead n x2 y2 ++ [(Word.name, .str l.undergroundVariant)] ++ directionMember d ++
      [(Word.type, .str (if b then Word.input else Word.output))])) = .ok [((x2 / 2, y2 / 2), .underground d b)] := by
  cases l <;> cases d <;> cases b <;> rfl

theorem entityTiles_splitter (l : BeltLevel) (n : Nat) (x2 y2 : Int) (d : Dir) :
    entityTiles (.obj (entityHead n x2 y2 ++ [(Word.name, .str l.splitterVariant)] ++ directionMember d)) =
      .ok [(((x2 - d.next.dx) / 2, (y2 - d.next.dy) / 2), .splitter d true),
        (((x2 + d.next.dx) / 2, (y2 + d.next.dy) / 2), .splitter d false)] := by
  cases l <;> cases d <;> rfl

theorem entityTiles_inserter (n : Nat) (x2 y2 : Int) (d : Dir) :
    entityTiles (.obj (entityHead n x2 y2 ++ [(Word.name, .str Word.inserter)] ++ directionMember d.reverse)) =
      .ok [((x2 / 2, y2 / 2), .inserter d 0)] := by
  cases d <;> rfl

theorem entityTiles_longInserter (n : Nat) (x2 y2 : Int) (d : Dir) :
    entityTiles (.obj (entityHead n x2 y2 ++ [(Word.name, .str Word.longInserter)] ++ directionMember d.reverse)) =
      .ok [((x2 / 2, y2 / 2), .inserter d 1)] := by
  cases d <;> rfl

/-- What an entity of a tile is read back as. -/
def plain : Tile → Tile
  | .belt _ o => .belt o o
  | .filler => .empty
  | t => t

theorem plain_output (t : Tile) : (plain t).outputDirection = t.outputDirection := by cases t <;> rfl

/-- The cells covered by the entity made for the tile at `(x, y)`. -/
def tilesOf (x y : Int) : Tile → List ((Int × Int) × Tile)
  | .empty | .filler => []
  | .splitter d true => [((x, y), .splitter d true), ((x + d.next.dx, y + d.next.dy), .splitter d false)]
  | .splitter _ false => []
  | t => [((x, y), plain t)]

/-- The tiles that can be exported one by one. -/
def Tile.Simple : Tile → Prop
  | .assembler _ _ => False
  | .inserter _ k => k = 0 ∨ k = 1
  | _ => True

theorem cellEntity_spec (l : BeltLevel) (n x y : Nat) (t : Tile) (ht : t.Simple) :
    (cellEntity (.level l) n x y t = .ok none ∧ tilesOf x y t = []) ∨
    ∃ e, cellEntity (.level l) n x y t = .ok (some e) ∧ entityTiles e = .ok (tilesOf x y t) := by
  have e1 : ∀ z : Nat, (2 * (z : Int) + 1) / 2 = z := fun z => by omega
  cases t with
  | empty => exact Or.inl ⟨rfl, rfl⟩
  | filler => exact Or.inl ⟨rfl, rfl⟩
  | belt i o => exact Or.inr ⟨_, rfl, by rw [entityTiles_belt, e1, e1]; rfl⟩
  | underground d b => exact Or.inr ⟨_, rfl, by rw [entityTiles_underground, e1, e1]; rfl⟩
  | splitter d b =>
    cases b
    · exact Or.inl ⟨rfl, rfl⟩
    · refine Or.inr ⟨_, rfl, ?_⟩
      rw [entityTiles_splitter]
      have h1 : (2 * (x : Int) + 1 + d.next.dx - d.next.dx) / 2 = x := by omega
      have h2 : (2 * (y : Int) + 1 + d.next.dy - d.next.dy) / 2 = y := by omega
      have h3 : (2 * (x : Int) + 1 + d.next.dx + d.next.dx) / 2 = x + d.next.dx := by omega
      have h4 : (2 * (y : Int) + 1 + d.next.dy + d.next.dy) / 2 = y + d.next.dy := by omega
      rw [h1, h2, h3, h4]
      rfl
  | inserter d k =>
    rcases ht with rfl | rfl
    · exact Or.inr ⟨_, rfl, by
        have := entityTiles_inserter n (2 * x + 1) (2 * y + 1) d
        rw [e1, e1] at this
        exact this⟩
    · exact Or.inr ⟨_, rfl, by
        have := entityTiles_longInserter n (2 * x + 1) (2 * y + 1) d
        rw [e1, e1] at this
        exact this⟩
  | assembler a b => exact ht.elim

/-- The assignments made for the cells `l`. -/
def assignments (a : Arr Tile) (l : List (Fin a.rows × Fin a.cols)) : List ((Int × Int) × Tile) :=
  l.flatMap fun p => tilesOf p.2.val p.1.val (a.get p.1 p.2)

theorem entityLoop_spec (l : BeltLevel) (a : Arr Tile) (ht : ∀ y x, (a.get y x).Simple) (cs : List (Fin a.rows × Fin a.cols)) (n : Nat)
    (d : PyDict (Int × Int) Tile) :
    ∃ es, entityLoop (.level l) a cs n = .ok es ∧
      collectTiles es d = .ok ((assignments a cs).foldl (fun d p => PyDict.set d p.1 p.2) d) ∧
      (es = [] ↔ assignments a cs = []) := by
  induction cs generalizing n d with
  | nil => exact ⟨[], rfl, rfl, by simp [assignments]⟩
  | cons c cs ih =>
    obtain ⟨y, x⟩ := c
    rw [entityLoop]
    have hcons : assignments a ((y, x) :: cs) = tilesOf x.val y.val (a.get y x) ++ assignments a cs := by
      simp [assignments]
    rcases cellEntity_spec l n x y (a.get y x) (ht y x) with ⟨h1, h2⟩ | ⟨e, h1, h2⟩
    · rw [h1]
      obtain ⟨es, g1, g2, g3⟩ := ih n d
      exact ⟨es, g1, by rw [hcons, h2]; exact g2, by rw [hcons, h2]; exact g3⟩
    · rw [h1]
      obtain ⟨es, g1, g2, g3⟩ := ih (n + 1) ((tilesOf x.val y.val (a.get y x)).foldl (fun d p => PyDict.set d p.1 p.2) d)
      refine ⟨e :: es, by simp only [g1], ?_, ?_⟩
      · rw [collectTiles, h2]
        simp only
        rw [g2, hcons, List.foldl_append]
      · rw [hcons]
        have : tilesOf x.val y.val (a.get y x) ≠ [] := by
          intro he
          revert h1 he
          cases a.get y x with
          | splitter d b => cases b <;> simp [cellEntity, tilesOf]
          | _ => simp [cellEntity, tilesOf]
        simp [this]

theorem get_foldl_set {κ β : Type} [DecidableEq κ] (f : κ → β) (ps : List (κ × β)) (h : ∀ e ∈ ps, e.2 = f e.1) (d : PyDict κ β) (k : κ) :
    PyDict.get (ps.foldl (fun d p => PyDict.set d p.1 p.2) d) k = if k ∈ ps.map Prod.fst then some (f k) else PyDict.get d k := by
  induction ps generalizing d with
  | nil => simp
  | cons p ps ih =>
    rw [List.foldl_cons, ih fun e he => h e (List.mem_cons_of_mem _ he), PyDict.get_set, h p (by simp)]
    simp only [List.map_cons, List.mem_cons]
    by_cases h1 : k ∈ ps.map Prod.fst
    · rw [if_pos h1, if_pos (Or.inr h1)]
    · rw [if_neg h1]
      by_cases h2 : p.1 = k
      · rw [if_pos h2, if_pos (Or.inl h2.symm), h2]
      · rw [if_neg h2, if_neg]
        rintro (h | h)
        · exact h2 h.symm
        · exact h1 h

theorem valid_foldl_set {κ β : Type} [DecidableEq κ] (ps : List (κ × β)) (d : PyDict κ β) (hd : d.Valid) :
    PyDict.Valid (ps.foldl (fun d p => PyDict.set d p.1 p.2) d) := by
  induction ps generalizing d with
  | nil => exact hd
  | cons p ps ih => exact ih _ (hd.set _ _)

instance (t : Tile) : Decidable t.Kept := by cases t <;> simp only [Tile.Kept] <;> infer_instance

theorem mem_assignments (a : Arr Tile) (k : Int × Int) (t : Tile) :
    (k, t) ∈ assignments a a.cells ↔ ∃ p, (k, t) ∈ tilesOf p.1 p.2 (a.board p) := by
  unfold assignments
  rw [List.mem_flatMap]
  constructor
  · rintro ⟨p, -, h⟩
    exact ⟨(p.2.val, p.1.val), by rw [a.board_get]; exact h⟩
  · rintro ⟨p, h⟩
    by_cases hp : 0 ≤ p.1 ∧ p.1 < a.cols ∧ 0 ≤ p.2 ∧ p.2 < a.rows
    · refine ⟨(⟨p.2.toNat, by omega⟩, ⟨p.1.toNat, by omega⟩), a.mem_cells _, ?_⟩
      have e : p = (((⟨p.1.toNat, by omega⟩ : Fin a.cols).val : Int), ((⟨p.2.toNat, by omega⟩ : Fin a.rows).val : Int)) := by
        ext <;> simp <;> omega
      rw [← a.board_get, ← e]
      have e1 : ((p.1.toNat : Nat) : Int) = p.1 := by omega
      have e2 : ((p.2.toNat : Nat) : Int) = p.2 := by omega
      simp only [e1, e2]
      exact h
    · rw [a.board_outside p hp] at h
      simp [tilesOf] at h

/-- The dictionary after reading all entities: the tiles that are kept. -/
theorem assignments_get (a : Arr Tile) (hs : PairedSplitters (fun _ => True) planeNb a.board) (k : Int × Int) :
    PyDict.get ((assignments a a.cells).foldl (fun d p => PyDict.set d p.1 p.2) []) k =
      if (a.board k).Kept then some (plain (a.board k)) else none := by
  have sound : ∀ e ∈ assignments a a.cells, (a.board e.1).Kept ∧ e.2 = plain (a.board e.1) := by
    rintro ⟨k, t⟩ he
    obtain ⟨⟨px, py⟩, hp⟩ := (mem_assignments a k t).1 he
    simp only at hp
    cases hb : a.board (px, py) with
    | splitter d b =>
      rw [hb] at hp
      cases b
      · simp [tilesOf] at hp
      · simp only [tilesOf, List.mem_cons, List.not_mem_nil, or_false, Prod.mk.injEq] at hp
        rcases hp with ⟨rfl, rfl⟩ | ⟨rfl, rfl⟩
        · simp only [hb]; exact ⟨trivial, rfl⟩
        · obtain ⟨q, -, -, h2, h3⟩ := hs.head (px, py) d trivial hb
          have : q = (px + d.next.dx, py + d.next.dy) := by
            rw [planeNb_iff] at h2
            rw [Dir.next_eq_ccw]
            obtain ⟨qx, qy⟩ := q
            simp only [Prod.mk.injEq] at h2 ⊢
            omega
          simp only [← this, h3]
          exact ⟨trivial, rfl⟩
    | empty => rw [hb] at hp; simp [tilesOf] at hp
    | filler => rw [hb] at hp; simp [tilesOf] at hp
    | _ =>
      rw [hb] at hp
      simp only [tilesOf, List.mem_cons, List.not_mem_nil, or_false, Prod.mk.injEq] at hp
      obtain ⟨rfl, rfl⟩ := hp
      simp only [hb]
      exact ⟨trivial, trivial⟩
  rw [get_foldl_set (fun k => plain (a.board k)) _ (fun e he => (sound e he).2)]
  simp only [PyDict.get]
  have : k ∈ (assignments a a.cells).map Prod.fst ↔ (a.board k).Kept := by
    constructor
    · intro h
      obtain ⟨e, he, rfl⟩ := List.mem_map.1 h
      exact (sound e he).1
    · intro h
      have direct : ∀ t, (k, t) ∈ tilesOf k.1 k.2 (a.board k) → k ∈ (assignments a a.cells).map Prod.fst := fun t ht =>
        List.mem_map.2 ⟨(k, t), (mem_assignments a k t).2 ⟨k, ht⟩, rfl⟩
      cases hb : a.board k with
      | splitter d b =>
        cases b
        · obtain ⟨q, -, h1, h2, h3⟩ := hs.tail k d trivial hb
          refine List.mem_map.2 ⟨(k, .splitter d false), (mem_assignments a _ _).2 ⟨q, ?_⟩, rfl⟩
          rw [h1]
          rw [planeNb_iff] at h2
          have hk : k = (q.1 + d.next.dx, q.2 + d.next.dy) := by
            rw [Dir.next_eq_ccw, h2]
            ext <;> simp
          simp only [tilesOf, List.mem_cons, List.not_mem_nil, or_false, Prod.mk.injEq]
          exact Or.inr ⟨hk, trivial⟩
        · exact direct (.splitter d true) (by rw [hb]; simp [tilesOf])
      | empty => rw [hb] at h; exact h.elim
      | filler => rw [hb] at h; exact h.elim
      | belt i o => exact direct (.belt o o) (by rw [hb]; simp [tilesOf, plain])
      | underground d b => exact direct (.underground d b) (by rw [hb]; simp [tilesOf, plain])
      | inserter d b => exact direct (.inserter d b) (by rw [hb]; simp [tilesOf, plain])
      | assembler d b => exact direct (.assembler d b) (by rw [hb]; simp [tilesOf, plain])
  by_cases hk : (a.board k).Kept
  · rw [if_pos hk, if_pos (this.2 hk)]
  · rw [if_neg hk, if_neg (fun h => hk (this.1 h))]

/-! ### Smallest and largest -/

theorem foldl_min (l : List Int) (x : Int) : l.foldl min x ≤ x ∧ (∀ z ∈ l, l.foldl min x ≤ z) ∧ (l.foldl min x = x ∨ l.foldl min x ∈ l) := by
  induction l generalizing x with
  | nil => simp
  | cons y l ih =>
    obtain ⟨h1, h2, h3⟩ := ih (min x y)
    rw [List.foldl_cons]
    refine ⟨by omega, fun z hz => ?_, ?_⟩
    · rcases List.mem_cons.1 hz with rfl | hz
      · omega
      · exact h2 z hz
    · rcases h3 with h3 | h3
      · rcases min_choice x y with h | h
        · exact Or.inl (h3.trans h)
        · exact Or.inr (by rw [h3, h]; simp)
      · exact Or.inr (List.mem_cons_of_mem _ h3)

theorem foldl_max (l : List Int) (x : Int) : x ≤ l.foldl max x ∧ (∀ z ∈ l, z ≤ l.foldl max x) ∧ (l.foldl max x = x ∨ l.foldl max x ∈ l) := by
  induction l generalizing x with
  | nil => simp
  | cons y l ih =>
    obtain ⟨h1, h2, h3⟩ := ih (max x y)
    rw [List.foldl_cons]
    refine ⟨by omega, fun z hz => ?_, ?_⟩
    · rcases List.mem_cons.1 hz with rfl | hz
      · omega
      · exact h2 z hz
    · rcases h3 with h3 | h3
      · rcases max_choice x y with h | h
        · exact Or.inl (h3.trans h)
        · exact Or.inr (by rw [h3, h]; simp)
      · exact Or.inr (List.mem_cons_of_mem _ h3)

theorem minInt_spec (l : List Int) (h : l ≠ []) : minInt l ∈ l ∧ ∀ z ∈ l, minInt l ≤ z := by
  cases l with
  | nil => exact absurd rfl h
  | cons x l =>
    obtain ⟨h1, h2, h3⟩ := foldl_min l x
    refine ⟨?_, fun z hz => ?_⟩
    · rcases h3 with h3 | h3
      · show l.foldl min x ∈ _
        rw [h3]; simp
      · exact List.mem_cons_of_mem _ h3
    · rcases List.mem_cons.1 hz with rfl | hz
      · exact h1
      · exact h2 z hz

theorem maxInt_spec (l : List Int) (h : l ≠ []) : maxInt l ∈ l ∧ ∀ z ∈ l, z ≤ maxInt l := by
  cases l with
  | nil => exact absurd rfl h
  | cons x l =>
    obtain ⟨h1, h2, h3⟩ := foldl_max l x
    refine ⟨?_, fun z hz => ?_⟩
    · rcases h3 with h3 | h3
      · show l.foldl max x ∈ _
        rw [h3]; simp
      · exact List.mem_cons_of_mem _ h3
    · rcases List.mem_cons.1 hz with rfl | hz
      · exact h1
      · exact h2 z hz

theorem get_shift {β : Type} (d : PyDict (Int × Int) β) (mx my x y : Int) :
    PyDict.get (d.map fun e => ((e.1.1 - mx, e.1.2 - my), e.2)) (x, y) = PyDict.get d (x + mx, y + my) := by
  induction d with
  | nil => rfl
  | cons e d ih =>
    obtain ⟨⟨a, b⟩, v⟩ := e
    simp only [List.map_cons, PyDict.get, ih]
    have : ((a - mx, b - my) = (x, y)) ↔ ((a, b) : Int × Int) = (x + mx, y + my) := by
      simp only [Prod.mk.injEq]; omega
    by_cases h : ((a, b) : Int × Int) = (x + mx, y + my)
    · rw [if_pos h, if_pos (this.2 h)]
    · rw [if_neg h, if_neg (fun e => h (this.1 e))]

theorem valid_shift {β : Type} {d : PyDict (Int × Int) β} (h : d.Valid) (mx my : Int) :
    PyDict.Valid (d.map fun e => ((e.1.1 - mx, e.1.2 - my), e.2)) := by
  unfold PyDict.Valid at *
  rw [List.map_map]
  have : (Prod.fst ∘ fun e : (Int × Int) × β => ((e.1.1 - mx, e.1.2 - my), e.2)) =
      (fun p : Int × Int => (p.1 - mx, p.2 - my)) ∘ Prod.fst := rfl
  rw [this, ← List.map_map]
  refine h.map fun p q he => ?_
  simp only [Prod.mk.injEq] at he
  ext
  · omega
  · omega

/-- The array built from a dictionary that is not empty: the entries, shifted into the corner. -/
theorem array_of_dict (d : PyDict (Int × Int) Tile) (hv : d.Valid) (hne : d ≠ []) (K : Int × Int → Prop) (f : Int × Int → Tile)
    [DecidablePred K] (hd : ∀ k, PyDict.get d k = if K k then some (f k) else none) :
    ∃ x0 y0 : Int, ∃ a : Arr Tile,
      (let minX := minInt (d.map fun e => e.1.1)
       let minY := minInt (d.map fun e => e.1.2)
       let entities := PyDict.ofPairs (d.map fun e => ((e.1.1 - minX, e.1.2 - minY), e.2))
       let width := maxInt (entities.map fun e => e.1.1) + 1
       let height := maxInt (entities.map fun e => e.1.2) + 1
       (⟨height.toNat, width.toNat, fun y x => (PyDict.get entities ((x.val : Int), (y.val : Int))).getD .empty⟩ : Arr Tile)) = a ∧
      BoundingBox K x0 y0 a.cols a.rows ∧ ∀ p, a.board p = if K (p.1 + x0, p.2 + y0) then f (p.1 + x0, p.2 + y0) else .empty := by
  have hmem : ∀ k, k ∈ d.map Prod.fst ↔ K k := by
    intro k
    rw [← PyDict.get_isSome, hd]
    split <;> simp [*]
  have hX : d.map (fun e => e.1.1) ≠ [] := by simpa using hne
  have hY : d.map (fun e => e.1.2) ≠ [] := by simpa using hne
  obtain ⟨mx1, mx2⟩ := minInt_spec _ hX
  obtain ⟨my1, my2⟩ := minInt_spec _ hY
  simp only
  generalize hmx : minInt (d.map fun e => e.1.1) = x0 at *
  generalize hmy : minInt (d.map fun e => e.1.2) = y0 at *
  rw [PyDict.ofPairs_valid _ (valid_shift hv x0 y0), List.map_map, List.map_map]
  have hX' : d.map ((fun e => e.1.1) ∘ fun e : (Int × Int) × Tile => ((e.1.1 - x0, e.1.2 - y0), e.2)) ≠ [] := by simpa using hne
  have hY' : d.map ((fun e => e.1.2) ∘ fun e : (Int × Int) × Tile => ((e.1.1 - x0, e.1.2 - y0), e.2)) ≠ [] := by simpa using hne
  obtain ⟨Mx1, Mx2⟩ := maxInt_spec _ hX'
  obtain ⟨My1, My2⟩ := maxInt_spec _ hY'
  generalize maxInt (d.map ((fun e => e.1.1) ∘ fun e : (Int × Int) × Tile => ((e.1.1 - x0, e.1.2 - y0), e.2))) = x1 at *
  generalize maxInt (d.map ((fun e => e.1.2) ∘ fun e : (Int × Int) × Tile => ((e.1.1 - x0, e.1.2 - y0), e.2))) = y1 at *
  simp only [List.mem_map, Function.comp_apply] at mx1 mx2 my1 my2 Mx1 Mx2 My1 My2
  have isK : ∀ {e}, e ∈ d → K e.1 := fun {e} he => (hmem e.1).1 (List.mem_map_of_mem he)
  have ofK : ∀ {k}, K k → ∃ e ∈ d, e.1 = k := fun {k} hk => by simpa using List.mem_map.1 ((hmem k).2 hk)
  have bounds : ∀ k, K k → x0 ≤ k.1 ∧ k.1 - x0 ≤ x1 ∧ y0 ≤ k.2 ∧ k.2 - y0 ≤ y1 := by
    intro k hk
    obtain ⟨e, he, rfl⟩ := ofK hk
    exact ⟨mx2 _ ⟨e, he, rfl⟩, Mx2 _ ⟨e, he, rfl⟩, my2 _ ⟨e, he, rfl⟩, My2 _ ⟨e, he, rfl⟩⟩
  obtain ⟨e1, he1, h1⟩ := mx1
  obtain ⟨e2, he2, h2⟩ := Mx1
  obtain ⟨e3, he3, h3⟩ := my1
  obtain ⟨e4, he4, h4⟩ := My1
  have b1 := bounds _ (isK he1)
  have b2 := bounds _ (isK he2)
  have b3 := bounds _ (isK he3)
  have b4 := bounds _ (isK he4)
  refine ⟨x0, y0, _, rfl, ⟨?_, ⟨e1.1, isK he1, h1⟩, ⟨e2.1, isK he2, ?_⟩, ⟨e3.1, isK he3, h3⟩, ⟨e4.1, isK he4, ?_⟩⟩, ?_⟩
  · intro p hp
    have := bounds p hp
    simp only
    omega
  · simp only
    omega
  · simp only
    omega
  · intro p
    by_cases hp : 0 ≤ p.1 ∧ p.1 < ((x1 + 1).toNat : Int) ∧ 0 ≤ p.2 ∧ p.2 < ((y1 + 1).toNat : Int)
    · refine Eq.trans (dif_pos hp) ?_
      show (PyDict.get (d.map fun e => ((e.1.1 - x0, e.1.2 - y0), e.2)) ((p.1.toNat : Int), (p.2.toNat : Int))).getD .empty = _
      rw [show ((p.1.toNat : Int), (p.2.toNat : Int)) = (p.1, p.2) by ext <;> simp <;> omega, get_shift, hd]
      split <;> rfl
    · rw [Arr.board_outside _ _ hp, if_neg]
      intro hk
      have := bounds _ hk
      simp only at this
      omega

end FSat
