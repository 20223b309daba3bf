import Verif.Props.Transform
import Verif.Spec.NetworkFlow
import Verif.Spec.Parse
/-!
# Flows on a turned or mirrored layout
-/

namespace FSat

namespace Operation

section
variable (op : Operation) (a : Arr Tile)

/-- Where the operation moves a position of the layout. -/
abbrev moves (p : Int × Int) : Int × Int := op.pos a.cols a.rows p

/-- The layout that the operation makes. -/
abbrev turned (a : Arr Tile) : Arr Tile := (op.grid a).map op.tileMap

theorem dir_surj (d : Dir) : ∃ e, op.dir e = d := by
  cases op <;> cases d <;> first | exact ⟨.right, rfl⟩ | exact ⟨.left, rfl⟩ | exact ⟨.up, rfl⟩ | exact ⟨.down, rfl⟩

theorem moves_surj (q : Int × Int) : ∃ p, op.moves a p = q := by
  obtain ⟨x, y⟩ := q
  cases op
  · exact ⟨(x, y), rfl⟩
  · exact ⟨(a.cols - 1 - y, x), by simp [Operation.pos]⟩
  · exact ⟨(a.cols - 1 - x, a.rows - 1 - y), by simp [Operation.pos]⟩
  · exact ⟨(y, a.rows - 1 - x), by simp [Operation.pos]⟩
  · exact ⟨(a.cols - 1 - x, y), by simp [Operation.pos]⟩
  · exact ⟨(x, a.rows - 1 - y), by simp [Operation.pos]⟩

theorem in_iff (p : Int × Int) : (op.turned a).In (op.moves a p) ↔ a.In p := by
  obtain ⟨x, y⟩ := p
  cases op <;> simp only [Arr.In, Operation.pos, Arr.map, Operation.grid, Arr.rot90, Arr.rot180, Arr.rot270, Arr.flipX, Arr.flipY] <;> omega

theorem nb_turned (p : Int × Int) (d : Dir) : (op.turned a).nb (op.moves a p) (op.dir d) = (a.nb p d).map (op.moves a) := by
  unfold Arr.nb
  rw [op.pos_nb]
  cases planeNb p d with
  | none => rfl
  | some q =>
    have := op.in_iff a q
    unfold Arr.In at this
    by_cases h : 0 ≤ q.1 ∧ q.1 < a.cols ∧ 0 ≤ q.2 ∧ q.2 < a.rows
    · simp [Option.filter, h, this]
    · simp [Option.filter, h, this]

theorem nb_turned_some (p q : Int × Int) (d : Dir) :
    (op.turned a).nb (op.moves a p) (op.dir d) = some (op.moves a q) ↔ a.nb p d = some q := by
  rw [op.nb_turned, Option.map_eq_some_inj (fun e => op.pos_inj a.cols a.rows e)]

theorem nb_turned_none (p : Int × Int) (d : Dir) : (op.turned a).nb (op.moves a p) (op.dir d) = none ↔ a.nb p d = none := by
  rw [op.nb_turned, Option.map_eq_none_iff]

theorem walk_turned (p : Int × Int) (d : Dir) (k : Nat) :
    walk (op.turned a).nb (op.moves a p) (op.dir d) k = (walk a.nb p d k).map (op.moves a) := by
  induction k with
  | zero => rfl
  | succ k ih =>
    simp only [walk, ih]
    cases walk a.nb p d k with
    | none => rfl
    | some q => exact op.nb_turned a q d

theorem connected_turned (p q : Int × Int) (d : Dir) :
    Connected (op.turned a).nb (op.turned a).board (op.moves a p) (op.moves a q) (op.dir d) ↔ Connected a.nb a.board p q d := by
  simp only [Connected, op.board, op.emits, op.takes, op.nb_turned_some]

theorem ugPair_turned (p q : Int × Int) (d : Dir) (k : Nat) :
    UgPair (op.turned a).nb (op.turned a).board (op.moves a p) (op.moves a q) (op.dir d) k ↔ UgPair a.nb a.board p q d k := by
  simp only [UgPair, op.board, op.walk_turned, op.tileMap_ug]
  rw [Option.map_eq_some_inj (fun e => op.pos_inj a.cols a.rows e)]
  simp only [Option.map_eq_some_iff, forall_exists_index, and_imp]
  constructor
  · rintro ⟨h1, h2, h3, h4, h5⟩
    refine ⟨h1, h2, h3, h4, fun i hi hk r hr hu => h5 i hi hk _ r hr rfl ?_⟩
    rw [op.board, op.ugAlong]; exact hu
  · rintro ⟨h1, h2, h3, h4, h5⟩
    refine ⟨h1, h2, h3, h4, fun i hi hk r r' hr e hu => h5 i hi hk r' hr ?_⟩
    subst e; rw [op.board, op.ugAlong] at hu; exact hu

theorem isSplitter_turned (p : Int × Int) : ((op.turned a).board (op.moves a p)).IsSplitter ↔ (a.board p).IsSplitter := by
  rw [op.board]
  cases a.board p <;> simp [Tile.IsSplitter, Operation.tileMap]

theorem leaves_turned (p : Int × Int) : LeavesAt (op.turned a).nb (op.turned a).board (op.moves a p) ↔ LeavesAt a.nb a.board p := by
  constructor
  · rintro ⟨d, h1, h2⟩
    obtain ⟨d, rfl⟩ := op.dir_surj d
    rw [op.board, op.emits] at h1
    exact ⟨d, h1, (op.nb_turned_none a p d).1 h2⟩
  · rintro ⟨d, h1, h2⟩
    exact ⟨op.dir d, by rw [op.board, op.emits]; exact h1, (op.nb_turned_none a p d).2 h2⟩

theorem enters_turned (p : Int × Int) : EntersAt (op.turned a).nb (op.turned a).board (op.moves a p) ↔ EntersAt a.nb a.board p := by
  constructor
  · rintro ⟨d, h1, h2⟩
    obtain ⟨d, rfl⟩ := op.dir_surj d
    rw [op.board, op.takes] at h1
    rw [← op.dir_opp] at h2
    exact ⟨d, h1, (op.nb_turned_none a p _).1 h2⟩
  · rintro ⟨d, h1, h2⟩
    exact ⟨op.dir d, by rw [op.board, op.takes]; exact h1, by rw [← op.dir_opp]; exact (op.nb_turned_none a p _).2 h2⟩

theorem arr_nb_opp (p q : Int × Int) (d : Dir) (hp : a.In p) (hq : a.In q) : a.nb p d = some q ↔ a.nb q d.opp = some p := by
  obtain ⟨x, y⟩ := p
  obtain ⟨x', y'⟩ := q
  simp only [Arr.In] at hp hq
  cases d <;> simp [Arr.nb, planeNb, Dir.opp, Option.filter] <;> omega

theorem pair_turned {p q : Int × Int} (hp : a.In p) (hq : a.In q) (d : Dir) :
    SplitterPair a.nb a.board p q d ↔
      (if op.mirrors then SplitterPair (op.turned a).nb (op.turned a).board (op.moves a q) (op.moves a p) (op.dir d)
      else SplitterPair (op.turned a).nb (op.turned a).board (op.moves a p) (op.moves a q) (op.dir d)) := by
  simp only [SplitterPair, op.board, op.tileMap_splitter, op.dir_ccw]
  cases hm : op.mirrors
  · simp only [Bool.false_eq_true, if_false, Bool.bne_false]
    rw [op.nb_turned_some]
  · simp only [if_true]
    rw [op.nb_turned_some, ← arr_nb_opp a p q d.ccw hp hq]
    simp
    tauto

theorem outlets_turned (p : Int × Int) (d : Dir) :
    outlets (Connected (op.turned a).nb (op.turned a).board) (op.moves a p) (op.dir d) = outlets (Connected a.nb a.board) p d := by
  unfold outlets
  have : (∃ r, Connected (op.turned a).nb (op.turned a).board (op.moves a p) r (op.dir d)) ↔ ∃ r, Connected a.nb a.board p r d := by
    constructor
    · rintro ⟨r, h⟩
      obtain ⟨r, rfl⟩ := op.moves_surj a r
      exact ⟨r, (op.connected_turned a p r d).1 h⟩
    · rintro ⟨r, h⟩
      exact ⟨_, (op.connected_turned a p r d).2 h⟩
  by_cases h : ∃ r, Connected a.nb a.board p r d
  · rw [if_pos (this.2 h), if_pos h]
  · rw [if_neg (mt this.1 h), if_neg h]

theorem gets_turned (S : Int × Int → Prop) (F : Int × Int → ℚ) (p : Int × Int) (d : Dir) :
    gets (op.turned a).In (op.turned a).nb (Connected (op.turned a).nb (op.turned a).board) S F (op.moves a p) (op.dir d) =
      gets a.In a.nb (Connected a.nb a.board) (fun p => S (op.moves a p)) (fun p => F (op.moves a p)) p d := by
  unfold gets
  have : FedAt (op.turned a).In (op.turned a).nb (Connected (op.turned a).nb (op.turned a).board) S (op.moves a p) (op.dir d) ↔
      FedAt a.In a.nb (Connected a.nb a.board) (fun p => S (op.moves a p)) p d := by
    unfold FedAt
    rw [← op.dir_opp, op.nb_turned_none]
    refine or_congr ⟨?_, ?_⟩ Iff.rfl
    · rintro ⟨r, h1, h2⟩
      obtain ⟨r, rfl⟩ := op.moves_surj a r
      exact ⟨r, (op.in_iff a r).1 h1, (op.connected_turned a r p d).1 h2⟩
    · rintro ⟨r, h1, h2⟩
      exact ⟨_, (op.in_iff a r).2 h1, (op.connected_turned a r p d).2 h2⟩
  by_cases h : FedAt a.In a.nb (Connected a.nb a.board) (fun p => S (op.moves a p)) p d
  · rw [if_pos (this.2 h), if_pos h]
  · rw [if_neg (mt this.1 h), if_neg h]

/-- The turned layout carries what the layout carries. -/
theorem carries_turned (S : Int × Int → Prop) (F : Int × Int → ℚ) :
    Carries (op.turned a).In (op.turned a).nb (op.turned a).board (Connected (op.turned a).nb (op.turned a).board) S F ↔
      Carries a.In a.nb a.board (Connected a.nb a.board) (fun p => S (op.moves a p)) (fun p => F (op.moves a p)) := by
  constructor
  · rintro ⟨h1, h2, h3⟩
    refine ⟨fun p q d hp hc hs => ?_, fun p q d k hp hu => ?_, fun p q d hp hq hpr r hr => ?_⟩
    · exact h1 _ _ (op.dir d) ((op.in_iff a p).2 hp) ((op.connected_turned a p q d).2 hc) (by rw [op.isSplitter_turned]; exact hs)
    · exact h2 _ _ (op.dir d) k ((op.in_iff a p).2 hp) ((op.ugPair_turned a p q d k).2 hu)
    · rw [op.pair_turned a hp hq] at hpr
      have hr' : Connected (op.turned a).nb (op.turned a).board (op.moves a p) (op.moves a r) (op.dir d) ∨
          Connected (op.turned a).nb (op.turned a).board (op.moves a q) (op.moves a r) (op.dir d) :=
        hr.imp (op.connected_turned a p r d).2 (op.connected_turned a q r d).2
      split at hpr
      · have := h3 _ _ _ ((op.in_iff a q).2 hq) ((op.in_iff a p).2 hp) hpr _ hr'.symm
        rw [op.outlets_turned, op.outlets_turned, op.gets_turned, op.gets_turned] at this
        rw [add_comm (outlets _ p d), add_comm (gets _ _ _ _ _ p d)]
        exact this
      · have := h3 _ _ _ ((op.in_iff a p).2 hp) ((op.in_iff a q).2 hq) hpr _ hr'
        rw [op.outlets_turned, op.outlets_turned, op.gets_turned, op.gets_turned] at this
        exact this
  · rintro ⟨h1, h2, h3⟩
    refine ⟨fun p q d hp hc hs => ?_, fun p q d k hp hu => ?_, fun p q d hp hq hpr r hr => ?_⟩
    · obtain ⟨p, rfl⟩ := op.moves_surj a p
      obtain ⟨q, rfl⟩ := op.moves_surj a q
      obtain ⟨d, rfl⟩ := op.dir_surj d
      exact h1 p q d ((op.in_iff a p).1 hp) ((op.connected_turned a p q d).1 hc) (by rw [← op.isSplitter_turned]; exact hs)
    · obtain ⟨p, rfl⟩ := op.moves_surj a p
      obtain ⟨q, rfl⟩ := op.moves_surj a q
      obtain ⟨d, rfl⟩ := op.dir_surj d
      exact h2 p q d k ((op.in_iff a p).1 hp) ((op.ugPair_turned a p q d k).1 hu)
    · obtain ⟨p, rfl⟩ := op.moves_surj a p
      obtain ⟨q, rfl⟩ := op.moves_surj a q
      obtain ⟨r, rfl⟩ := op.moves_surj a r
      obtain ⟨d, rfl⟩ := op.dir_surj d
      rw [op.in_iff] at hp hq
      rw [op.outlets_turned, op.outlets_turned, op.gets_turned, op.gets_turned]
      rw [op.connected_turned, op.connected_turned] at hr
      cases hm : op.mirrors
      · exact h3 p q d hp hq ((op.pair_turned a hp hq d).2 (by simpa [hm] using hpr)) r hr
      · rw [add_comm (outlets _ p d), add_comm (gets _ _ _ _ _ p d)]
        exact h3 q p d hq hp ((op.pair_turned a hq hp d).2 (by simpa [hm] using hpr)) r hr.symm

end

end Operation

end FSat
