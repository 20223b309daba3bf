import Verif.Spec.Layout
import Mathlib.Tactic.Ring
import Mathlib.Tactic.Linarith

set_option linter.unusedSimpArgs false

namespace FSat

theorem Dir.mem_all (d : Dir) : d ∈ Dir.all := by cases d <;> decide
@[simp] theorem Dir.next_eq (d : Dir) : d.next = d.ccw := by cases d <;> rfl
@[simp] theorem Dir.reverse_eq (d : Dir) : d.reverse = d.opp := by cases d <;> rfl
@[simp] theorem Dir.prev_eq (d : Dir) : d.prev = d.opp.ccw := by cases d <;> rfl
@[simp] theorem Dir.opp_opp (d : Dir) : d.opp.opp = d := by cases d <;> rfl
@[simp] theorem Dir.ccw_ccw (d : Dir) : d.ccw.ccw = d.opp := by cases d <;> rfl
@[simp] theorem Dir.opp_ccw_ccw (d : Dir) : d.opp.ccw.ccw = d := by cases d <;> rfl
theorem Dir.ccw_opp (d : Dir) : d.ccw.opp = d.opp.ccw := by cases d <;> rfl
@[simp] theorem Dir.opp_ne (d : Dir) : d.opp ≠ d := by cases d <;> simp [Dir.opp]
@[simp] theorem Dir.ne_opp (d : Dir) : d ≠ d.opp := by cases d <;> simp [Dir.opp]
theorem Dir.opp_inj {d e : Dir} (h : d.opp = e.opp) : d = e := by cases d <;> cases e <;> simp_all [Dir.opp]
@[simp] theorem Dir.dx_opp (d : Dir) : d.opp.dx = - d.dx := by cases d <;> rfl
@[simp] theorem Dir.dy_opp (d : Dir) : d.opp.dy = - d.dy := by cases d <;> rfl
@[simp] theorem Dir.flipX_eq (d : Dir) : Tile.flipXDirection d = d.mirrorX := by cases d <;> rfl
theorem Dir.forall_iff (P : Dir → Prop) : (∀ d, P d) ↔ P .right ∧ P .up ∧ P .left ∧ P .down :=
  ⟨fun h => ⟨h _, h _, h _, h _⟩, fun ⟨a, b, c, e⟩ d => by cases d <;> assumption⟩
theorem Dir.exists_iff (P : Dir → Prop) : (∃ d, P d) ↔ P .right ∨ P .up ∨ P .left ∨ P .down :=
  ⟨fun ⟨d, h⟩ => by cases d <;> simp [h], fun h => by rcases h with h | h | h | h <;> exact ⟨_, h⟩⟩
theorem Dir.forall_mem_all (P : Dir → Prop) : (∀ d ∈ Dir.all, P d) ↔ ∀ d, P d :=
  ⟨fun h d => h d d.mem_all, fun h d _ => h d⟩

theorem Dir.ofInt_value (d : Dir) : Dir.ofInt d.value = .ok d := by cases d <;> rfl
theorem Dir.ofInt_ok {n : Int} {d : Dir} (h : Dir.ofInt n = .ok d) : n = d.value := by
  unfold Dir.ofInt at h
  split_ifs at h <;> simp_all [Dir.value] <;> (subst h; rfl)

/-- What an operation does to a single tile. -/
def Operation.tileMap (op : Operation) : Tile → Tile
  | .belt i o => .belt (op.dir i) (op.dir o)
  | .underground d b => .underground (op.dir d) b
  | .splitter d h => .splitter (op.dir d) (h != op.mirrors)
  | .inserter d t => .inserter (op.dir d) t
  | t => t

theorem Operation.cell_eq (op : Operation) (t : Tile) (h : t.Valid) : op.cell t = .ok (op.tileMap t) := by
  cases t with
  | belt i o =>
    simp only [Tile.Valid, Dir.reverse_eq] at h
    cases op <;> cases i <;> cases o <;> first | (exact absurd rfl h) | rfl
  | underground d b => cases op <;> cases d <;> rfl
  | splitter d b => cases op <;> cases d <;> cases b <;> rfl
  | inserter d b => cases op <;> cases d <;> rfl
  | _ => cases op <;> rfl

theorem Operation.dir_inj (op : Operation) {d e : Dir} (h : op.dir d = op.dir e) : d = e := by
  cases op <;> cases d <;> cases e <;> first | rfl | simp [Operation.dir, Dir.ccw, Dir.opp, Dir.mirrorX, Dir.mirrorY] at h
theorem Operation.dir_inj_iff (op : Operation) {d e : Dir} : op.dir d = op.dir e ↔ d = e :=
  ⟨op.dir_inj, fun h => h ▸ rfl⟩

theorem Operation.dir_opp (op : Operation) (d : Dir) : op.dir d.opp = (op.dir d).opp := by
  cases op <;> cases d <;> rfl

theorem Operation.dir_ccw (op : Operation) (d : Dir) :
    (op.dir d).ccw = if op.mirrors then op.dir d.ccw.opp else op.dir d.ccw := by
  cases op <;> cases d <;> rfl

theorem Operation.tileMap_valid (op : Operation) (t : Tile) (h : t.Valid) : (op.tileMap t).Valid := by
  cases t <;> simp_all [Operation.tileMap, Tile.Valid]
  intro h2; rw [← Operation.dir_opp] at h2; exact h (op.dir_inj h2)

theorem Operation.emits (op : Operation) (t : Tile) (d : Dir) : (op.tileMap t).Emits (op.dir d) ↔ t.Emits d := by
  cases t with
  | underground e b => cases b <;> simp [Operation.tileMap, Tile.Emits, op.dir_inj_iff]
  | _ => simp [Operation.tileMap, Tile.Emits, op.dir_inj_iff]

theorem Operation.takes (op : Operation) (t : Tile) (d : Dir) : (op.tileMap t).Takes (op.dir d) ↔ t.Takes d := by
  cases t with
  | underground e b => cases b <;> simp [Operation.tileMap, Tile.Takes, op.dir_inj_iff]
  | _ => simp [Operation.tileMap, Tile.Takes, op.dir_inj_iff]

theorem Operation.ugAlong (op : Operation) (t : Tile) (d : Dir) : (op.tileMap t).UgAlong (op.dir d) ↔ t.UgAlong d := by
  cases t <;> simp [Operation.tileMap, Tile.UgAlong, Dir.Parallel, ← Operation.dir_opp, op.dir_inj_iff]

theorem Operation.tileMap_ug (op : Operation) (t : Tile) (d : Dir) (b : Bool) :
    op.tileMap t = .underground (op.dir d) b ↔ t = .underground d b := by
  cases t <;> simp [Operation.tileMap, op.dir_inj_iff]

theorem Operation.tileMap_splitter (op : Operation) (t : Tile) (d : Dir) (b : Bool) :
    op.tileMap t = .splitter (op.dir d) b ↔ t = .splitter d (b != op.mirrors) := by
  cases t <;> simp [Operation.tileMap, op.dir_inj_iff]
  intro _; cases op.mirrors <;> cases b <;> simp

theorem Operation.pos_nb (op : Operation) (w h : Nat) (p : Int × Int) (d : Dir) :
    planeNb (op.pos w h p) (op.dir d) = (planeNb p d).map (op.pos w h) := by
  cases op <;> cases d <;>
    simp [Operation.pos, Operation.dir, planeNb, Dir.ccw, Dir.opp, Dir.mirrorX, Dir.mirrorY] <;> omega

theorem Operation.pos_inj (op : Operation) (w h : Nat) {p q : Int × Int} (e : op.pos w h p = op.pos w h q) : p = q := by
  obtain ⟨x, y⟩ := p; obtain ⟨x', y'⟩ := q
  cases op <;> simp [Operation.pos] at e ⊢ <;> omega

theorem Operation.pos_walk (op : Operation) (w h : Nat) (p : Int × Int) (d : Dir) (k : Nat) :
    walk planeNb (op.pos w h p) (op.dir d) k = (walk planeNb p d k).map (op.pos w h) := by
  induction k with
  | zero => rfl
  | succ k ih =>
    simp only [walk, ih]
    cases walk planeNb p d k <;> simp [Operation.pos_nb]

theorem Option.map_eq_some_inj {α β : Type} {f : α → β} (hf : ∀ {a b}, f a = f b → a = b) (o : Option α) (a : α) :
    o.map f = some (f a) ↔ o = some a := by
  cases o with
  | none => simp
  | some b => simp; exact ⟨hf, fun h => h ▸ rfl⟩

theorem board_in {a : Arr Tile} (y x : Nat) (hy : y < a.rows) (hx : x < a.cols) :
    a.board ((x : Int), (y : Int)) = a.get ⟨y, hy⟩ ⟨x, hx⟩ := by
  unfold Arr.board
  rw [dif_pos (by simp; omega)]
  simp

theorem board_out {a : Arr Tile} (p : Int × Int) (h : ¬ (0 ≤ p.1 ∧ p.1 < a.cols ∧ 0 ≤ p.2 ∧ p.2 < a.rows)) :
    a.board p = .empty := by
  unfold Arr.board; rw [dif_neg h]

theorem Operation.board (op : Operation) (a : Arr Tile) (p : Int × Int) :
    ((op.grid a).map op.tileMap).board (op.pos a.cols a.rows p) = op.tileMap (a.board p) := by
  obtain ⟨x, y⟩ := p
  by_cases h : 0 ≤ x ∧ x < a.cols ∧ 0 ≤ y ∧ y < a.rows
  · obtain ⟨x, rfl⟩ := Int.eq_ofNat_of_zero_le h.1
    obtain ⟨y, rfl⟩ := Int.eq_ofNat_of_zero_le h.2.2.1
    have hx : x < a.cols := by omega
    have hy : y < a.rows := by omega
    rw [board_in y x hy hx]
    have key : ∀ (x' y' : Nat) (i : Fin ((op.grid a).map op.tileMap).rows) (j : Fin ((op.grid a).map op.tileMap).cols),
        op.pos a.cols a.rows ((x : Int), (y : Int)) = ((x' : Int), (y' : Int)) → (i : Nat) = y' → (j : Nat) = x' →
        ((op.grid a).map op.tileMap).board (op.pos a.cols a.rows ((x : Int), (y : Int)))
          = ((op.grid a).map op.tileMap).get i j := by
      intro x' y' i j e hi hj
      rw [e]; subst hi; subst hj
      rw [board_in]
    cases op
    · rw [key x y ⟨y, hy⟩ ⟨x, hx⟩ rfl rfl rfl]; rfl
    · rw [key y (a.cols - 1 - x) ⟨a.cols - 1 - x, by simp [Arr.map, Operation.grid, Arr.rot90]; omega⟩ ⟨y, hy⟩
        (by simp [Operation.pos]; omega) rfl rfl]
      simp only [Arr.map, Operation.grid, Arr.rot90]
      congr 2; ext; simp [Fin.rev]; omega
    · rw [key (a.cols - 1 - x) (a.rows - 1 - y) ⟨a.rows - 1 - y, by simp [Arr.map, Operation.grid, Arr.rot180]; omega⟩
        ⟨a.cols - 1 - x, by simp [Arr.map, Operation.grid, Arr.rot180]; omega⟩
        (by simp [Operation.pos]; omega) rfl rfl]
      simp only [Arr.map, Operation.grid, Arr.rot180]
      congr 2 <;> (ext; simp [Fin.rev]; omega)
    · rw [key (a.rows - 1 - y) x ⟨x, hx⟩ ⟨a.rows - 1 - y, by simp [Arr.map, Operation.grid, Arr.rot270]; omega⟩
        (by simp [Operation.pos]; omega) rfl rfl]
      simp only [Arr.map, Operation.grid, Arr.rot270]
      congr 2; (ext; simp [Fin.rev]; omega)
    · rw [key (a.cols - 1 - x) y ⟨y, hy⟩
        ⟨a.cols - 1 - x, by simp [Arr.map, Operation.grid, Arr.flipX]; omega⟩
        (by simp [Operation.pos]; omega) rfl rfl]
      simp only [Arr.map, Operation.grid, Arr.flipX]
      congr 2; (ext; simp [Fin.rev]; omega)
    · rw [key x (a.rows - 1 - y) ⟨a.rows - 1 - y, by simp [Arr.map, Operation.grid, Arr.flipY]; omega⟩ ⟨x, hx⟩
        (by simp [Operation.pos]; omega) rfl rfl]
      simp only [Arr.map, Operation.grid, Arr.flipY]
      congr 2; (ext; simp [Fin.rev]; omega)
  · rw [board_out (x, y) h, board_out]
    · cases op <;> rfl
    · cases op <;> simp [Operation.pos, Arr.map, Operation.grid, Arr.rot90, Arr.rot180, Arr.rot270, Arr.flipX, Arr.flipY] <;> omega

end FSat
