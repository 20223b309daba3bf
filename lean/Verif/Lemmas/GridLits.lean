import Verif.Lemmas.Free
import Verif.Lemmas.Library

set_option linter.unusedSimpArgs false

namespace FSat

/-- All literals of a tile instance. -/
def TileInst.lits (t : TileInst) : List Lit :=
  [t.isBelt, t.isEmpty, t.isSplitter, t.isUgIn, t.isUgOut, t.isHead, t.isInput, t.isOutput] ++ dirs t.inp ++ dirs t.out ++ dirs t.ug ++
    t.colour ++ t.colourUx ++ t.colourUy

theorem mem_dirs (f : Dir → Lit) (d : Dir) : f d ∈ dirs f := List.mem_map.2 ⟨d, by cases d <;> simp [Dir.all], rfl⟩

theorem evalTile_agree {s : Nat} {v w : Asg} (h : Agree s v w) {t : TileInst} (ht : LBound s t.lits) : evalTile w t = evalTile v t := by
  have e : ∀ l ∈ t.lits, ev w l = ev v l := fun l hl => ev_agree h (ht l hl)
  have ed : ∀ f : Dir → Lit, (∀ l ∈ dirs f, l ∈ t.lits) → (fun d => ev w (f d)) = fun d => ev v (f d) :=
    fun f hf => funext fun d => e _ (hf _ (mem_dirs f d))
  have el : ∀ ls : List Lit, (∀ l ∈ ls, l ∈ t.lits) → ls.map (ev w) = ls.map (ev v) :=
    fun ls hl => List.map_congr_left fun l hm => e l (hl l hm)
  unfold evalTile
  rw [e t.isBelt (by simp [TileInst.lits]), e t.isEmpty (by simp [TileInst.lits]), e t.isSplitter (by simp [TileInst.lits]),
    e t.isUgIn (by simp [TileInst.lits]), e t.isUgOut (by simp [TileInst.lits]), e t.isHead (by simp [TileInst.lits]),
    e t.isInput (by simp [TileInst.lits]), e t.isOutput (by simp [TileInst.lits]),
    ed t.inp (by intro l hl; simp [TileInst.lits, hl]), ed t.out (by intro l hl; simp [TileInst.lits, hl]),
    ed t.ug (by intro l hl; simp [TileInst.lits, hl]), el t.colour (by intro l hl; simp [TileInst.lits, hl]),
    el t.colourUx (by intro l hl; simp [TileInst.lits, hl]), el t.colourUy (by intro l hl; simp [TileInst.lits, hl])]

/-- The literals of the cells of the grid are at most `s`. -/
def Grid.LitsLe (g : Grid) (s : Nat) : Prop := ∀ p, g.In p → LBound s (g.at' p).lits

theorem Grid.vals_agree {g : Grid} {s : Nat} (hg : g.LitsLe s) {v w : Asg} (h : Agree s v w) {p : Nat × Nat} (hp : g.In p) :
    g.vals w p = g.vals v p := evalTile_agree h (hg p hp)

theorem dirs_byDir {ls : List Lit} (h : ls.length = 4) : dirs (byDir ls) = ls := by
  match ls, h with
  | [a, b, c, d], _ => rfl

theorem freshLits_bound (s n : Nat) : LBound (s + n) (freshLits s n) := by
  induction n generalizing s with
  | zero => intro l hl; simp [freshLits] at hl
  | succ n ih =>
    intro l hl
    simp only [freshLits, List.mem_cons] at hl
    rcases hl with rfl | hl
    · show s + 1 ≤ _; omega
    · have := ih (s + 1) l hl
      omega

theorem toTileInst_lits (colours : Option Nat) (extras : TFields) (s : Nat) :
    (toTileInst colours extras ((gridFields colours extras).instantiate s).1).lits ++
      extras.flatten (toExtras colours extras ((gridFields colours extras).instantiate s).1) =
      freshLits s (gridFields colours extras).variableCount := by
  rw [← ((gridFields colours extras).instantiate_spec s).2]
  cases colours with
  | none => rfl
  | some n =>
    simp only [TileInst.lits, List.append_assoc]
    rfl

theorem cell_le {width height x y n : Nat} (hx : x < width) (hy : y < height) : (y * width + x) * n + n ≤ height * width * n := by
  rw [← Nat.succ_mul]
  apply Nat.mul_le_mul_right
  calc y * width + x + 1 ≤ y * width + width := by omega
    _ = (y + 1) * width := by rw [Nat.succ_mul]
    _ ≤ height * width := Nat.mul_le_mul_right _ hy

theorem mkGrid_lits (width height : Nat) (edge : EdgeMode) (colours ugLen : Option Nat) (extras : TFields) (s : Nat) :
    (mkGrid width height edge colours ugLen extras s).LitsLe (s + height * width * (gridFields colours extras).variableCount) ∧
    ∀ p, (mkGrid width height edge colours ugLen extras s).In p →
      LBound (s + height * width * (gridFields colours extras).variableCount)
        (extras.flatten (toExtras colours extras (cellInstance width colours extras s p.1 p.2))) := by
  have key : ∀ p, (mkGrid width height edge colours ugLen extras s).In p →
      LBound (s + height * width * (gridFields colours extras).variableCount)
        (((mkGrid width height edge colours ugLen extras s).at' p).lits ++
          extras.flatten (toExtras colours extras (cellInstance width colours extras s p.1 p.2))) := by
    intro p hp
    have := toTileInst_lits colours extras (s + (p.2 * width + p.1) * (gridFields colours extras).variableCount)
    show LBound _ ((toTileInst colours extras (cellInstance width colours extras s p.1 p.2)).lits ++ _)
    unfold cellInstance
    rw [this]
    refine (freshLits_bound _ _).mono ?_
    have := cell_le (n := (gridFields colours extras).variableCount) hp.1 hp.2
    change (p.2 * width + p.1) * _ + _ ≤ height * width * _ at this
    omega
  exact ⟨fun p hp l hl => key p hp l (by simp [hl]), fun p hp l hl => key p hp l (by simp [hl])⟩

end FSat
