import Verif.Lemmas.ParseMain
/-!
# Checking that an array of tiles is a sound layout
-/

namespace FSat

variable {a : Arr Tile}

/-- All directions. -/
def Dir.list : List Dir := [.right, .up, .left, .down]

theorem Dir.mem_list (d : Dir) : d ∈ Dir.list := by cases d <;> simp [Dir.list]

/-- Whether a tile is a splitter half. -/
def isSplitterB : Tile → Bool
  | .splitter _ _ => true
  | _ => false

theorem isSplitterB_iff {t : Tile} : isSplitterB t = true ↔ t.IsSplitter := by
  constructor
  · intro h
    unfold isSplitterB at h
    split at h
    · exact ⟨_, _, rfl⟩
    · cases h
  · rintro ⟨d, b, rfl⟩
    rfl

/-- Whether a tile is one of those a layout is made of. -/
def basicB : Tile → Bool
  | .empty | .splitter _ _ | .underground _ _ => true
  | .belt i o => decide (o ≠ i.opp)
  | _ => false

/-- The conditions of a sound layout, cell by cell. -/
structure SoundCheck (a : Arr Tile) : Prop where
  basic : ∀ p ∈ a.columns, basicB (a.board p) = true
  heads : ∀ p ∈ a.columns, ∀ d ∈ Dir.list, a.board p = .splitter d true → a.board (stepTo p d.ccw) = .splitter d false
  tails : ∀ p ∈ a.columns, ∀ d ∈ Dir.list, a.board p = .splitter d false → a.board (stepBack p d.ccw) = .splitter d true
  out : ∀ p ∈ a.columns, ∀ d ∈ Dir.list, a.inside (stepTo p d) → (a.board p).Emits d → isSplitterB (a.board p) = false →
    (a.board (stepTo p d)).Takes d
  inp : ∀ p ∈ a.columns, ∀ d ∈ Dir.list, a.inside (stepTo p d) → (a.board (stepTo p d)).Takes d → isSplitterB (a.board (stepTo p d)) = false →
    (a.board p).Emits d
  entrances : ∀ p ∈ a.columns, ∀ d ∈ Dir.list, a.board p = .underground d true → ∃ k ∈ List.range (a.rows + a.cols), 2 ≤ k ∧
    a.board (stepN p d k) = .underground d false ∧ ∀ i ∈ List.range k, 0 < i → ¬ (a.board (stepN p d i)).UgAlong d
  exits : ∀ p ∈ a.columns, ∀ d ∈ Dir.list, a.board p = .underground d false → ∃ k ∈ List.range (a.rows + a.cols), 2 ≤ k ∧
    a.board (stepN p d (-(k : Int))) = .underground d true ∧ ∀ i ∈ List.range k, 0 < i → ¬ (a.board (stepN p d (-(i : Int)))).UgAlong d

theorem inside_between {p : Int × Int} {d : Dir} {i k : Nat} (h1 : a.inside p) (h2 : a.inside (stepN p d k)) (hi : i ≤ k) :
    a.inside (stepN p d i) := by
  obtain ⟨a1, a2, a3, a4⟩ := h1
  obtain ⟨b1, b2, b3, b4⟩ := h2
  cases d <;> simp [Arr.inside, stepN, Dir.dx, Dir.dy] at b1 b2 b3 b4 ⊢ <;> omega

theorem SoundCheck.sound (h : SoundCheck a) : SoundLayout a.In a.nb a.board := by
  have hin : ∀ p, a.In p ↔ p ∈ a.columns := fun p => (mem_columns a p).symm
  have hno : ∀ p, (a.board p ≠ .empty) → a.inside p := fun p => inside_of_board
  refine ⟨fun p hp => ?_, ⟨fun p d hp hd => ?_, fun p d hp hd => ?_⟩, ⟨fun p q d hp hn he hs => ?_, fun p q d hp hn ht hs => ?_⟩,
    ⟨fun p d hp hd => ?_, fun q d hq hd => ?_, fun _ _ _ _ _ _ _ hl => by cases hl⟩⟩
  · have := h.basic p ((hin p).1 hp)
    revert this
    cases a.board p <;> simp [basicB, Tile.Basic]
  · have := h.heads p ((hin p).1 hp) d (Dir.mem_list d) hd
    have hi := hno (stepTo p d.ccw) (by rw [this]; simp)
    exact ⟨_, hi, hd, nb_iff.2 ⟨rfl, hi⟩, this⟩
  · have := h.tails p ((hin p).1 hp) d (Dir.mem_list d) hd
    have hi := hno (stepBack p d.ccw) (by rw [this]; simp)
    exact ⟨_, hi, this, nb_iff.2 ⟨(stepTo_stepBack p d.ccw).symm, hp⟩, hd⟩
  · obtain ⟨rfl, hi⟩ := nb_iff.1 hn
    refine h.out p ((hin p).1 hp) d (Dir.mem_list d) hi he ?_
    rw [← isSplitterB_iff] at hs
    simpa using hs
  · obtain ⟨rfl, hi⟩ := nb_iff.1 hn
    refine h.inp p ((hin p).1 hp) d (Dir.mem_list d) hi ht ?_
    rw [← isSplitterB_iff] at hs
    simpa using hs
  · obtain ⟨k, _, h1, h2, h3⟩ := h.entrances p ((hin p).1 hp) d (Dir.mem_list d) hd
    have hi := hno _ (by rw [h2]; simp)
    exact ⟨_, k, hi, under_iff.2 ⟨h1, rfl, fun i _ hik => inside_between hp hi hik, hd, h2, fun i hi hik => h3 i (List.mem_range.2 hik) hi⟩⟩
  · obtain ⟨k, _, h1, h2, h3⟩ := h.exits q ((hin q).1 hq) d (Dir.mem_list d) hd
    have hi := hno _ (by rw [h2]; simp)
    have hq' : stepN (stepN q d (-(k : Int))) d k = q := by
      rw [stepN_stepN]
      simp [stepN_zero]
    refine ⟨_, k, hi, under_iff.2 ⟨h1, hq'.symm, fun i _ hik => inside_between hi (by rw [hq']; exact hq) hik, h2, hd, fun i hi0 hik => ?_⟩⟩
    have := h3 (k - i) (List.mem_range.2 (by omega)) (by omega)
    rw [stepN_stepN, show -(k : Int) + (i : Int) = -((k - i : Nat) : Int) by omega]
    exact this

end FSat
