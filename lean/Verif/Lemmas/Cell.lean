import Verif.Spec.Cell
import Verif.Lemmas.Tile
import Verif.Lemmas.Cardinality

set_option linter.unusedSimpArgs false

namespace FSat

theorem countTrue_two (v : Asg) (a b : Lit) : countTrue v [a, b] ≤ 1 ↔ ¬ (ev v a = true ∧ ev v b = true) := by
  cases ha : ev v a <;> cases hb : ev v b <;> simp [countTrue, trues, ha, hb]

/-- At most one of four direction flags: they are the indicator of an optional direction. -/
theorem amo_dirs (f : Dir → Bool) : trues (Dir.all.map f) ≤ 1 ↔ ∃ x : Option Dir, ∀ d, f d = decide (x = some d) := by
  constructor
  · intro h
    cases h0 : f .right <;> cases h1 : f .up <;> cases h2 : f .left <;> cases h3 : f .down <;>
      simp [trues, Dir.all, h0, h1, h2, h3] at h
    · exact ⟨none, by intro d; cases d <;> simp [*]⟩
    · exact ⟨some .down, by intro d; cases d <;> simp [*]⟩
    · exact ⟨some .left, by intro d; cases d <;> simp [*]⟩
    · exact ⟨some .up, by intro d; cases d <;> simp [*]⟩
    · exact ⟨some .right, by intro d; cases d <;> simp [*]⟩
  · rintro ⟨x, hx⟩
    simp only [trues, Dir.all, List.map_cons, List.map_nil, hx]
    rcases x with _ | (_ | _ | _ | _) <;> decide

theorem one_kinds (c : CellVal) : trues c.kinds = 1 ↔
    c.kinds = [true, false, false, false, false] ∨ c.kinds = [false, true, false, false, false] ∨
    c.kinds = [false, false, true, false, false] ∨ c.kinds = [false, false, false, true, false] ∨
    c.kinds = [false, false, false, false, true] := by
  unfold CellVal.kinds
  cases c.isBelt <;> cases c.isEmpty <;> cases c.isSplitter <;> cases c.isUgIn <;> cases c.isUgOut <;> decide

theorem countTrue_dirs (v : Asg) (f : Dir → Lit) : countTrue v (dirs f) = trues (Dir.all.map fun d => ev v (f d)) := by
  simp [countTrue, dirs, Dir.all]

theorem SatC_dirs (v : Asg) (f : Dir → Lit) : SatC v (dirs f) ↔ ∃ d, ev v (f d) = true := by
  simp [dirs, Dir.all, Dir.exists_iff]

theorem forall_dirs (f : Dir → Lit) (P : Lit → Prop) : (∀ l ∈ dirs f, P l) ↔ ∀ d, P (f d) := by
  simp [dirs, Dir.all, Dir.forall_iff]

/-- The clauses of one cell, as a statement about its flags. -/
structure RawCell (c : CellVal) : Prop where
  kinds : trues c.kinds = 1
  emp : c.isEmpty = true → (∀ d, c.inp d = false) ∧ (∀ d, c.out d = false)
  belt : c.isBelt = true → (∃ d, c.inp d = true) ∧ (∃ d, c.out d = true)
  ugIn : c.isUgIn = true → (∃ d, c.inp d = true) ∧ (∀ d, c.out d = false)
  ugOut : c.isUgOut = true → (∃ d, c.out d = true) ∧ (∀ d, c.inp d = false)
  splitter : c.isSplitter = true → (∃ d, c.inp d = true) ∨ (∃ d, c.out d = true)
  inp : trues (Dir.all.map c.inp) ≤ 1
  out : trues (Dir.all.map c.out) ≤ 1
  head : c.isHead = true → c.isSplitter = true
  same : c.isSplitter = true → ∀ d e, c.inp d = true → c.out e = true → e = d
  turn : ∀ d, ¬ (c.inp d = true ∧ c.out d.opp = true)

theorem quadraticOne_iff (v : Asg) (ls : List Lit) : Sat v (quadraticOne ls) ↔ countTrue v ls = 1 := by
  simp only [quadraticOne, Sat_append, quadraticAmo_iff, Sat_cons, Sat_nil, and_true, SatC_iff_countTrue]
  omega

theorem Sat_cell_raw (v : Asg) (t : TileInst) : Sat v (cellClauses t) ↔
    RawCell (evalTile v t) ∧ ¬ (ev v (t.ug .right) = true ∧ ev v (t.ug .left) = true) ∧
      ¬ (ev v (t.ug .up) = true ∧ ev v (t.ug .down) = true) := by
  simp only [cellClauses, quadraticOne_iff, Sat_append, Sat_implies, Sat_cons, Sat_nil, and_true, quadraticAmo_iff,
    countTrue_two, Sat_setAllFalse, TileInst.allDir, List.forall_mem_append, forall_dirs, SatC_append, SatC_dirs,
    List.mem_singleton, forall_eq, SatC_cons, SatC_nil, or_false, ev_neg, Bool.not_eq_true', Sat_flatMap,
    Dir.forall_mem_all, List.mem_cons, List.not_mem_nil, forall_eq_or_imp, List.mem_map, List.mem_filter,
    forall_exists_index, and_imp, countTrue_dirs, Dir.reverse_eq, Dir.next_eq, decide_eq_true_eq]
  have hk : countTrue v t.types = trues (evalTile v t).kinds := rfl
  rw [hk]
  constructor
  · rintro ⟨⟨⟨⟨⟨⟨⟨⟨⟨⟨⟨⟨h1, h2⟩, h3⟩, h4⟩, h5⟩, h6⟩, h7⟩, h8⟩, h9⟩, h10⟩, h11⟩, h12⟩, h13⟩
    refine ⟨⟨h1, h2, h3, h4, h5, h6, h7, h8, ?_, ?_, fun d => (h13 d).1⟩, h9, h10⟩
    · intro h
      rcases h11 with h' | h'
      · exact absurd h (by simp only [evalTile]; rw [h']; simp)
      · exact h'
    · intro hs d e hd he
      by_contra hne
      have := (h12 d).1 hs hd _ e hne rfl
      simp only [evalTile] at he
      rw [he] at this; simp at this
  · rintro ⟨⟨h1, h2, h3, h4, h5, h6, h7, h8, h11, h12, h13⟩, h9, h10⟩
    refine ⟨⟨⟨⟨⟨⟨⟨⟨⟨⟨⟨⟨h1, h2⟩, h3⟩, h4⟩, h5⟩, h6⟩, h7⟩, h8⟩, h9⟩, h10⟩, ?_⟩, ?_⟩, ?_⟩
    · simp only [evalTile] at h11
      cases hh : ev v t.isHead
      · exact .inl rfl
      · exact .inr (h11 hh)
    · intro d
      refine ⟨fun hs hd l e hne hl => ?_, fun hs hd l e hne hl => ?_⟩ <;> subst hl
      · cases he : ev v (t.out e)
        · rfl
        · exact absurd (h12 hs d e hd he) hne
      · cases he : ev v (t.inp e)
        · rfl
        · exact absurd (h12 hs e d he hd).symm hne
    · intro d
      refine ⟨h13 d, fun hs hd => ?_⟩
      cases he : ev v (t.out d.ccw)
      · rfl
      · exact absurd (h12 hs d _ hd he) (by cases d <;> simp [Dir.ccw])

theorem RawCell.agrees {c : CellVal} (h : RawCell c) : ∃ T, readTile c = .ok T ∧ Agrees c T := by
  obtain ⟨hk, h2, h3, h4, h5, h6, h7, h8, h11, h12, h13⟩ := h
  obtain ⟨x, hx⟩ := (amo_dirs _).1 h7
  obtain ⟨y, hy⟩ := (amo_dirs _).1 h8
  have fx : firstDir c.inp = x := by
    simp only [firstDir, Dir.all, List.find?, hx]
    rcases x with _ | (_ | _ | _ | _) <;> simp
  have fy : firstDir c.out = y := by
    simp only [firstDir, Dir.all, List.find?, hy]
    rcases y with _ | (_ | _ | _ | _) <;> simp
  have hhead : c.isSplitter = false → c.isHead = false := by
    intro h; cases hh : c.isHead
    · rfl
    · rw [h11 hh] at h; simp at h
  rcases (one_kinds c).1 hk with k | k | k | k | k <;>
    (have k' := k; simp only [CellVal.kinds, List.cons.injEq, and_true] at k'; obtain ⟨e1, e2, e3, e4, e5⟩ := k')
  · obtain ⟨⟨a, ha⟩, ⟨b, hb⟩⟩ := h3 e1
    have hxa : x = some a := by simpa [hx] using ha
    have hyb : y = some b := by simpa [hy] using hb
    subst hxa hyb
    have hne : b ≠ a.opp := by intro e; subst e; exact h13 a ⟨ha, hb⟩
    refine ⟨.belt a b, ?_, k, hhead e3, ?_, ?_, hne⟩
    · simp [readTile, e1, e2, e3, e4, e5, fx, fy, Tile.mkBelt, Ne.symm hne]
    · intro d; simp [hx, eq_comm]
    · intro d; simp [hy, eq_comm]
  · refine ⟨.empty, ?_, k, hhead e3, (h2 e2).1, (h2 e2).2⟩
    simp [readTile, e1, e2, e3, e4, e5]
  · cases x with
    | some a =>
      refine ⟨.splitter a c.isHead, ?_, k, rfl, ?_, ?_, ?_⟩
      · simp [readTile, e3, fx]
      · intro d; simp [hx, eq_comm]
      · intro d hd; exact h12 e3 a d (by simp [hx]) hd
      · left; simp [hx]
    | none =>
      cases y with
      | none => rcases h6 e3 with ⟨d, hd⟩ | ⟨d, hd⟩ <;> simp [hx, hy] at hd
      | some b =>
        refine ⟨.splitter b c.isHead, ?_, k, rfl, ?_, ?_, ?_⟩
        · simp [readTile, e3, fx, fy]
        · intro d; simp [hx, eq_comm]
        · intro d hd; simpa [hy, eq_comm] using hd
        · right; simp [hy]
  · obtain ⟨⟨a, ha⟩, hb⟩ := h4 e4
    have hxa : x = some a := by simpa [hx] using ha
    subst hxa
    refine ⟨.underground a true, ?_, k, hhead e3, ?_, hb⟩
    · simp [readTile, e1, e2, e3, e4, e5, fx]
    · intro d; simp [hx, eq_comm]
  · obtain ⟨⟨a, ha⟩, hb⟩ := h5 e5
    have hxa : y = some a := by simpa [hy] using ha
    subst hxa
    refine ⟨.underground a false, ?_, k, hhead e3, hb, ?_⟩
    · simp [readTile, e1, e2, e3, e4, e5, fy]
    · intro d; simp [hy, eq_comm]

theorem trues_inp_of_iff {f : Dir → Bool} (x : Option Dir) (h : ∀ d, f d = true ↔ x = some d) :
    trues (Dir.all.map f) ≤ 1 :=
  (amo_dirs f).2 ⟨x, fun d => by cases hf : f d <;> simp [← h, hf]⟩

theorem trues_of_imp {f : Dir → Bool} (e : Dir) (h : ∀ d, f d = true → d = e) : trues (Dir.all.map f) ≤ 1 := by
  cases hf : f e
  · refine trues_inp_of_iff none fun d => ?_
    simp; cases hd : f d
    · rfl
    · rw [h d hd, hf] at hd; exact absurd hd (by simp)
  · refine trues_inp_of_iff (some e) fun d => ⟨fun hd => by rw [h d hd], fun he => by cases he; exact hf⟩

theorem trues_of_false {f : Dir → Bool} (h : ∀ d, f d = false) : trues (Dir.all.map f) ≤ 1 :=
  trues_inp_of_iff none fun d => by simp [h]

theorem Agrees.raw {c : CellVal} {T : Tile} (h : Agrees c T) : RawCell c := by
  cases T with
  | empty =>
    obtain ⟨k, hh, hi, ho⟩ := h
    have k' := k; simp only [CellVal.kinds, List.cons.injEq, and_true] at k'; obtain ⟨e1, e2, e3, e4, e5⟩ := k'
    constructor
    case inp => exact trues_of_false hi
    case out => exact trues_of_false ho
    all_goals simp_all [trues]
  | belt i o =>
    obtain ⟨k, hh, hi, ho, hne⟩ := h
    have k' := k; simp only [CellVal.kinds, List.cons.injEq, and_true] at k'; obtain ⟨e1, e2, e3, e4, e5⟩ := k'
    constructor
    case inp => exact trues_of_imp i fun d => (hi d).1
    case out => exact trues_of_imp o fun d => (ho d).1
    case turn => rintro d ⟨a, b⟩; rw [hi] at a; rw [ho] at b; subst a; exact hne b.symm
    all_goals simp_all [trues]
  | underground e b =>
    cases b with
    | true =>
      obtain ⟨k, hh, hi, ho⟩ := h
      have k' := k; simp only [CellVal.kinds, List.cons.injEq, and_true] at k'; obtain ⟨e1, e2, e3, e4, e5⟩ := k'
      constructor
      case inp => exact trues_of_imp e fun d => (hi d).1
      case out => exact trues_of_false ho
      all_goals simp_all [trues]
    | false =>
      obtain ⟨k, hh, hi, ho⟩ := h
      have k' := k; simp only [CellVal.kinds, List.cons.injEq, and_true] at k'; obtain ⟨e1, e2, e3, e4, e5⟩ := k'
      constructor
      case out => exact trues_of_imp e fun d => (ho d).1
      case inp => exact trues_of_false hi
      all_goals simp_all [trues]
  | splitter e b =>
    obtain ⟨k, hh, hi, ho, hor⟩ := h
    have k' := k; simp only [CellVal.kinds, List.cons.injEq, and_true] at k'; obtain ⟨e1, e2, e3, e4, e5⟩ := k'
    constructor
    case inp => exact trues_of_imp e hi
    case out => exact trues_of_imp e ho
    case splitter => intro _; exact hor.imp (fun h => ⟨_, h⟩) fun h => ⟨_, h⟩
    case same => intro _ d d' hd hd'; rw [hi d hd, ho d' hd']
    case turn => rintro d ⟨a, b⟩; have := hi _ a; have := ho _ b; subst this; exact absurd ‹d = d.opp› (by simp)
    all_goals simp_all [trues]
  | filler => exact h.elim
  | inserter _ _ => exact h.elim
  | assembler _ _ => exact h.elim

/-- A cell agrees with at most one tile. -/
theorem Agrees.unique {c : CellVal} {T T' : Tile} (h : Agrees c T) (h' : Agrees c T') : T = T' := by
  cases T with
  | underground e b =>
    cases T' with
    | underground e' b' =>
      cases b <;> cases b' <;> simp only [Agrees] at h h' <;>
        (obtain ⟨k, -, hi, ho⟩ := h; obtain ⟨k', -, hi', ho'⟩ := h'; rw [k] at k') <;> simp at k'
      · have := (ho' e).1 ((ho e).2 rfl); simp [this]
      · have := (hi' e).1 ((hi e).2 rfl); simp [this]
    | _ => cases b <;> simp only [Agrees] at h h' <;>
        (first
          | exact h'.elim
          | (obtain ⟨k, -⟩ := h; obtain ⟨k', -⟩ := h'; rw [k] at k'; simp at k'))
  | belt i o =>
    cases T' with
    | belt i' o' =>
      simp only [Agrees] at h h'
      have := (h'.2.2.1 i).1 ((h.2.2.1 i).2 rfl)
      have := (h'.2.2.2.1 o).1 ((h.2.2.2.1 o).2 rfl)
      simp [*]
    | underground e' b' => cases b' <;> simp only [Agrees] at h h' <;>
          (obtain ⟨k, -⟩ := h; obtain ⟨k', -⟩ := h'; rw [k] at k'; simp at k')
    | _ => simp only [Agrees] at h h' <;>
        (first
          | exact h'.elim
          | (obtain ⟨k, -⟩ := h; obtain ⟨k', -⟩ := h'; rw [k] at k'; simp at k'))
  | splitter e b =>
    cases T' with
    | splitter e' b' =>
      simp only [Agrees] at h h'
      have hb : b = b' := by rw [← h.2.1, ← h'.2.1]
      subst hb
      rcases h.2.2.2.2 with hi | ho
      · rw [h'.2.2.1 _ hi]
      · rw [h'.2.2.2.1 _ ho]
    | underground e' b' => cases b' <;> simp only [Agrees] at h h' <;>
          (obtain ⟨k, -⟩ := h; obtain ⟨k', -⟩ := h'; rw [k] at k'; simp at k')
    | _ => simp only [Agrees] at h h' <;>
        (first
          | exact h'.elim
          | (obtain ⟨k, -⟩ := h; obtain ⟨k', -⟩ := h'; rw [k] at k'; simp at k'))
  | empty =>
    cases T' with
    | empty => rfl
    | underground e' b' => cases b' <;> simp only [Agrees] at h h' <;>
          (obtain ⟨k, -⟩ := h; obtain ⟨k', -⟩ := h'; rw [k] at k'; simp at k')
    | _ => simp only [Agrees] at h h' <;>
        (first
          | exact h'.elim
          | (obtain ⟨k, -⟩ := h; obtain ⟨k', -⟩ := h'; rw [k] at k'; simp at k'))
  | filler => exact h.elim
  | inserter _ _ => exact h.elim
  | assembler _ _ => exact h.elim

theorem Agrees.read {c : CellVal} {T : Tile} (h : Agrees c T) : readTile c = .ok T := by
  obtain ⟨T', hr, ha⟩ := h.raw.agrees
  rw [hr, h.unique ha]

theorem RawCell.agrees_of_read {c : CellVal} {T : Tile} (h : RawCell c) (hr : readTile c = .ok T) : Agrees c T := by
  obtain ⟨T', hr', ha⟩ := h.agrees
  rw [hr'] at hr; cases hr; exact ha

theorem Sat_cellClauses (v : Asg) (t : TileInst) : Sat v (cellClauses t) ↔
    (∃ T, Agrees (evalTile v t) T) ∧ ¬ (ev v (t.ug .right) = true ∧ ev v (t.ug .left) = true) ∧
      ¬ (ev v (t.ug .up) = true ∧ ev v (t.ug .down) = true) := by
  rw [Sat_cell_raw]
  refine and_congr_left fun _ => ⟨fun h => ?_, fun ⟨T, h⟩ => h.raw⟩
  obtain ⟨T, _, h⟩ := h.agrees
  exact ⟨T, h⟩

/-! ### Facts read off a tile -/

theorem Agrees.inp_takes {c : CellVal} {T : Tile} (h : Agrees c T) {d : Dir} (hd : c.inp d = true) : T.Takes d := by
  cases T with
  | underground e b => cases b <;> simp_all [Agrees, Tile.Takes]
  | splitter e b => exact (h.2.2.1 d hd).symm
  | _ => simp_all [Agrees, Tile.Takes]

theorem Agrees.out_emits {c : CellVal} {T : Tile} (h : Agrees c T) {d : Dir} (hd : c.out d = true) : T.Emits d := by
  cases T with
  | underground e b => cases b <;> simp_all [Agrees, Tile.Emits]
  | splitter e b => exact (h.2.2.2.1 d hd).symm
  | _ => simp_all [Agrees, Tile.Emits]

theorem Agrees.takes_iff {c : CellVal} {T : Tile} (h : Agrees c T) (hs : c.isSplitter = false) (d : Dir) :
    c.inp d = true ↔ T.Takes d := by
  refine ⟨h.inp_takes, fun ht => ?_⟩
  cases T with
  | underground e b => cases b <;> simp_all [Agrees, Tile.Takes]
  | splitter e b => simp_all [Agrees, CellVal.kinds]
  | _ => simp_all [Agrees, Tile.Takes]

theorem Agrees.emits_iff {c : CellVal} {T : Tile} (h : Agrees c T) (hs : c.isSplitter = false) (d : Dir) :
    c.out d = true ↔ T.Emits d := by
  refine ⟨h.out_emits, fun ht => ?_⟩
  cases T with
  | underground e b => cases b <;> simp_all [Agrees, Tile.Emits]
  | splitter e b => simp_all [Agrees, CellVal.kinds]
  | _ => simp_all [Agrees, Tile.Emits]

theorem Agrees.isSplitter_iff {c : CellVal} {T : Tile} (h : Agrees c T) :
    c.isSplitter = true ↔ ∃ d b, T = .splitter d b := by
  cases T with
  | underground e b => cases b <;> simp_all [Agrees, CellVal.kinds]
  | _ => simp_all [Agrees, CellVal.kinds]

theorem Agrees.isHead_iff {c : CellVal} {T : Tile} (h : Agrees c T) :
    c.isHead = true ↔ ∃ d, T = .splitter d true := by
  cases T with
  | underground e b => cases b <;> simp_all [Agrees, CellVal.kinds]
  | _ => simp_all [Agrees, CellVal.kinds]

theorem Agrees.isEmpty_iff {c : CellVal} {T : Tile} (h : Agrees c T) : c.isEmpty = true ↔ T = .empty := by
  cases T with
  | underground e b => cases b <;> simp_all [Agrees, CellVal.kinds]
  | _ => simp_all [Agrees, CellVal.kinds]

theorem Agrees.isBelt_iff {c : CellVal} {T : Tile} (h : Agrees c T) : c.isBelt = true ↔ ∃ i o, T = .belt i o := by
  cases T with
  | underground e b => cases b <;> simp_all [Agrees, CellVal.kinds]
  | _ => simp_all [Agrees, CellVal.kinds]

theorem Agrees.ugIn_iff {c : CellVal} {T : Tile} (h : Agrees c T) (d : Dir) :
    c.isUgIn = true ∧ c.inp d = true ↔ T = .underground d true := by
  cases T with
  | underground e b =>
    cases b <;> simp_all [Agrees, CellVal.kinds]
    exact eq_comm
  | _ => simp_all [Agrees, CellVal.kinds]

theorem Agrees.ugOut_iff {c : CellVal} {T : Tile} (h : Agrees c T) (d : Dir) :
    c.isUgOut = true ∧ c.out d = true ↔ T = .underground d false := by
  cases T with
  | underground e b =>
    cases b <;> simp_all [Agrees, CellVal.kinds]
    exact eq_comm
  | _ => simp_all [Agrees, CellVal.kinds]

theorem Agrees.splitter_dir {c : CellVal} {T : Tile} (h : Agrees c T) (hs : c.isSplitter = true) {d : Dir}
    (hd : c.inp d = true ∨ c.out d = true) : T = .splitter d c.isHead := by
  obtain ⟨e, b, rfl⟩ := h.isSplitter_iff.1 hs
  obtain ⟨_, hb, hi, ho, _⟩ := h
  rcases hd with hd | hd
  · rw [hi _ hd, hb]
  · rw [ho _ hd, hb]

end FSat
