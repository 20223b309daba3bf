import Verif.Props.ParseFree
/-!
# The network read from a turned or mirrored layout
-/

namespace FSat

section
variable {P Q : Type} {In : P → Prop} {nb : P → Dir → Option P} {T : P → Tile} {In' : Q → Prop} {nb' : Q → Dir → Option Q} {T' : Q → Tile} {e : P → Q}
  {op : Operation}

/-- A turned or mirrored sound layout is sound. -/
theorem Turning.sound (C : Turning op In nb T In' nb' T' e) (h : SoundLayout In nb T) : SoundLayout In' nb' T' := by
  have nbr : ∀ p d r, In p → nb' (e p) (op.dir d) = some r → ∃ q, In q ∧ e q = r ∧ nb p d = some q := by
    intro p d r hp hr
    rw [C.nbs p d hp] at hr
    obtain ⟨q, hq, rfl⟩ := Option.map_eq_some_iff.1 hr
    exact ⟨q, C.nbIn p q d hp hq, rfl, hq⟩
  have basic : ∀ t : Tile, t.Basic → (op.tileMap t).Basic := by
    intro t ht
    cases t with
    | belt i o =>
      intro h
      exact ht (op.dir_inj (by rw [op.dir_opp]; exact h))
    | _ => exact ht
  refine ⟨fun q hq => ?_, ⟨fun q d hq ht => ?_, fun q d hq ht => ?_⟩, ⟨fun p r d hp hn he hs => ?_, fun p r d hp hn he hs => ?_⟩,
    ⟨fun q d hq ht => ?_, fun q d hq ht => ?_, nofun⟩⟩
  · obtain ⟨p, hp, rfl⟩ := C.onto q hq
    rw [C.tile p hp]
    exact basic _ (h.basic p hp)
  · obtain ⟨p, hp, rfl⟩ := C.onto q hq
    obtain ⟨d, rfl⟩ := op.dir_surj d
    rw [C.tile p hp, op.tileMap_splitter] at ht
    cases hm : op.mirrors
    · rw [hm] at ht
      obtain ⟨q, hq, hpr⟩ := h.splitters.head p d hp ht
      exact ⟨e q, C.maps q hq, by simpa [hm] using C.pair hp hq hpr⟩
    · rw [hm] at ht
      obtain ⟨q, hq, hpr⟩ := h.splitters.tail p d hp ht
      exact ⟨e q, C.maps q hq, by simpa [hm] using C.pair hq hp hpr⟩
  · obtain ⟨p, hp, rfl⟩ := C.onto q hq
    obtain ⟨d, rfl⟩ := op.dir_surj d
    rw [C.tile p hp, op.tileMap_splitter] at ht
    cases hm : op.mirrors
    · rw [hm] at ht
      obtain ⟨q, hq, hpr⟩ := h.splitters.tail p d hp ht
      exact ⟨e q, C.maps q hq, by simpa [hm] using C.pair hq hp hpr⟩
    · rw [hm] at ht
      obtain ⟨q, hq, hpr⟩ := h.splitters.head p d hp ht
      exact ⟨e q, C.maps q hq, by simpa [hm] using C.pair hp hq hpr⟩
  · obtain ⟨p, hp', rfl⟩ := C.onto p hp
    replace hp := hp'
    obtain ⟨d, rfl⟩ := op.dir_surj d
    obtain ⟨q, hq, rfl, hn'⟩ := nbr p d r hp hn
    rw [C.tile p hp, op.emits] at he
    rw [C.tile q hq, op.takes]
    exact h.joined.out p q d hp hn' he fun hs' => hs ((C.isSplitter hp).2 hs')
  · obtain ⟨p, hp', rfl⟩ := C.onto p hp
    replace hp := hp'
    obtain ⟨d, rfl⟩ := op.dir_surj d
    obtain ⟨q, hq, rfl, hn'⟩ := nbr p d r hp hn
    rw [C.tile q hq, op.takes] at he
    rw [C.tile p hp, op.emits]
    exact h.joined.inp p q d hp hn' he fun hs' => hs ((C.isSplitter hq).2 hs')
  · obtain ⟨p, hp, rfl⟩ := C.onto q hq
    obtain ⟨d, rfl⟩ := op.dir_surj d
    rw [C.tile p hp, op.tileMap_ug] at ht
    obtain ⟨q, k, hq, hu⟩ := h.undergrounds.entrance p d hp ht
    exact ⟨e q, k, C.maps q hq, C.ugPair hp hq hu⟩
  · obtain ⟨p, hp, rfl⟩ := C.onto q hq
    obtain ⟨d, rfl⟩ := op.dir_surj d
    rw [C.tile p hp, op.tileMap_ug] at ht
    obtain ⟨q, k, hq, hu⟩ := h.undergrounds.exit p d hp ht
    exact ⟨e q, k, C.maps q hq, C.ugPair hq hp hu⟩

end

namespace Operation

variable (op : Operation) (a : Arr Tile)

theorem follows_turned (p q : Int × Int) :
    Follows (op.turned a).nb (op.turned a).board (op.moves a p) (op.moves a q) ↔ Follows a.nb a.board p q := by
  constructor
  · intro h
    rcases h with ⟨d, h⟩ | ⟨d, k, h⟩
    · obtain ⟨d, rfl⟩ := op.dir_surj d
      exact .inl ⟨d, (op.connected_turned a p q d).1 h⟩
    · obtain ⟨d, rfl⟩ := op.dir_surj d
      exact .inr ⟨d, k, (op.ugPair_turned a p q d k).1 h⟩
  · intro h
    rcases h with ⟨d, h⟩ | ⟨d, k, h⟩
    · exact .inl ⟨_, (op.connected_turned a p q d).2 h⟩
    · exact .inr ⟨_, k, (op.ugPair_turned a p q d k).2 h⟩

theorem reaches_turned (p q : Int × Int) :
    Reaches (op.turned a).nb (op.turned a).board (op.moves a p) (op.moves a q) ↔ Reaches a.nb a.board p q := by
  constructor
  · have key : ∀ r, Reaches (op.turned a).nb (op.turned a).board (op.moves a p) r → ∀ q, op.moves a q = r → Reaches a.nb a.board p q := by
      intro r h
      induction h with
      | step h =>
        rintro q rfl
        exact .step ((op.follows_turned a p q).1 h)
      | @on s r _ hs hf ih =>
        rintro q rfl
        obtain ⟨s, rfl⟩ := op.moves_surj a s
        exact .on (ih s rfl) (fun h => hs ((op.isSplitter_turned a s).2 h)) ((op.follows_turned a s q).1 hf)
    exact fun h => key _ h q rfl
  · intro h
    induction h with
    | step h => exact .step ((op.follows_turned a p _).2 h)
    | on _ hs hf ih => exact .on ih (fun h => hs ((op.isSplitter_turned a _).1 h)) ((op.follows_turned a _ _).2 hf)

theorem bringsIn_turned (p : Int × Int) : BringsIn (op.turned a).nb (op.turned a).board (op.moves a p) ↔ BringsIn a.nb a.board p := by
  unfold BringsIn
  rw [op.isSplitter_turned, op.enters_turned]
  refine and_congr_right fun _ => and_congr_right fun _ => ⟨?_, ?_⟩
  · rintro ⟨r, h1, h2⟩
    obtain ⟨r, rfl⟩ := op.moves_surj a r
    exact ⟨r, (op.isSplitter_turned a r).1 h1, (op.reaches_turned a p r).1 h2⟩
  · rintro ⟨r, h1, h2⟩
    exact ⟨_, (op.isSplitter_turned a r).2 h1, (op.reaches_turned a p r).2 h2⟩

theorem takesOut_turned (p : Int × Int) : TakesOut (op.turned a).nb (op.turned a).board (op.moves a p) ↔ TakesOut a.nb a.board p := by
  unfold TakesOut
  rw [op.isSplitter_turned, op.leaves_turned]
  refine and_congr_right fun _ => and_congr_right fun _ => ⟨?_, ?_⟩
  · rintro ⟨r, h1, h2⟩
    obtain ⟨r, rfl⟩ := op.moves_surj a r
    exact ⟨r, (op.isSplitter_turned a r).1 h1, (op.reaches_turned a r p).1 h2⟩
  · rintro ⟨r, h1, h2⟩
    exact ⟨_, (op.isSplitter_turned a r).2 h1, (op.reaches_turned a r p).2 h2⟩

theorem steady_turned (F : Int × Int → ℚ) :
    Steady (op.turned a).In (op.turned a).nb (op.turned a).board (Connected (op.turned a).nb (op.turned a).board) F ↔
      Steady a.In a.nb a.board (Connected a.nb a.board) fun p => F (op.moves a p) := by
  have key : ∀ (b : Arr Tile) (F : Int × Int → ℚ), Steady b.In b.nb b.board (Connected b.nb b.board) F ↔
      Carries b.In b.nb b.board (Connected b.nb b.board) (fun _ => False) F := by
    intro b F
    have e : ∀ p d, gets b.In b.nb (Connected b.nb b.board) (fun _ => False) F p d = arrives b.In (Connected b.nb b.board) F p d := by
      intro p d
      unfold gets arrives FedAt
      congr 1
      simp
    constructor
    · rintro ⟨h1, h2, h3⟩
      exact ⟨h1, h2, by simpa only [e] using h3⟩
    · rintro ⟨h1, h2, h3⟩
      exact ⟨h1, h2, by simpa only [e] using h3⟩
  rw [key, op.carries_turned, ← key]

/-- The cells of the turned layout that have a property are, up to their order, the moved cells of the layout. -/
theorem filter_turned {Q Q' : Int × Int → Prop} [DecidablePred Q] [DecidablePred Q'] (h : ∀ p, Q' (op.moves a p) ↔ Q p) :
    ((op.turned a).columns.filter fun p => decide (Q' p)).Perm ((a.columns.filter fun p => decide (Q p)).map (op.moves a)) := by
  rw [List.perm_ext_iff_of_nodup ((columns_nodup _).filter _)
    (((columns_nodup a).filter _).map fun _ _ e => op.pos_inj a.cols a.rows e)]
  intro q
  obtain ⟨q, rfl⟩ := op.moves_surj a q
  simp only [List.mem_filter, mem_columns, decide_eq_true_eq, List.mem_map, h]
  have hi : ∀ p, (op.turned a).inside (op.moves a p) ↔ a.inside p := op.in_iff a
  constructor
  · exact fun h => ⟨q, ⟨(hi q).1 h.1, h.2⟩, rfl⟩
  · rintro ⟨r, h, e⟩
    rw [← op.pos_inj a.cols a.rows e]
    exact ⟨(hi r).2 h.1, h.2⟩

end Operation

section
variable {ordP : List (Int × Int) → List (Int × Int)} (hP : ∀ l, (ordP l).Perm l) {ordT : List Colour → List Colour} (hT : SetOrder ordT)
include hP hT

open Classical in
/-- C118: the file that `network parse` writes for a turned or mirrored layout holds a network with as many inputs and outputs as the layout itself has, and its
flows are exactly those of the layout itself. -/
theorem c118_file (op : Operation) {l : List Char} {a : Arr Tile} (hn : '\n' ∉ l) (hs : SolutionLine l a) (hl : SoundLayout a.In a.nb a.board)
    (hin : ∃ p, BringsIn a.nb a.board p) (hout : ∃ p, TakesOut a.nb a.board p) :
    ∃ mid, rotateMain op (textOf [l]) = ⟨mid, .endOfInput⟩ ∧ ∀ file, networkParse ordP ordT false mid = some (.ok file) →
      ∃ m x y, openNetwork file = .ok m ∧
        Ends m x (a.columns.countP fun p => BringsIn a.nb a.board p : Nat) y (a.columns.countP fun p => TakesOut a.nb a.board p : Nat) ∧
        ∀ I O, (∃ flow, NetworkFlow m x y flow I O) ↔ ∃ F, Steady a.In a.nb a.board (Connected a.nb a.board) F ∧
          I = ((a.columns.filter fun p => BringsIn a.nb a.board p).map F : List ℚ) ∧
          O = ((a.columns.filter fun p => TakesOut a.nb a.board p).map F : List ℚ) := by
  have hv := sound_valid hl
  obtain ⟨line, b, e1, e2, e3, e4⟩ := rotate_one op hn hs hv
  have eb : b = op.turned a := (op.produces_iff _ _ hv).1 e4
  subst eb
  have hl' := (turning_arr op a).sound hl
  refine ⟨_, e1, fun file hf => ?_⟩
  have p1 := op.filter_turned a (op.bringsIn_turned a)
  have p2 := op.filter_turned a (op.takesOut_turned a)
  obtain ⟨m, x, y, k1, k2, k3⟩ := c115_file hP hT (isInput_textOf (ls := [line]) (by simpa using e2)) e3 (sound_valid hl') hl'
    (by obtain ⟨p, h⟩ := hin; exact ⟨_, (op.bringsIn_turned a p).2 h⟩) (by obtain ⟨p, h⟩ := hout; exact ⟨_, (op.takesOut_turned a p).2 h⟩) hf
  refine ⟨m, x, y, k1, ?_, fun I O => ?_⟩
  · have c1 := p1.length_eq
    have c2 := p2.length_eq
    rw [List.length_map, ← List.countP_eq_length_filter, ← List.countP_eq_length_filter] at c1 c2
    rw [c1, c2] at k2
    exact k2
  · have m1 : ∀ F : Int × Int → ℚ, (((op.turned a).columns.filter fun p => BringsIn (op.turned a).nb (op.turned a).board p).map F : Multiset ℚ) =
        ((a.columns.filter fun p => BringsIn a.nb a.board p).map fun p => F (op.moves a p) : List ℚ) := fun F => by
      rw [Multiset.coe_eq_coe]
      refine (p1.map F).trans ?_
      rw [List.map_map]
      exact .refl _
    have m2 : ∀ F : Int × Int → ℚ, (((op.turned a).columns.filter fun p => TakesOut (op.turned a).nb (op.turned a).board p).map F : Multiset ℚ) =
        ((a.columns.filter fun p => TakesOut a.nb a.board p).map fun p => F (op.moves a p) : List ℚ) := fun F => by
      rw [Multiset.coe_eq_coe]
      refine (p2.map F).trans ?_
      rw [List.map_map]
      exact .refl _
    rw [k3 I O]
    constructor
    · rintro ⟨F, h1, rfl, rfl⟩
      exact ⟨_, (op.steady_turned a F).1 h1, m1 F, m2 F⟩
    · rintro ⟨F, h1, rfl, rfl⟩
      obtain ⟨F', hF'⟩ : ∃ F' : Int × Int → ℚ, ∀ p, F' (op.moves a p) = F p := by
        refine ⟨fun q => F (op.moves_surj a q).choose, fun p => congrArg F ?_⟩
        exact op.pos_inj a.cols a.rows (op.moves_surj a (op.moves a p)).choose_spec
      refine ⟨F', (op.steady_turned a F').2 (by simpa only [hF'] using h1), ?_, ?_⟩
      · rw [m1]
        simp only [hF']
      · rw [m2]
        simp only [hF']

end

/-- C118: the networks read from a layout and from the layout turned or mirrored have as many inputs and outputs and the same flows, so one is a balancer if and
only if the other is. -/
theorem c118_same {ordP ordP' : List (Int × Int) → List (Int × Int)} (hP : ∀ l, (ordP l).Perm l) (hP' : ∀ l, (ordP' l).Perm l)
    {ordT ordT' : List Colour → List Colour} (hT : SetOrder ordT) (hT' : SetOrder ordT') (op : Operation) {l : List Char} {a : Arr Tile}
    (hn : '\n' ∉ l) (hs : SolutionLine l a) (hl : SoundLayout a.In a.nb a.board) (hin : ∃ p, BringsIn a.nb a.board p)
    (hout : ∃ p, TakesOut a.nb a.board p) :
    ∃ mid, rotateMain op (textOf [l]) = ⟨mid, .endOfInput⟩ ∧ ∀ file file', networkParse ordP ordT false (textOf [l]) = some (.ok file) →
      networkParse ordP' ordT' false mid = some (.ok file') →
      ∃ m x y m' x' y' i j, openNetwork file = .ok m ∧ openNetwork file' = .ok m' ∧ Ends m x i y j ∧ Ends m' x' i y' j ∧
        (∀ I O, (∃ flow, NetworkFlow m x y flow I O) ↔ ∃ flow, NetworkFlow m' x' y' flow I O) ∧ (IsBalancer m x y ↔ IsBalancer m' x' y') := by
  classical
  obtain ⟨mid, e, h⟩ := c118_file hP' hT' op hn hs hl hin hout
  refine ⟨mid, e, fun file file' hf hf' => ?_⟩
  obtain ⟨m', x', y', k1, k2, k3⟩ := h file' hf'
  obtain ⟨m, x, y, j1, j2, j3⟩ := c115_file hP hT (isInput_textOf (ls := [l]) (by simpa using hn)) hs (sound_valid hl) hl hin hout hf
  have key : ∀ I O, (∃ flow, NetworkFlow m x y flow I O) ↔ ∃ flow, NetworkFlow m' x' y' flow I O := fun I O => (j3 I O).trans (k3 I O).symm
  refine ⟨m, x, y, m', x', y', _, _, j1, k1, j2, k2, key, fun hb flow I O hf => ?_, fun hb flow I O hf => ?_⟩
  · obtain ⟨flow', h'⟩ := (key I O).2 ⟨flow, hf⟩
    exact hb flow' I O h'
  · obtain ⟨flow', h'⟩ := (key I O).1 ⟨flow, hf⟩
    exact hb flow' I O h'

section
variable {ordP : List (Int × Int) → List (Int × Int)} (hP : ∀ l, (ordP l).Perm l) {ordT : List Colour → List Colour} (hT : SetOrder ordT)
include hP hT

/-- C118: unless an underground belt begins in a cell that comes to lie in the top row, a file is written for the turned layout if and only if no splitter of the
layout has an empty cell in front of it or behind it. -/
theorem c118_written (op : Operation) {l : List Char} {a : Arr Tile} (hn : '\n' ∉ l) (hs : SolutionLine l a) (hl : SoundLayout a.In a.nb a.board)
    (hrow : ∀ p d, a.board p = .underground d true → (op.pos a.cols a.rows p).2 ≠ 0) :
    ∃ mid, rotateMain op (textOf [l]) = ⟨mid, .endOfInput⟩ ∧ ((∃ file, networkParse ordP ordT false mid = some (.ok file)) ↔
      ∀ p d b q, a.board p = .splitter d b → a.nb p d = some q ∨ a.nb p d.opp = some q → a.board q ≠ .empty) := by
  have hv := sound_valid hl
  obtain ⟨line, b, e1, e2, e3, e4⟩ := rotate_one op hn hs hv
  have eb : b = op.turned a := (op.produces_iff _ _ hv).1 e4
  subst eb
  have hl' := (turning_arr op a).sound hl
  refine ⟨_, e1, ?_⟩
  rw [(c96_parse hP hT (assume := false) (isInput_textOf (ls := [line]) (by simpa using e2)) e3 (sound_valid hl') hl').2, c62_succeeds_partial hl' ?_ hP false]
  · constructor
    · intro h p d b q hp hq he
      refine h (op.moves a p) (op.dir d) (b != op.mirrors) (op.moves a q) ?_ ?_ ?_
      · rw [op.board, op.tileMap_splitter, hp]
        simp
      · rw [← op.dir_opp, op.nb_turned_some, op.nb_turned_some]
        exact hq
      · rw [op.board, he]
        rfl
    · intro h p d b q hp hq he
      obtain ⟨p, rfl⟩ := op.moves_surj a p
      obtain ⟨q, rfl⟩ := op.moves_surj a q
      obtain ⟨d, rfl⟩ := op.dir_surj d
      rw [op.board, op.tileMap_splitter] at hp
      rw [← op.dir_opp, op.nb_turned_some, op.nb_turned_some] at hq
      rw [op.board] at he
      refine h p d _ q hp hq ?_
      cases ht : a.board q <;> rw [ht] at he <;> first | rfl | cases he
  · intro p d hp
    obtain ⟨p, rfl⟩ := op.moves_surj a p
    obtain ⟨d, rfl⟩ := op.dir_surj d
    rw [op.board, op.tileMap_ug] at hp
    exact hrow p d hp

variable {width height size : Nat} {ugLen : Option Nat} {aligned : Bool} {layout : Option (List (List Tile))} {g : Grid} {cs : Cnf} {s : Nat}

/-- C118: a layout of `belt_balancer_net_free` with at least two belts, turned or mirrored: if a file is written, then it holds a balancer. -/
theorem c118_free (op : Operation) (hw : 2 ≤ width) (hh : 0 < height) (hn : 2 ≤ size) (hL : ∀ l, ugLen = some l → 1 ≤ l)
    (h : freeProgram width height ugLen size size aligned layout = .ok (g, cs, s)) {T : Nat × Nat → Tile}
    (hB : ShareBalancer g T size (Nat.lcm (2 ^ Nat.clog 2 size) size) aligned) {l : List Char}
    (hline : '\n' ∉ l) (hl : SolutionLine l (layoutArr g T)) :
    ∃ mid, rotateMain op (textOf [l]) = ⟨mid, .endOfInput⟩ ∧ ∀ file, networkParse ordP ordT false mid = some (.ok file) →
      ∃ m x y, openNetwork file = .ok m ∧ Ends m x size y size ∧ DividesEvenly m x size y size ∧ IsBalancer m x y := by
  classical
  obtain ⟨hs, i, j, h1, h2, h3⟩ := free_even hw hh hn hL h hB
  have hb : ∀ q, BringsIn (layoutArr g T).nb (layoutArr g T).board q → (layoutArr g T).In q := by
    intro q hq
    obtain ⟨d, hd, _⟩ := hq.2.1
    exact inside_of_board (Takes.ne_empty hd)
  have p1 := columns_filter (f := fun k => toPlane (0, i + k)) (fun k l e => by simpa [toPlane] using e) hb h1
  have p2 := columns_filter (f := fun k => toPlane (width - 1, j + k)) (fun k l e => by simpa [toPlane] using e) (fun q hq => takesOut_in hq) h2
  have c1 := p1.length_eq
  have c2 := p2.length_eq
  rw [List.length_map, List.length_range, ← List.countP_eq_length_filter] at c1 c2
  obtain ⟨mid, e, hmid⟩ := c118_file hP hT op hline hl hs ⟨_, (h1 _).2 ⟨0, by omega, rfl⟩⟩ ⟨_, (h2 _).2 ⟨0, by omega, rfl⟩⟩
  refine ⟨mid, e, fun file hf => ?_⟩
  obtain ⟨m, x, y, k1, k2, k3⟩ := hmid file hf
  have hsz : (size : ℚ) ≠ 0 := by exact_mod_cast (show size ≠ 0 by omega)
  have hd : DividesEvenly m x size y size := by
    intro flow I O hfl
    obtain ⟨F, hF, rfl, rfl⟩ := (k3 I O).1 ⟨flow, hfl⟩
    rw [Multiset.coe_card, List.length_map, ← List.countP_eq_length_filter, Multiset.coe_card, List.length_map, ← List.countP_eq_length_filter]
    refine ⟨c1, c2, fun z hz => ?_⟩
    obtain ⟨q, hq, rfl⟩ := List.mem_map.1 (Multiset.mem_coe.1 hz)
    obtain ⟨k, hk, rfl⟩ := (h2 q).1 (by simpa using (List.mem_filter.1 hq).2)
    rw [h3 F hF k hk, Multiset.sum_coe, (p1.map F).sum_eq, List.map_map, div_mul_cancel₀ _ hsz]
    rfl
  refine ⟨m, x, y, k1, by rw [← c1, ← c2] at *; exact k2, hd, fun flow I O hfl u hu w hw => ?_⟩
  obtain ⟨_, _, h5⟩ := hd flow I O hfl
  exact mul_right_cancel₀ hsz ((h5 u hu).trans (h5 w hw).symm)

/-- C118: `belt_balancer_net_free`, then turning or mirroring, then `network parse`, for equally many inputs and outputs, at least two.  If there is a balancer,
then one is printed, and it can be turned.  A file is written for it unless an underground belt begins in a cell that comes to lie in the top row; and what is
written is a balancer. -/
theorem c118_program (op : Operation) (hw : 2 ≤ width) (hh : 0 < height) (hn : 2 ≤ size) (hL : ∀ l, ugLen = some l → 1 ≤ l)
    (h : freeProgram width height ugLen size size aligned layout = .ok (g, cs, s)) {solver : Oracle} (hs : CorrectSolver solver)
    (hf : CompleteSolver solver) (fuel : Nat) :
    let Wanted := fun T => (ShareBalancer g T size (Nat.lcm (2 ^ Nat.clog 2 size) size) aligned ∧
      TidyFree g.In g.nb width height ugLen T (fun p d => (T p).Takes d) (fun p d => (T p).Emits d)) ∧
      ∀ rows, layout = some rows → Contains T rows
    let printed := freeRun width height ugLen size size aligned layout solver false fuel
    (printed.out = [] ∧ ¬ ∃ T, Wanted T) ∨
    ∃ T mid, Wanted T ∧ rotateMain op printed.out = ⟨mid, .endOfInput⟩ ∧
      ((∀ p, g.In p → (op.pos g.width g.height (toPlane p)).2 = 0 → ∀ d, T p ≠ .underground d true) →
        ∃ file, networkParse ordP ordT false mid = some (.ok file)) ∧
      ∀ file, networkParse ordP ordT false mid = some (.ok file) →
        ∃ m x y, openNetwork file = .ok m ∧ Ends m x size y size ∧ DividesEvenly m x size y size ∧ IsBalancer m x y := by
  intro Wanted printed
  rcases (c105_free hw hh (by omega) hL h hs hf).2 fuel with ⟨e, hno⟩ | ⟨l, T, e, hi, hp, hW⟩
  · exact .inl ⟨congrArg Run.out e, hno⟩
  · have eo : printed.out = textOf [l] := congrArg Run.out e
    rw [eo]
    have hln := hp.line
    obtain ⟨mid, k1, k2⟩ := c118_free hP hT op hw hh hn hL h hW.1.1 hln (c96_printed hp)
    refine .inr ⟨T, mid, hW, k1, fun hrow => ?_, k2⟩
    obtain ⟨hsound, _⟩ := free_even hw hh hn hL h hW.1.1
    have hfull := full_free hw hh hn h hW.1.1
    obtain ⟨mid', k3, k4⟩ := c118_written hP hT op hln (c96_printed hp) hsound fun r d hr h0 => by
      obtain ⟨p, hp, rfl⟩ := layout_in (by rw [hr]; simp)
      rw [layout_board T hp] at hr
      exact hrow p hp h0 d hr
    have : mid' = mid := congrArg Run.out (k3.symm.trans k1)
    subst this
    refine k4.2 ?_
    intro p d b q hd hq
    obtain ⟨⟨r, h1⟩, r', _, h2⟩ := hfull p d b (inside_of_board (by rw [hd]; simp)) hd
    rcases hq with hq | hq
    · have : r = q := Option.some.inj (h1.1.symm.trans hq)
      subst this
      exact Takes.ne_empty h1.2.2
    · have : q = r' := Option.some.inj (hq.symm.trans (nb_back (inside_of_board (Emits.ne_empty h2.2.1)) h2.1))
      subst this
      exact Emits.ne_empty h2.2.1

end

/-- C118: `belt_balancer`, then turning or mirroring, then `network parse`.  If there is a balancer, then one is printed, and it can be turned; and if a file is
written for the turned layout, then it holds a balancer, under the conditions of C115 (the case there, at the end of `Props/ParseFile`, meets its hypotheses). -/
theorem c118_balancer (op : Operation) {lib : CardLib} {net : PyDict Node Nat} {width height : Nat} {ugLen : Option Nat} {o : BalancerOptions} {g : Grid}
    {node : Nat × Nat → List Lit} {cs : Cnf} {s' : Nat} (hl : lib.Correct) (hv : net.Valid) (hpos : ∀ c ∈ netColours net, 0 ≤ c) (hw : 2 ≤ width)
    (hh : 2 ≤ height) (hc : balancerMain lib net width height ugLen o = .ok (g, node, cs, s')) {solver : Oracle} (hs : CorrectSolver solver)
    (hf : CompleteSolver solver) (fuel : Nat) {a i b j : Int} (hE : Ends (elements net) a i b j) (hbal : IsBalancer (elements net) a b)
    {ordP : List (Int × Int) → List (Int × Int)} (hP : ∀ l, (ordP l).Perm l) {ordT : List Colour → List Colour} (hT : SetOrder ordT) :
    let printed := balancerRun lib net width height ugLen o solver false fuel
    (printed.out = [] ∧ ¬ ∃ v, Sat v cs) ∨
    ∃ v T, Sat v cs ∧ Decodes g v T ∧ ((∃ p, BringsIn (layoutArr g T).nb (layoutArr g T).board p) →
      (∃ p, TakesOut (layoutArr g T).nb (layoutArr g T).board p) →
      ∃ mid, rotateMain op printed.out = ⟨mid, .endOfInput⟩ ∧ ∀ file, networkParse ordP ordT false mid = some (.ok file) →
        (AllOutputsUsed (elements net) ∨ AllInputsUsed (elements net) ∨ Apart g.In g.nb T) →
        ∃ m x y p q, openNetwork file = .ok m ∧ Ends m x p y q ∧ IsBalancer m x y) := by
  classical
  intro printed
  have hprinted : printed = balancerRun lib net width height ugLen o solver false fuel := rfl
  unfold balancerRun itersolve itersolveFrom at hprinted
  rw [hc] at hprinted
  simp only [Bool.false_eq_true, if_false] at hprinted
  cases hq : solver 0 cs with
  | none =>
    rw [hq] at hprinted
    simp only [printLoop] at hprinted
    rw [hprinted]
    exact Or.inl ⟨rfl, hs.unsat 0 cs hq⟩
  | some m =>
    obtain ⟨l, T, e1, hdec, e3⟩ := balancer_prints hl hpos hc (hs.model 0 cs m hq) (hf 0 cs m hq)
    rw [hq] at hprinted
    simp only [printLoop, e1, Bool.false_eq_true, if_false] at hprinted
    have hprinted : printed = ⟨textOf [l], .finished⟩ := hprinted.trans (by simp [textOf])
    have hsat := (hs.model 0 cs m hq).asg
    rw [hprinted]
    refine Or.inr ⟨asgOf m, T, hsat, hdec, fun hin hout => ?_⟩
    obtain ⟨mid, k0, k⟩ := c118_file hP hT op e3.line (c96_printed e3) (c104_sound hl hpos hw hh hc _ hsat T hdec) hin hout
    refine ⟨mid, k0, fun file hfile hX => ?_⟩
    obtain ⟨net', x, y, k1, k2, k3⟩ := k file hfile
    refine ⟨net', x, y, _, _, k1, k2, fun flow I O hfl u hu w hw' => ?_⟩
    obtain ⟨F, hF, rfl, rfl⟩ := (k3 I O).1 ⟨flow, hfl⟩
    obtain ⟨p, hp, rfl⟩ := List.mem_map.1 (Multiset.mem_coe.1 hu)
    obtain ⟨q, hq', rfl⟩ := List.mem_map.1 (Multiset.mem_coe.1 hw')
    exact printed_alike hl hv hpos hw hh hc _ hsat T hdec _ _ _ _ hE hbal hX F hF p q (by simpa using (List.mem_filter.1 hp).2)
      (by simpa using (List.mem_filter.1 hq').2)

/-! ### A case -/

/-- The condition of the next case holds for quarter turns and for one of the two mirrorings. -/
example : ∀ op ∈ [Operation.rot90, .rot270, .flipX], (op.pos 7 2 (2, 1)).2 ≠ 0 := by decide

/-- Two splitters in a row, turned or mirrored so that the underground belt does not begin in the top row: a file is written, and the network read from it has the flows of the layout. -/
example (op : Operation) (hop : (op.pos 7 2 (2, 1)).2 ≠ 0) : ∃ mid file m x y, rotateMain op (textOf [colouredText]) = ⟨mid, .endOfInput⟩ ∧
    networkParse id id false mid = some (.ok file) ∧ openNetwork file = .ok m ∧ Ends m x 2 y 2 ∧ ∃ flow I O, NetworkFlow m x y flow I O := by
  classical
  have hn : '\n' ∉ colouredText := Json.dumps_line _
  obtain ⟨h1, h2, _⟩ := c98_divides twoSplitters_sound (ord := id) (fun _ => .refl _)
    (net := [((some 0, some 0), (some 1, some 1)), ((some 1, some 1), (some 3, some 3))]) (by decide +kernel) twoSplitters_divides threeAndOne_steady
  obtain ⟨p, _, hp⟩ := List.countP_pos_iff.1
    (show 0 < List.countP (fun p => decide (BringsIn twoSplitters.nb twoSplitters.board p)) twoSplitters.columns by rw [h1]; omega)
  obtain ⟨q, _, hq⟩ := List.countP_pos_iff.1
    (show 0 < List.countP (fun p => decide (TakesOut twoSplitters.nb twoSplitters.board p)) twoSplitters.columns by rw [h2]; omega)
  obtain ⟨mid, e, hmid⟩ := c118_file (ordP := id) (fun _ => .refl _) (ordT := id) (fun _ => .refl _) op hn (c96_printed colouredText_printed)
    twoSplitters_sound ⟨p, by simpa using hp⟩ ⟨q, by simpa using hq⟩
  have hug : ∀ p d, twoSplitters.board p = .underground d true → p = (2, 1) := by
    intro p d hd
    unfold Arr.board at hd
    split at hd
    · rename_i h
      obtain ⟨x, y⟩ := p
      simp only [twoSplitters] at h hd
      split at hd <;> simp at hd
      rw [Prod.mk.injEq]
      omega
    · cases hd
  obtain ⟨mid', e', k⟩ := c118_written (ordP := id) (fun _ => .refl _) (ordT := id) (fun _ => .refl _) op hn (c96_printed colouredText_printed)
    twoSplitters_sound fun p d hd => by rw [hug p d hd]; exact hop
  have : mid' = mid := congrArg Run.out (e'.symm.trans e)
  subst this
  obtain ⟨net, hnet⟩ : ∃ net, parseNetwork id twoSplitters false = .ok net :=
    ⟨[((some 0, some 0), (some 1, some 1)), ((some 1, some 1), (some 3, some 3))], by rfl⟩
  obtain ⟨file, hf⟩ := k.2 ((c62_succeeds_partial twoSplitters_sound (fun p d hd => by rw [hug p d hd]; decide) (ord := id) (fun _ => .refl _) false).1 ⟨net, hnet⟩)
  obtain ⟨m, x, y, k1, k2, k3⟩ := hmid file hf
  rw [h1, h2] at k2
  obtain ⟨flow, hfl⟩ := (k3 _ _).2 ⟨threeAndOne, threeAndOne_steady, rfl, rfl⟩
  exact ⟨_, file, m, x, y, e, hf, k1, k2, flow, _, _, hfl⟩

end FSat
