import Verif.Spec.Balancer
import Verif.Model.BeltBalancer
import Verif.Lemmas.GridLits
import Verif.Lemmas.Optimisations
import Verif.Props.Solver
import Verif.Lemmas.Network
import Verif.Props.Numbers

set_option linter.unusedSimpArgs false

namespace FSat

/-! ### prevent_colour -/

/-- No belt has the colour. -/
def NoColourSem (g : Grid) (c : Nat) (C : Nat × Nat → CellVal) : Prop :=
  ∀ p, g.In p → if c = 0 then (∀ d, (C p).inp d = true ∨ (C p).out d = true → binVal (C p).colour ≠ 0)
    else binVal (C p).colour ≠ c ∧ binVal (C p).colourUx ≠ c ∧ binVal (C p).colourUy ≠ c

theorem preventColour_iff {g : Grid} (hg : g.WF) (c : Nat) (hc : c < 2 ^ g.bits) :
    ∃ cs, preventColour g c = .ok cs ∧ ∀ v, Sat v cs ↔ NoColourSem g c (g.vals v) := by
  have key : ∀ ls : List Lit, ls.length = g.bits → ∃ cl, setNotNumber (c : Int) ls = .ok cl ∧ ∀ v, SatC v cl ↔ binVal (ls.map (ev v)) ≠ c := by
    intro ls hl
    refine ⟨notNumberClause c ls, ?_, fun v => SatC_notNumberClause v c ls (hl ▸ hc)⟩
    rw [setNotNumber_eq, if_pos (by rw [hl]; exact_mod_cast hc)]
  unfold preventColour
  obtain ⟨cs, h1, h2⟩ := concatE_iff (fun p => if (c : Int) = 0 then
      match setNotNumber 0 (g.at' p).colour with
      | .error e => .error e
      | .ok c => .ok ((g.at' p).allDir.map fun l => -l :: c)
    else concatE (fun r => match setNotNumber (c : Int) r with
      | .error e => .error e
      | .ok c => .ok [c]) [(g.at' p).colour, (g.at' p).colourUx, (g.at' p).colourUy])
    (fun v p => if c = 0 then (∀ d, (g.vals v p).inp d = true ∨ (g.vals v p).out d = true → binVal (g.vals v p).colour ≠ 0)
      else binVal (g.vals v p).colour ≠ c ∧ binVal (g.vals v p).colourUx ≠ c ∧ binVal (g.vals v p).colourUy ≠ c) g.cells (by
    intro p _
    by_cases h0 : c = 0
    · subst h0
      obtain ⟨cl, k1, k2⟩ := key (g.at' p).colour (hg.c p)
      refine ⟨_, (by simp only [Nat.cast_zero, if_true] at k1 ⊢; rw [k1]), fun v => ?_⟩
      simp only [Sat_map, SatC_cons, ev_neg, k2, if_true, TileInst.allDir, List.mem_append, dirs, List.mem_map, Bool.not_eq_true']
      constructor
      · rintro h d (hd | hd)
        · rcases h _ (.inl ⟨d, by cases d <;> simp [Dir.all], rfl⟩) with h | h
          · rw [show ev v ((g.at' p).inp d) = true from hd] at h; cases h
          · exact h
        · rcases h _ (.inr ⟨d, by cases d <;> simp [Dir.all], rfl⟩) with h | h
          · rw [show ev v ((g.at' p).out d) = true from hd] at h; cases h
          · exact h
      · rintro h l (⟨d, _, rfl⟩ | ⟨d, _, rfl⟩)
        · cases hd : ev v ((g.at' p).inp d) with
          | false => exact .inl rfl
          | true => exact .inr (h d (.inl hd))
        · cases hd : ev v ((g.at' p).out d) with
          | false => exact .inl rfl
          | true => exact .inr (h d (.inr hd))
    · simp only [if_neg h0, if_neg (show ¬ ((c : Int) = 0) by exact_mod_cast h0)]
      obtain ⟨cs, k1, k2⟩ := concatE_iff (fun r => match setNotNumber (c : Int) r with
        | .error e => .error e
        | .ok c => .ok [c]) (fun v r => binVal (r.map (ev v)) ≠ c) [(g.at' p).colour, (g.at' p).colourUx, (g.at' p).colourUy] (by
        intro r hr
        obtain ⟨cl, k1, k2⟩ := key r (by
          simp only [List.mem_cons, List.not_mem_nil, or_false] at hr
          rcases hr with rfl | rfl | rfl
          · exact hg.c p
          · exact hg.cx p
          · exact hg.cy p)
        exact ⟨[cl], by rw [k1], fun v => by simp [k2]⟩)
      refine ⟨cs, k1, fun v => ?_⟩
      rw [k2]
      simp only [List.forall_mem_cons, List.not_mem_nil, false_implies, implies_true, and_true]
      rfl)
  refine ⟨cs, h1, fun v => ?_⟩
  rw [h2, forall_cells]
  rfl

/-! ### Sides of a splitter -/

theorem Sat_literalsDifferent' (v : Asg) (a b : Lit) : Sat v (literalsDifferent a b) ↔ ev v a ≠ ev v b := by
  simp only [literalsDifferent, Sat_cons, Sat_nil, SatC_cons, SatC_nil, ev_neg, or_false, and_true]
  cases ev v a <;> cases ev v b <;> simp

/-- The side has a colour, and its colours are numbers of `bits` bits. -/
def SideOk (bits : Nat) (side : Colour × Colour) : Prop :=
  ¬ (side.1 = none ∧ side.2 = none) ∧ (∀ a, side.1 = some a → 0 ≤ a ∧ a < 2 ^ bits) ∧ (∀ a, side.2 = some a → 0 ≤ a ∧ a < 2 ^ bits)

theorem setNumber_nat {bits : Nat} {a : Int} (h0 : 0 ≤ a) (h1 : a < 2 ^ bits) {ls : List Lit} (hl : ls.length = bits) :
    ∃ cs, setNumber a ls = .ok cs ∧ ∀ v, Sat v cs ↔ (binVal (ls.map (ev v)) : Int) = a := by
  obtain ⟨n, rfl⟩ := Int.eq_ofNat_of_zero_le h0
  have h1' : n < 2 ^ ls.length := by rw [hl]; exact_mod_cast h1
  refine ⟨numberClauses n ls, ?_, fun v => ?_⟩
  · simp only [setNumber]; rw [if_pos (by exact_mod_cast h1')]
  · rw [Sat_numberClauses v n ls h1']
    exact_mod_cast Iff.rfl

theorem nodeSide_iff {bits : Nat} (pre : List Lit) {side : Colour × Colour} (hs : SideOk bits side) (l0 l1 : Lit) {c0 c1 : List Lit}
    (h0 : c0.length = bits) (h1 : c1.length = bits) :
    ∃ cs, nodeSide pre side l0 l1 c0 c1 = .ok cs ∧ ∀ v, Sat v cs ↔ ((∀ l ∈ pre, ev v l = true) →
      SameSide (colourIf (ev v l0) (binVal (c0.map (ev v))), colourIf (ev v l1) (binVal (c1.map (ev v)))) side) := by
  have single : ∀ a, 0 ≤ a → a < 2 ^ bits → (nodeSide pre side l0 l1 c0 c1 =
      match setNumber a c0, setNumber a c1 with
      | .ok n0, .ok n1 => .ok (implies pre (literalsDifferent l0 l1) ++ implies (pre ++ [l0]) n0 ++ implies (pre ++ [l1]) n1)
      | .error e, _ => .error e
      | _, .error e => .error e) → (side = (some a, none) ∨ side = (none, some a)) →
      ∃ cs, nodeSide pre side l0 l1 c0 c1 = .ok cs ∧ ∀ v, Sat v cs ↔ ((∀ l ∈ pre, ev v l = true) →
        SameSide (colourIf (ev v l0) (binVal (c0.map (ev v))), colourIf (ev v l1) (binVal (c1.map (ev v)))) side) := by
    intro a a0 a1 he hside
    obtain ⟨n0, e0, s0⟩ := setNumber_nat a0 a1 h0
    obtain ⟨n1, e1, s1⟩ := setNumber_nat a0 a1 h1
    rw [he, e0, e1]
    refine ⟨_, rfl, fun v => ?_⟩
    simp only [Sat_append, Sat_implies, Sat_literalsDifferent', s0, s1, List.mem_append, List.mem_singleton]
    constructor
    · rintro ⟨⟨hd, hc0⟩, hc1⟩ hp
      have hd := hd hp
      cases b0 : ev v l0 <;> cases b1 : ev v l1
      · rw [b0, b1] at hd; exact absurd rfl hd
      · have := hc1 (by rintro l (hl | rfl); exacts [hp l hl, b1])
        rcases hside with rfl | rfl <;> simp [SameSide, colourIf, this]
      · have := hc0 (by rintro l (hl | rfl); exacts [hp l hl, b0])
        rcases hside with rfl | rfl <;> simp [SameSide, colourIf, this]
      · rw [b0, b1] at hd; exact absurd rfl hd
    · intro h
      refine ⟨⟨fun hp => ?_, fun hp => ?_⟩, fun hp => ?_⟩
      · have := h hp
        intro hb
        cases b1 : ev v l1 <;> rw [b1] at hb <;> rw [hb, b1] at this <;> rcases hside with rfl | rfl <;>
          simp [SameSide, colourIf] at this
      · have := h fun l hl => hp l (.inl hl)
        rw [hp l0 (.inr rfl)] at this
        cases b1 : ev v l1 <;> rw [b1] at this <;> rcases hside with rfl | rfl <;> simpa [SameSide, colourIf] using this
      · have := h fun l hl => hp l (.inl hl)
        rw [hp l1 (.inr rfl)] at this
        cases b0 : ev v l0 <;> rw [b0] at this <;> rcases hside with rfl | rfl <;> simpa [SameSide, colourIf] using this
  obtain ⟨x, y⟩ := side
  obtain ⟨hn, hx, hy⟩ := hs
  cases x with
  | none =>
    cases y with
    | none => exact absurd ⟨rfl, rfl⟩ hn
    | some b => exact single b (hy b rfl).1 (hy b rfl).2 rfl (.inr rfl)
  | some a =>
    cases y with
    | none => exact single a (hx a rfl).1 (hx a rfl).2 rfl (.inl rfl)
    | some b =>
      obtain ⟨a0, a1⟩ := hx a rfl
      obtain ⟨b0, b1⟩ := hy b rfl
      obtain ⟨a, rfl⟩ := Int.eq_ofNat_of_zero_le a0
      obtain ⟨b, rfl⟩ := Int.eq_ofNat_of_zero_le b0
      have ha : a < 2 ^ c0.length := by rw [h0]; exact_mod_cast a1
      have hb : b < 2 ^ c0.length := by rw [h0]; exact_mod_cast b1
      have he : setNumbers (a : Int) b c0 c1 = .ok (numbersClauses a b c0 c1) := by
        simp only [setNumbers]
        rw [if_pos ⟨h0.trans h1.symm, by exact_mod_cast ha, by exact_mod_cast hb⟩]
      refine ⟨_, (by simp only [nodeSide]; rw [he]), fun v => ?_⟩
      simp only [Sat_append, Sat_implies, Sat_cons, Sat_nil, SatC_cons, SatC_nil, or_false, and_true,
        Sat_numbersClauses v a b c0 c1 (h0.trans h1.symm) ha hb, value]
      rw [← forall_and]
      refine imp_congr_right fun _ => ?_
      cases ev v l0 <;> cases ev v l1 <;> simp [SameSide, colourIf]

/-- The colours of a node are numbers of `bits` bits, and at most one is missing. -/
structure NodeOk (bits : Nat) (k : Node) : Prop where
  one : [k.1.1, k.1.2, k.2.1, k.2.2].countP (·.isNone) ≤ 1
  inp : ∀ a, k.1.1 = some a ∨ k.1.2 = some a → 0 ≤ a ∧ a < 2 ^ bits
  out : ∀ a, k.2.1 = some a ∨ k.2.2 = some a → 0 ≤ a ∧ a < 2 ^ bits

theorem NodeOk.sideIn {bits : Nat} {k : Node} (h : NodeOk bits k) : SideOk bits k.1 := by
  refine ⟨fun hn => ?_, fun a ha => h.inp a (.inl ha), fun a ha => h.inp a (.inr ha)⟩
  have := h.one
  simp only [hn.1, hn.2, List.countP_cons, Option.isNone_none, if_true] at this
  omega

theorem NodeOk.sideOut {bits : Nat} {k : Node} (h : NodeOk bits k) : SideOk bits k.2 := by
  refine ⟨fun hn => ?_, fun a ha => h.out a (.inl ha), fun a ha => h.out a (.inr ha)⟩
  have := h.one
  simp only [hn.1, hn.2, List.countP_cons, Option.isNone_none, if_true] at this
  omega

theorem NodeOk.notBoth {bits : Nat} {k : Node} (h : NodeOk bits k) (h1 : sideOpen k.1 = true) : sideOpen k.2 = false := by
  have := h.one
  obtain ⟨⟨a, b⟩, ⟨c, d⟩⟩ := k
  cases a <;> cases b <;> cases c <;> cases d <;> simp_all [sideOpen]

/-- The flag by which the direction of a splitter is recognised. -/
def mainFlag (k : Node) (c : CellVal) (d : Dir) : Bool := if sideOpen k.1 then c.out d else c.inp d

def WiredSem (g : Grid) (C : Nat × Nat → CellVal) (k : Node) (p : Nat × Nat) (d : Dir) : Prop :=
  ∃ q p' q', g.nb p d.ccw = some q ∧ g.nb p d = some p' ∧ g.nb q d = some q' ∧
    SameSide (colourIf ((C p).inp d) (binVal (C p).colour), colourIf ((C q).inp d) (binVal (C q).colour)) k.1 ∧
    SameSide (colourIf ((C p).out d) (binVal (C p').colour), colourIf ((C q).out d) (binVal (C q').colour)) k.2

theorem nodeDir_iff {g : Grid} (hg : g.WF) (node : Nat × Nat → List Lit) (i : Nat) {k : Node} (hk : NodeOk g.bits k) {p : Nat × Nat}
    (hp : g.In p) (d : Dir) :
    ∃ cs, nodeDir g node i k p d = .ok cs ∧ ∀ v, Sat v cs ↔ (ev v ((node p).getD i default) = true →
      mainFlag k (g.vals v p) d = true → WiredSem g (g.vals v) k p d) := by
  have hac : d.Across d.ccw := by cases d <;> simp [Dir.Across, Dir.ccw, Dir.opp]
  have hpre : ∀ v, (∀ l ∈ [(node p).getD i default, if sideOpen k.1 then (g.at' p).out d else (g.at' p).inp d], ev v l = true) ↔
      (ev v ((node p).getD i default) = true ∧ mainFlag k (g.vals v p) d = true) := by
    intro v
    simp only [List.mem_cons, List.not_mem_nil, or_false, forall_eq_or_imp, forall_eq, mainFlag]
    cases sideOpen k.1 <;> rfl
  have hno : (¬ ∃ q p' q', g.nb p d.ccw = some q ∧ g.nb p d = some p' ∧ g.nb q d = some q') →
      ∃ cs, (Except.ok [invertComponents [(node p).getD i default, if sideOpen k.1 then (g.at' p).out d else (g.at' p).inp d]] :
        Except PyErr Cnf) = .ok cs ∧ ∀ v, Sat v cs ↔ (ev v ((node p).getD i default) = true →
      mainFlag k (g.vals v p) d = true → WiredSem g (g.vals v) k p d) := by
    intro hn
    refine ⟨_, rfl, fun v => ?_⟩
    rw [← and_imp, ← hpre]
    have : ¬ WiredSem g (g.vals v) k p d := fun ⟨q, p', q', h1, h2, h3, _⟩ => hn ⟨q, p', q', h1, h2, h3⟩
    simp only [Sat_cons, Sat_nil, and_true, SatC_invertComponents, this, imp_false]
  unfold nodeDir
  simp only [Dir.next_eq]
  rw [Grid.offset_corner1 hg hp hac, Grid.nb_comm hg hp hac]
  cases h10 : g.nb p d with
  | none => exact hno (by rintro ⟨q, p', q', _, h2, _⟩; rw [h10] at h2; cases h2)
  | some p' =>
    cases h01 : g.nb p d.ccw with
    | none => exact hno (by rintro ⟨q, p', q', h1, _, _⟩; rw [h01] at h1; cases h1)
    | some q =>
      simp only [Option.bind_some]
      cases h11 : g.nb q d with
      | none => exact hno (by rintro ⟨q, p', q', h1, _, h3⟩; rw [h01] at h1; cases h1; rw [h11] at h3; cases h3)
      | some q' =>
        simp only
        obtain ⟨ca, ea, sa⟩ := nodeSide_iff [(node p).getD i default, if sideOpen k.1 then (g.at' p).out d else (g.at' p).inp d]
          hk.sideIn ((g.at' p).inp d) ((g.at' q).inp d) (hg.c p) (hg.c q)
        obtain ⟨cb, eb, sb⟩ := nodeSide_iff [(node p).getD i default, if sideOpen k.1 then (g.at' p).out d else (g.at' p).inp d]
          hk.sideOut ((g.at' p).out d) ((g.at' q).out d) (hg.c p') (hg.c q')
        rw [ea, eb]
        refine ⟨_, rfl, fun v => ?_⟩
        rw [Sat_append, sa, sb, hpre, ← and_imp, ← imp_and]
        refine imp_congr_right fun _ => ?_
        constructor
        · rintro ⟨h1, h2⟩
          exact ⟨q, p', q', h01, h10, h11, h1, h2⟩
        · rintro ⟨q1, p1, q1', e1, e2, e3, h1, h2⟩
          rw [h01] at e1; cases e1
          rw [h10] at e2; cases e2
          rw [h11] at e3; cases e3
          exact ⟨h1, h2⟩

def NodeCellSem (g : Grid) (C : Nat × Nat → CellVal) (a b : Int) (k : Node) (here : Bool) (p : Nat × Nat) : Prop :=
  ((C p).isInput = true → (binVal (C p).colour : Int) = a) ∧ ((C p).isOutput = true → (binVal (C p).colour : Int) = b) ∧
  (here = true → ∃ d, mainFlag k (C p) d = true) ∧
  ∀ d, here = true → mainFlag k (C p) d = true → WiredSem g C k p d

theorem nodeCell_iff {g : Grid} (hg : g.WF) (node : Nat × Nat → List Lit) {a b : Int} (ha : 0 ≤ a ∧ a < 2 ^ g.bits)
    (hb : 0 ≤ b ∧ b < 2 ^ g.bits) (i : Nat) {k : Node} (hk : NodeOk g.bits k) {p : Nat × Nat} (hp : g.In p) :
    ∃ cs, nodeCell g node a b i k p = .ok cs ∧
      ∀ v, Sat v cs ↔ NodeCellSem g (g.vals v) a b k (ev v ((node p).getD i default)) p := by
  obtain ⟨ca, ea, sa⟩ := setNumber_nat ha.1 ha.2 (hg.c p)
  obtain ⟨cb, eb, sb⟩ := setNumber_nat hb.1 hb.2 (hg.c p)
  obtain ⟨cc, ec, sc⟩ := concatE_iff (nodeDir g node i k p) (fun v d => (ev v ((node p).getD i default) = true →
      mainFlag k (g.vals v p) d = true → WiredSem g (g.vals v) k p d)) Dir.all (fun d _ => nodeDir_iff hg node i hk hp d)
  unfold nodeCell
  simp only [ea, eb, ec]
  refine ⟨_, rfl, fun v => ?_⟩
  simp only [Sat_append, Sat_implies, sa, sb, sc, List.mem_singleton, forall_eq, Sat_cons, Sat_nil, and_true, SatC_cons, ev_neg,
    Dir.forall_mem_all, NodeCellSem, and_assoc]
  refine and_congr Iff.rfl (and_congr Iff.rfl (and_congr ?_ Iff.rfl))
  have : SatC v (dirs (if sideOpen k.1 = true then (g.at' p).out else (g.at' p).inp)) ↔ ∃ d, mainFlag k (g.vals v p) d = true := by
    unfold mainFlag
    cases sideOpen k.1 <;> simp only [SatC, dirs, List.mem_map, Bool.false_eq_true, if_true, if_false]
    · exact ⟨fun ⟨_, ⟨d, _, rfl⟩, h⟩ => ⟨d, h⟩, fun ⟨d, h⟩ => ⟨_, ⟨d, by cases d <;> simp [Dir.all], rfl⟩, h⟩⟩
    · exact ⟨fun ⟨_, ⟨d, _, rfl⟩, h⟩ => ⟨d, h⟩, fun ⟨d, h⟩ => ⟨_, ⟨d, by cases d <;> simp [Dir.all], rfl⟩, h⟩⟩
  rw [this]
  cases ev v ((node p).getD i default) <;> simp

theorem nodeClauses_iff {g : Grid} (hg : g.WF) (node : Nat × Nat → List Lit) {a b : Int} (ha : 0 ≤ a ∧ a < 2 ^ g.bits)
    (hb : 0 ≤ b ∧ b < 2 ^ g.bits) (i : Nat) {k : Node} (hk : NodeOk g.bits k) :
    ∃ cs, nodeClauses g node a b i k = .ok cs ∧
      ∀ v, Sat v cs ↔ ∀ p, g.In p → NodeCellSem g (g.vals v) a b k (ev v ((node p).getD i default)) p := by
  obtain ⟨cs, h1, h2⟩ := concatE_iff (nodeCell g node a b i k) (fun v p => NodeCellSem g (g.vals v) a b k (ev v ((node p).getD i default)) p)
    g.cells (fun p hp => nodeCell_iff hg node ha hb i hk ((g.mem_cells p).1 hp))
  refine ⟨cs, by rw [nodeClauses, if_pos hk.one, h1], fun v => ?_⟩
  rw [h2, forall_cells]

/-! ### All clauses -/

theorem concatE_ok {α : Type} {f : α → Except PyErr Cnf} {as : List α} {cs : Cnf} (h : concatE f as = .ok cs) :
    ∀ a ∈ as, ∃ c, f a = .ok c := by
  induction as generalizing cs with
  | nil => simp
  | cons a as ih =>
    unfold concatE at h
    cases e : f a with
    | error e' => rw [e] at h; cases h
    | ok c =>
      rw [e] at h
      simp only at h
      cases e2 : concatE f as with
      | error e' => rw [e2] at h; cases h
      | ok c2 => exact fun b hb => (List.mem_cons.1 hb).elim (fun hb => hb ▸ ⟨c, e⟩) (ih e2 b)

theorem countTrue_map {α : Type} (v : Asg) (l : List α) (f : α → Lit) : countTrue v (l.map f) = l.countP fun a => ev v (f a) := by
  simp only [countTrue, trues, List.map_map, List.count, List.countP_map]
  refine List.countP_congr fun a _ => ?_
  simp

/-- What the clauses of a balancer say, besides those of the grid, about the values `C` of the cells and the labels `N`. -/
structure BalancerSem (g : Grid) (net : PyDict Node Nat) (a m b n : Int) (C : Nat × Nat → CellVal) (N : Nat × Nat → Nat → Bool) :
    Prop where
  splitters : (g.cells.filter fun p => (p.1 + p.2) % 2 = 1).countP (fun p => (C p).isSplitter) = (net.map Prod.snd).sum
  count : ∀ e ∈ net.zipIdx, g.cells.countP (fun p => N p e.2) = e.1.2
  one : ∀ p, g.In p → ((!(C p).isHead) :: (List.range net.length).map (N p)).count true = 1
  ins : (g.cells.countP (fun p => (C p).isInput) : Int) = m
  outs : (g.cells.countP (fun p => (C p).isOutput) : Int) = n
  nodes : ∀ e ∈ net.zipIdx, ∀ p, g.In p → NodeCellSem g C a b e.1.1 (N p e.2) p

theorem getD_range {α : Type} (l : List α) (d : α) : (List.range l.length).map (fun i => l.getD i d) = l := by
  refine List.ext_getElem (by simp) fun i h1 h2 => ?_
  simp [List.getD_eq_getElem?_getD, h2]

theorem balancer_enc {lib : CardLib} (hl : lib.Correct) {g : Grid} (hg : g.WF) {s0 : Nat} (hb : g.LitsLe s0)
    {node : Nat × Nat → List Lit} {net : PyDict Node Nat} (hn : ∀ p, g.In p → LBound s0 (node p))
    (hlen : ∀ p, (node p).length = net.length) {a m b n : Int} (hio : getInputOutputColours (elements net) = .ok ((a, m), (b, n)))
    (ha : 0 ≤ a ∧ a < 2 ^ g.bits) (hb' : 0 ≤ b ∧ b < 2 ^ g.bits)
    (hk : ∀ e ∈ net, ∀ c, (e.1.1.1 = some c ∨ e.1.1.2 = some c) ∨ (e.1.2.1 = some c ∨ e.1.2.2 = some c) → 0 ≤ c ∧ c < 2 ^ g.bits) :
    GenEnc s0 (balancerClauses lib g node net) fun v => BlockUgSem g (.ofBool true) (g.vals v) ∧ UndergroundSem g (g.vals v) ∧
      ColourSem g (g.vals v) ∧ BalancerSem g net a m b n (g.vals v) fun p i => ev v ((node p).getD i default) := by
  have hcell : ∀ p, p ∈ g.cells → LBound s0 (g.at' p).lits := fun p hp => hb p ((g.mem_cells p).1 hp)
  have hni : ∀ p, g.In p → ∀ i, i < net.length → ((node p).getD i default).var ≤ s0 := by
    intro p hp i hi
    have hi' : i < (node p).length := by rw [hlen]; exact hi
    rw [List.getD_eq_getElem?_getD, List.getElem?_eq_getElem hi', Option.getD_some]
    exact hn p hp _ (List.getElem_mem hi')
  have hzi : ∀ e ∈ net.zipIdx, e.2 < net.length := fun e he => by
    have := List.mem_zipIdx' he
    exact this.1
  have v_eq : ∀ {v w : Asg}, Agree s0 v w → ∀ p, g.In p → g.vals w p = g.vals v p := fun h p hp => g.vals_agree hb h hp
  unfold balancerClauses
  rw [hio]
  refine GenEnc.congr (GenEnc.append (GenEnc.append
    (P := fun v => BlockUgSem g (.ofBool true) (g.vals v) ∧ UndergroundSem g (g.vals v) ∧ ColourSem g (g.vals v) ∧
      (((g.cells.filter fun p => (p.1 + p.2) % 2 = 1).countP (fun p => (g.vals v p).isSplitter) : Nat) : Int) = ((net.map Prod.snd).sum : Nat))
    (Q := fun v => ∀ e ∈ net.zipIdx, ((g.cells.countP (fun p => ev v ((node p).getD e.2 default)) : Nat) : Int) = (e.1.2 : Nat)) ?_ ?_)
    (Q := fun v => (∀ p, g.In p → ((!(g.vals v p).isHead) :: (List.range net.length).map fun i => ev v ((node p).getD i default)).count true = 1) ∧
      (g.cells.countP (fun p => (g.vals v p).isInput) : Int) = m ∧ (g.cells.countP (fun p => (g.vals v p).isOutput) : Int) = n ∧
      ∀ e ∈ net.zipIdx, ∀ p, g.In p → NodeCellSem g (g.vals v) a b e.1.1 (ev v ((node p).getD e.2 default)) p) ?_) ?_
  · refine GenEnc.congr (GenEnc.cons (P := fun v => BlockUgSem g (.ofBool true) (g.vals v)) (GenEnc.pure ?_ ?_)
      (GenEnc.cons (P := fun v => UndergroundSem g (g.vals v)) (GenEnc.pure ?_ ?_)
      (GenEnc.cons (P := fun v => ColourSem g (g.vals v)) (GenEnc.pure ?_ ?_)
      (GenEnc.cons (GenEnc.equals hl ?_ _) (GenEnc.nil s0))))) ?_
    · exact fun v w h => ⟨BlockUgSem.congr fun p hp => (v_eq h p hp).symm, BlockUgSem.congr fun p hp => v_eq h p hp⟩
    · intro cs e v; cases e; exact Sat_blockUg hg _ v
    · exact fun v w h => ⟨UndergroundSem.congr hg fun p hp => (v_eq h p hp).symm, UndergroundSem.congr hg fun p hp => v_eq h p hp⟩
    · intro cs e v; cases e; exact Sat_underground g v
    · exact fun v w h => ⟨ColourSem.congr hg fun p hp => (v_eq h p hp).symm, ColourSem.congr hg fun p hp => v_eq h p hp⟩
    · intro cs e v
      obtain ⟨cs', e', h⟩ := colouring_iff hg
      rw [e] at e'; cases e'; exact h v
    · intro l hl
      obtain ⟨p, hp, rfl⟩ := List.mem_map.1 hl
      exact hcell p (List.mem_filter.1 hp).1 _ (by simp [TileInst.lits])
    · intro v
      simp only [countTrue_map, and_true]
      rfl
  · refine GenEnc.congr (GenEnc.map net.zipIdx fun e he => GenEnc.equals hl (ls := g.cells.map fun p => (node p).getD e.2 default) ?_ _) ?_
    · intro l hl
      obtain ⟨p, hp, rfl⟩ := List.mem_map.1 hl
      exact hni p ((g.mem_cells p).1 hp) _ (hzi e he)
    · intro v
      simp only [countTrue_map]
  · refine GenEnc.congr (GenEnc.cons (P := fun v => ∀ p, g.In p → ((!(g.vals v p).isHead) :: (List.range net.length).map fun i => ev v ((node p).getD i default)).count true = 1)
      (GenEnc.pure ?_ ?_)
      (GenEnc.cons (GenEnc.equals hl ?_ _) (GenEnc.cons (GenEnc.equals hl ?_ _)
      (GenEnc.cons (P := fun v => ∀ e ∈ net.zipIdx, ∀ p, g.In p → NodeCellSem g (g.vals v) a b e.1.1 (ev v ((node p).getD e.2 default)) p)
        (GenEnc.pure ?_ ?_) (GenEnc.nil s0))))) ?_
    · intro v w h
      refine forall_congr' fun p => imp_congr_right fun hp => ?_
      rw [v_eq h p hp]
      have : (List.range net.length).map (fun i => ev w ((node p).getD i default)) =
          (List.range net.length).map (fun i => ev v ((node p).getD i default)) :=
        List.map_congr_left fun i hi => ev_agree' h (hni p hp i (List.mem_range.1 hi))
      rw [this]
    · intro cs e v
      cases e
      simp only [Sat_flatMap, forall_cells]
      refine forall_congr' fun p => imp_congr_right fun hp => ?_
      rw [c09_quadratic_one, List.map_cons, ev_neg]
      have : (node p).map (ev v) = (List.range net.length).map fun i => ev v ((node p).getD i default) := by
        conv_lhs => rw [← getD_range (node p) default, hlen p]
        rw [List.map_map]; rfl
      rw [this]
      rfl
    · intro l hl
      obtain ⟨p, hp, rfl⟩ := List.mem_map.1 hl
      exact hcell p hp _ (by simp [TileInst.lits])
    · intro l hl
      obtain ⟨p, hp, rfl⟩ := List.mem_map.1 hl
      exact hcell p hp _ (by simp [TileInst.lits])
    · intro v w h
      refine forall_congr' fun e => forall_congr' fun he => forall_congr' fun p => imp_congr_right fun hp => ?_
      rw [ev_agree' h (hni p hp _ (hzi e he))]
      unfold NodeCellSem
      rw [v_eq h p hp]
      refine and_congr_right' (and_congr_right' (and_congr_right' (forall_congr' fun d => imp_congr_right fun _ => imp_congr_right fun _ => ?_)))
      unfold WiredSem
      refine exists_congr fun q => exists_congr fun p' => exists_congr fun q' => and_congr_right fun h1 => and_congr_right fun h2 =>
        and_congr_right fun h3 => ?_
      rw [v_eq h p hp, v_eq h q (g.nb_in hg h1), v_eq h p' (g.nb_in hg h2), v_eq h q' (g.nb_in hg h3)]
    · intro cs e v
      have hok : ∀ e ∈ net.zipIdx, NodeOk g.bits e.1.1 := by
        intro x hx
        obtain ⟨c, hc⟩ := concatE_ok e x hx
        have hx' : x.1 ∈ net := (List.mem_zipIdx' hx).2 ▸ List.getElem_mem _
        refine ⟨?_, fun c hc => hk x.1 hx' c (.inl hc), fun c hc => hk x.1 hx' c (.inr hc)⟩
        unfold nodeClauses at hc
        by_contra h
        rw [if_neg h] at hc
        cases hc
      obtain ⟨cs', e', h⟩ := concatE_iff (fun e : (Node × Nat) × Nat => nodeClauses g node a b e.2 e.1.1)
        (fun v e => ∀ p, g.In p → NodeCellSem g (g.vals v) a b e.1.1 (ev v ((node p).getD e.2 default)) p) net.zipIdx
        (fun x hx => nodeClauses_iff hg node ha hb' x.2 (hok x hx))
      rw [e] at e'; cases e'
      exact h v
    · intro v
      simp only [countTrue_map, and_true]
      rfl
  · intro v
    constructor
    · rintro ⟨⟨⟨h1, h2, h3, h4⟩, h5⟩, h6, h7, h8, h9⟩
      exact ⟨h1, h2, h3, ⟨by exact_mod_cast h4, fun e he => by exact_mod_cast h5 e he, h6, h7, h8, h9⟩⟩
    · rintro ⟨h1, h2, h3, ⟨h4, h5, h6, h7, h8, h9⟩⟩
      exact ⟨⟨⟨h1, h2, h3, by exact_mod_cast h4⟩, fun e he => by exact_mod_cast h5 e he⟩, h6, h7, h8, h9⟩

end FSat
