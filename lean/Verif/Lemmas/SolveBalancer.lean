import Verif.Lemmas.BalancerMainParts
import Verif.Model.SolveBalancer
import Verif.Spec.SolveBalancer
import Verif.Props.Network
import Mathlib.Data.Finset.Card
import Mathlib.Data.Finset.Prod
import Mathlib.Order.Interval.Finset.Nat
/-!
# The solver run for one size
-/

set_option linter.unusedVariables false

namespace FSat

theorem appendE_ok {a b : Except PyErr Cnf} {c : Cnf} (h : appendE a b = .ok c) : ∃ x y, a = .ok x ∧ b = .ok y ∧ c = x ++ y := by
  cases a with
  | error e => cases h
  | ok x =>
    cases b with
    | error e => cases h
    | ok y => cases h; exact ⟨x, y, rfl, rfl, rfl⟩

theorem dedup_pos (network : Network) : ∀ e ∈ deduplicateNetwork network, 0 < e.2 := by
  rintro ⟨x, k⟩ he
  have h1 := PyDict.get_of_mem (counter_spec (network.map sortNode) [] PyDict.valid_nil).1 he
  change (counter (network.map sortNode)).get x = some k at h1
  rw [counter_get] at h1
  split at h1
  · rename_i hx
    cases h1
    exact List.count_pos_iff.2 hx
  · cases h1

section
variable {lib : CardLib} {network : Network} {size : Size} {g : Grid} {node : Nat × Nat → List Lit} {cs : Cnf} {s' : Nat}

/-- The clauses are those of `belt_balancer --fast --aligned`, with the variables of the ends taken before those of the edges. -/
theorem solveBalancer_parts (h : solveBalancerGrid lib network size = .ok (g, node, cs, s')) :
    ∃ (t : Nat) (P : MainParts lib (deduplicateNetwork network) size.2.1.toNat size.2.2.toNat (some size.1.toNat) searchOptions g node t),
      ∀ v, Sat v cs ↔ P.Holds v := by
  unfold solveBalancerGrid at h
  simp only at h
  split at h
  · cases h
  · rename_i g0 node0 cs0 s0 h0
    split at h
    · cases h
    · rename_i cs1 s1' h1
      cases h
      unfold solveBalancerClauses at h1
      obtain ⟨c1, t1, d1, a1, k1, e1⟩ := Gen.cons_ok h1
      obtain ⟨b1, rfl⟩ := Gen.pure_ok a1
      obtain ⟨c2, t2, d2, a2, k2, e2⟩ := Gen.cons_ok k1
      obtain ⟨c3, t3, d3, a3, k3, e3⟩ := Gen.cons_ok k2
      obtain ⟨b3, rfl⟩ := Gen.pure_ok a3
      obtain ⟨c4, t4, d4, a4, k4, e4⟩ := Gen.cons_ok k3
      obtain ⟨b4, rfl⟩ := Gen.pure_ok a4
      obtain ⟨c5, t5, d5, a5, k5, e5⟩ := Gen.cons_ok k4
      obtain ⟨c6, t6, d6, a6, k6, e6⟩ := Gen.cons_ok k5
      obtain ⟨b6, rfl⟩ := Gen.pure_ok a6
      obtain ⟨e7, rfl⟩ := Gen.nil_ok k6
      cases b1
      unfold applyGenericOptimisations at b4
      obtain ⟨x1, r1, f1, q1, rfl⟩ := appendE_ok b4
      obtain ⟨x2, r2, f2, q2, rfl⟩ := appendE_ok q1
      obtain ⟨x3, x4, f3, f4, rfl⟩ := appendE_ok q2
      cases f1
      refine ⟨_, ⟨cs0, t1, _, c5, _, [], _, c3, _, 0, [], 0, _, c6, [], t1, c2, h0, a5, ⟨nofun, fun _ => rfl⟩,
        ⟨fun _ => by rw [f4]; rfl, nofun⟩, ⟨fun _ => b3, nofun⟩, ⟨fun _ => rfl, nofun⟩, rfl,
        ⟨fun _ => by rw [f2, f3]; rfl, nofun⟩, b6, rfl, a2, .inr ⟨rfl, rfl⟩⟩, fun v => ?_⟩
      simp only [MainParts.Holds, e1, e2, e3, e4, e5, e6, e7, Sat_append, Sat_nil, and_true, true_and]
      tauto

/-- The grid is the box. -/
theorem nb_box {g : Grid} (hg : g.WF) (he : g.edge = ⟨false, false⟩) : g.nb = boxNb g.width g.height := by
  funext p d
  obtain ⟨x, y⟩ := p
  have key : ∀ q, g.nb (x, y) d = some q ↔ boxNb g.width g.height (x, y) d = some q := by
    rintro ⟨x', y'⟩
    unfold Grid.nb
    rw [Grid.offset_iff hg, he]
    simp only [AxisAt, Bool.false_eq_true, if_false]
    cases d <;> simp only [boxNb, Dir.dx, Dir.dy] <;>
      (split <;> rename_i hc
       · simp only [Option.some.injEq, Prod.mk.injEq]; omega
       · simp only [reduceCtorEq, iff_false]; omega)
  cases h : g.nb (x, y) d with
  | some q => exact ((key q).1 h).symm
  | none =>
    cases h' : boxNb g.width g.height (x, y) d with
    | none => rfl
    | some q => rw [(key q).2 h'] at h; cases h

theorem shut_box (g : Grid) : g.shut (.ofBool true) = boxRim g.width g.height := by
  funext p d
  refine propext ?_
  unfold Grid.shut
  cases d <;> simp [Grid.OnEdge, boxRim, Edges.sel, Edges.ofBool]

/-- What the solver run finds. -/
theorem solveBalancer_iff (hl : lib.Correct) (hpos : ∀ c ∈ netColours (deduplicateNetwork network), 0 ≤ c)
    (hw : 2 ≤ size.2.1) (hh : 2 ≤ size.2.2) (h : solveBalancerGrid lib network size = .ok (g, node, cs, s')) (T : Nat × Nat → Tile) :
    (∃ v, Sat v cs ∧ Decodes g v T) ↔
      BalancerLayout (boxNb size.2.1.toNat size.2.2.toNat) (boxIn size.2.1.toNat size.2.2.toNat) (boxCells size.2.1.toNat size.2.2.toNat)
        (boxRim size.2.1.toNat size.2.2.toNat) size.2.1.toNat size.2.2.toNat (some size.1.toNat)
        (elements (deduplicateNetwork network)) searchOptions T := by
  obtain ⟨t, P, hP⟩ := solveBalancer_parts h
  have hv : (deduplicateNetwork network).Valid := (counter_spec _ [] PyDict.valid_nil).1
  have hcnt : ∀ e ∈ deduplicateNetwork network, 0 < e.2 := dedup_pos _
  have hw' : 2 ≤ size.2.1.toNat := by omega
  have hh' : 2 ≤ size.2.2.toNat := by omega
  obtain ⟨k, V, a, m, b, n, R⟩ := P.ready hl hpos hw' hh'
  have e1 := nb_box R.wf R.edge
  have e2 := shut_box g
  have e3 : g.In = boxIn g.width g.height := rfl
  have e4 : g.cells = boxCells g.width g.height := rfl
  rw [R.w, R.h] at e1 e2 e3 e4
  rw [← e1, ← e2, ← e3, ← e4]
  constructor
  · rintro ⟨v, hs, hT⟩
    exact P.layout hl hv hpos hcnt hw' hh' ((hP v).1 hs) hT
  · intro hT
    obtain ⟨v, h1, h2⟩ := P.solved hl hv hpos hcnt hw' hh' rfl hT
    exact ⟨v, (hP v).2 h1, h2⟩

theorem solveBalancer_decodes (hl : lib.Correct) (hpos : ∀ c ∈ netColours (deduplicateNetwork network), 0 ≤ c)
    (h : solveBalancerGrid lib network size = .ok (g, node, cs, s')) (v : Asg) (hs : Sat v cs) : ∃ T, Decodes g v T := by
  obtain ⟨t, P, hP⟩ := solveBalancer_parts h
  obtain ⟨T, lab, hT, _⟩ := c27_realises_partial hl ((counter_spec _ [] PyDict.valid_nil).1) hpos P.hbase v ((hP v).1 hs).1
  exact ⟨T, hT⟩

end

section
variable {T : Nat × Nat → Tile} {F : Flow (Nat × Nat)} {lab : Nat × Nat → Option Node} {n : Network} {w h : Nat} {ugLen : Option Nat} {a i b k : Int}

theorem mem_boxCells (p : Nat × Nat) : p ∈ boxCells w h ↔ boxIn w h p := by
  obtain ⟨x, y⟩ := p
  simp [boxCells, boxIn]

theorem nodup_boxCells : (boxCells w h).Nodup := by
  unfold boxCells
  rw [List.nodup_flatMap]
  refine ⟨fun x _ => (List.nodup_range).map fun _ _ e => by simpa using e, ?_⟩
  refine List.Pairwise.imp ?_ (List.nodup_range (n := w))
  intro x x' hx q h1 h2
  simp only [List.mem_map] at h1 h2
  obtain ⟨_, _, rfl⟩ := h1
  obtain ⟨_, _, h2⟩ := h2
  simp only [Prod.mk.injEq] at h2
  exact hx h2.1.symm

/-- No splitter is in the last column, and none in the first one if nothing is fed back. -/
theorem between (hE : Ends n a i b k) (hI : Implements (boxIn w h) (boxNb w h) T F (boxCells w h) n lab) (hes : EdgeSplitters T lab w (boxCells w h) n)
    (hp : EndsPlaced T F w h searchOptions i.toNat k.toNat) (hback : (outsOf n).count (some a) = 0) {p q : Nat × Nat} {d : Dir}
    (hpi : boxIn w h p) (hqi : boxIn w h q) (hpair : SplitterPair (boxNb w h) T p q d) :
    0 < p.1 ∧ p.1 + 1 < w ∧ 0 < q.1 ∧ q.1 + 1 < w := by
  obtain ⟨hTp, hnb, hTq⟩ := hpair
  have hp' : ∃ i0 j0, EntryBlock T F (fun y => (0, y)) h .right i.toNat false i0 ∧ ExitBlock T F (fun y => (w - 1, y)) h .right k.toNat false j0 ∧
      (true = true → RowsNested i0 i.toNat j0 k.toNat) := hp
  obtain ⟨i0, j0, he, hx, -⟩ := hp'
  have last : ∀ r s, boxIn w h r → T r = .splitter d s → r.1 + 1 < w := by
    rintro ⟨x, y⟩ s hr hs
    by_contra hc
    have h1 := hr.1
    have h2 := hr.2
    simp only at h1 h2 hc
    have hxw : x = w - 1 := by omega
    subst hxw
    unfold ExitBlock at hx
    split at hx
    · obtain ⟨i', hi'⟩ := hx.2 y h2
      rw [hs] at hi'
      cases hi'
    · have := hx.2.2 y h2
      split at this
      · obtain ⟨i', hi'⟩ := this
        rw [hs] at hi'
        cases hi'
      · simp only [Bool.false_eq_true, if_false] at this
        rw [hs] at this
        cases this
  have first : ∀ r s, boxIn w h r → T r = .splitter d s → r.1 = 0 → i.toNat = h ∧ d = .right := by
    rintro ⟨x, y⟩ s hr hs hx0
    have h2 := hr.2
    simp only at h2 hx0
    subst hx0
    unfold EntryBlock at he
    split at he
    · rename_i hm
      have h3 := hI.fits.takes _ _ hr (he.2 y h2)
      rw [hs] at h3
      exact ⟨hm, h3⟩
    · exfalso
      have := he.2.2 y h2
      split at this
      · obtain ⟨i', hi'⟩ := this
        rw [hs] at hi'
        cases hi'
      · simp only [Bool.false_eq_true, if_false] at this
        rw [hs] at this
        cases this
  have key : ¬ (i.toNat = h ∧ d = .right ∧ p.1 = 0) := by
    rintro ⟨hm, rfl, hp0⟩
    unfold EntryBlock at he
    rw [if_pos hm] at he
    obtain ⟨kk, hk⟩ := (hI.realises.heads p ((mem_boxCells p).2 hpi)).2 ⟨_, hTp⟩
    obtain ⟨q', p2, q2, ⟨-, hnb', -⟩, -, -, hin, -⟩ := hI.realises.wired p ((mem_boxCells p).2 hpi) kk .right hk hTp
    rw [hnb] at hnb'
    cases hnb'
    have hq0 : q.1 = 0 := by
      obtain ⟨x, y⟩ := p
      simp only [Dir.ccw, boxNb] at hnb
      split at hnb
      · cases hnb; exact hp0
      · cases hnb
    have col : ∀ r : Nat × Nat, boxIn w h r → r.1 = 0 → F.inp r .right = true ∧ (F.col r : Int) = a := by
      rintro ⟨x, y⟩ hr hx0
      simp only at hx0
      subst hx0
      have h3 := he.2 y hr.2
      refine ⟨h3, ?_⟩
      obtain ⟨a', i', b', k', hE', -, -, hin', -⟩ := hI.ends
      have ea := ((gio_iff _ _ _ _ _).2 hE).symm.trans ((gio_iff _ _ _ _ _).2 hE')
      simp only [Except.ok.injEq, Prod.mk.injEq] at ea
      rw [ea.1.1]
      refine hin' _ hr ?_
      unfold Flow.comesIn
      simp [h3, Dir.opp, boxNb]
    have c1 := col p hpi hp0
    have c2 := col q hqi hq0
    have hk1 : kk.1 = (some a, some a) := by
      simp only [colourIf, c1.1, c2.1, if_true, c1.2, c2.2, SameSide] at hin
      rcases hin with h | h
      · exact h.symm
      · obtain ⟨⟨u, v⟩, _⟩ := kk
        simp only [Prod.mk.injEq] at h ⊢
        exact ⟨h.2.symm, h.1.symm⟩
    have := (hes a i b k hE).1
    unfold AtEdge at this
    rw [if_pos hback] at this
    have := (this p ((mem_boxCells p).2 hpi) kk hk (by simp [hk1])).1
    omega
  have l1 := last p _ hpi hTp
  have l2 := last q _ hqi hTq
  refine ⟨Nat.pos_of_ne_zero fun h0 => ?_, l1, Nat.pos_of_ne_zero fun h0 => ?_, l2⟩
  · obtain ⟨e1, e2⟩ := first p _ hpi hTp h0
    exact key ⟨e1, e2, h0⟩
  · obtain ⟨e1, e2⟩ := first q _ hqi hTq h0
    refine key ⟨e1, e2, ?_⟩
    subst e2
    obtain ⟨x, y⟩ := p
    simp only [Dir.ccw, boxNb] at hnb
    split at hnb
    · cases hnb; exact h0
    · cases hnb

/-- Between the first and the last column there is room for all splitters. -/
theorem room_of (hR : BasicRules (boxIn w h) (boxNb w h) T (fun _ _ => False) (boxRim w h) ugLen) (hE : Ends n a i b k)
    (hI : Implements (boxIn w h) (boxNb w h) T F (boxCells w h) n lab) (hes : EdgeSplitters T lab w (boxCells w h) n)
    (hp : EndsPlaced T F w h searchOptions i.toNat k.toNat) (hback : (outsOf n).count (some a) = 0) :
    2 * n.length ≤ (w - 2) * h ∧ 3 ≤ w ∧ max i k ≤ h := by
  classical
  have hlen : ((boxCells w h).filterMap lab).length = n.length := by
    refine List.Perm.length_eq (List.perm_iff_count.2 fun x => ?_)
    rw [List.count_filterMap, ← hI.realises.used]
    exact List.countP_congr fun p _ => by simp
  have hpair : ∀ p, boxIn w h p → (lab p).isSome = true → ∃ q d, boxIn w h q ∧ SplitterPair (boxNb w h) T p q d := by
    intro p hp' hl
    obtain ⟨kk, hk⟩ := Option.isSome_iff_exists.1 hl
    obtain ⟨d, hd⟩ := (hI.realises.heads p ((mem_boxCells p).2 hp')).1 ⟨kk, hk⟩
    obtain ⟨q, h1, h2⟩ := hR.splitters.head p d hp' hd
    exact ⟨q, d, h1, h2⟩
  choose! mt dd hmt using hpair
  let H : Finset (Nat × Nat) := (boxCells w h).toFinset.filter fun p => (lab p).isSome = true
  have hH : ∀ p, p ∈ H ↔ boxIn w h p ∧ (lab p).isSome = true := by
    intro p; simp [H, mem_boxCells]
  have hHc : H.card = n.length := by
    rw [← hlen, List.length_filterMap_eq_countP, List.countP_eq_length_filter]
    have : H = ((boxCells w h).filter fun p => (lab p).isSome).toFinset := by
      ext p; simp [H]
    rw [this, List.toFinset_card_of_nodup (nodup_boxCells.filter _)]
  let I : Finset (Nat × Nat) := Finset.Ico 1 (w - 1) ×ˢ Finset.range h
  have hIc : I.card = (w - 2) * h := by
    simp only [I, Finset.card_product, Nat.card_Ico, Finset.card_range]
    congr 1
  have inj : Set.InjOn mt H := by
    intro p hp1 q hq1 hpq
    obtain ⟨h1, h2⟩ := (hH p).1 hp1
    obtain ⟨h3, h4⟩ := (hH q).1 hq1
    obtain ⟨i1, a1, a3, a2⟩ := hmt p h1 h2
    obtain ⟨i2, b1, b3, b2⟩ := hmt q h3 h4
    rw [hpq] at a2 a3
    rw [a2] at b2
    simp only [Tile.splitter.injEq, and_true] at b2
    rw [← b2] at b3
    obtain ⟨x, y⟩ := p
    obtain ⟨x', y'⟩ := q
    have hx := h1.1
    have hy := h1.2
    have hx' := h3.1
    have hy' := h3.2
    simp only at hx hy hx' hy'
    generalize mt (x', y') = m at a3 b3
    generalize dd (x, y) = d at a3 b3
    cases d <;> simp only [Dir.ccw, boxNb] at a3 b3 <;> split at a3 <;> split at b3 <;> simp only [Option.some.injEq, reduceCtorEq] at a3 b3 <;>
      (rw [← b3] at a3; simp only [Prod.mk.injEq] at a3 ⊢; omega)
  have sub : H ∪ H.image mt ⊆ I := by
    intro p hp1
    simp only [I, Finset.mem_product, Finset.mem_Ico, Finset.mem_range]
    rcases Finset.mem_union.1 hp1 with h1 | h1
    · obtain ⟨h2, h3⟩ := (hH p).1 h1
      obtain ⟨i1, a1⟩ := hmt p h2 h3
      have := between hE hI hes hp hback h2 i1 a1
      have := h2.2
      omega
    · obtain ⟨r, hr, rfl⟩ := Finset.mem_image.1 h1
      obtain ⟨h2, h3⟩ := (hH r).1 hr
      obtain ⟨i1, a1⟩ := hmt r h2 h3
      have := between hE hI hes hp hback h2 i1 a1
      have := i1.2
      omega
  have dis : Disjoint H (H.image mt) := by
    rw [Finset.disjoint_left]
    intro p h1 h2
    obtain ⟨r, hr, rfl⟩ := Finset.mem_image.1 h2
    obtain ⟨h3, h4⟩ := (hH r).1 hr
    obtain ⟨h5, h6⟩ := (hH _).1 h1
    have e1 := (hmt r h3 h4).2.2.2
    have e2 := (hmt _ h5 h6).2.1
    rw [e1] at e2
    simp at e2
  have hroom : 2 * n.length ≤ (w - 2) * h := by
    have := Finset.card_le_card sub
    rw [Finset.card_union_of_disjoint dis, Finset.card_image_of_injOn inj, hHc, hIc] at this
    omega
  have hn : 0 < n.length := by
    rw [List.length_pos_iff]
    rintro rfl
    have := hE.input
    have := hE.pos
    simp [surplus, insOf, outsOf] at *
    omega
  have hw : 3 ≤ w := by
    by_contra hc
    have : w - 2 = 0 := by omega
    rw [this] at hroom
    omega
  have hp' : ∃ i0 j0, EntryBlock T F (fun y => (0, y)) h .right i.toNat false i0 ∧ ExitBlock T F (fun y => (w - 1, y)) h .right k.toNat false j0 ∧
      (true = true → RowsNested i0 i.toNat j0 k.toNat) := hp
  obtain ⟨i0, j0, he, hx, -⟩ := hp'
  refine ⟨hroom, hw, ?_⟩
  have e1 : i.toNat ≤ h := by
    unfold EntryBlock at he
    split at he
    · omega
    · have := he.1; omega
  have e2 : k.toNat ≤ h := by
    unfold ExitBlock at hx
    split at hx
    · omega
    · have := hx.1; omega
  omega

end

end FSat
