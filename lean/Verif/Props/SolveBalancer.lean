import Verif.Lemmas.SolveBalancer
import Verif.Lemmas.SearchRuns
import Verif.Props.BalancerMain
/-!
# C97: what `calculate_optimal` finds
-/

set_option linter.unusedVariables false

namespace FSat

theorem dedup_colours {network : Network} (hpos : ∀ k ∈ network, ∀ c, k.HasColour c → 0 ≤ c) :
    ∀ c ∈ netColours (deduplicateNetwork network), 0 ≤ c := by
  intro c hc
  simp only [netColours, List.mem_filterMap, List.mem_flatMap, id_eq] at hc
  obtain ⟨_, ⟨⟨x, m⟩, he, hc⟩, rfl⟩ := hc
  have h1 : x ∈ elements (deduplicateNetwork network) := by
    unfold elements
    rw [List.mem_flatMap]
    exact ⟨_, he, List.mem_replicate.2 ⟨(dedup_pos network _ he).ne', rfl⟩⟩
  have h2 : x ∈ network.map sortNode := (elements_perm (network.map sortNode)).mem_iff.1 h1
  obtain ⟨k, hk, rfl⟩ := List.mem_map.1 h2
  refine hpos k hk c ?_
  obtain ⟨s1, s2⟩ := sortNode_same k
  simp only [Node.HasColour, List.mem_cons, List.not_mem_nil, or_false] at hc ⊢
  rcases s1 with s1 | s1 <;> rcases s2 with s2 | s2 <;> simp only [s1, s2] at hc <;> tauto

section
variable {lib : CardLib} {network : Network} {size : Size} {g : Grid} {node : Nat × Nat → List Lit} {cs : Cnf} {s' : Nat}

/-- C97: the solver run for a size has a solution exactly if the network has a balancer of that size. -/
theorem c97_answer (hl : lib.Correct) (hpos : ∀ k ∈ network, ∀ c, k.HasColour c → 0 ≤ c) (hw : 2 ≤ size.2.1) (hh : 2 ≤ size.2.2)
    (h : solveBalancerGrid lib network size = .ok (g, node, cs, s')) : (∃ v, Sat v cs) ↔ HasBalancer network size := by
  constructor
  · rintro ⟨v, hs⟩
    obtain ⟨T, hT⟩ := solveBalancer_decodes hl (dedup_colours hpos) h v hs
    exact ⟨T, (solveBalancer_iff hl (dedup_colours hpos) hw hh h T).1 ⟨v, hs, hT⟩⟩
  · rintro ⟨T, hT⟩
    obtain ⟨v, hs, -⟩ := (solveBalancer_iff hl (dedup_colours hpos) hw hh h T).2 hT
    exact ⟨v, hs⟩

/-- C97: every solution of the run is a balancer of that size, and every balancer of that size is a solution. -/
theorem c97_layouts (hl : lib.Correct) (hpos : ∀ k ∈ network, ∀ c, k.HasColour c → 0 ≤ c) (hw : 2 ≤ size.2.1) (hh : 2 ≤ size.2.2)
    (h : solveBalancerGrid lib network size = .ok (g, node, cs, s')) :
    (∀ v, Sat v cs → ∃ T, Decodes g v T) ∧ ∀ T, (∃ v, Sat v cs ∧ Decodes g v T) ↔
      BalancerLayout (boxNb size.2.1.toNat size.2.2.toNat) (boxIn size.2.1.toNat size.2.2.toNat) (boxCells size.2.1.toNat size.2.2.toNat)
        (boxRim size.2.1.toNat size.2.2.toNat) size.2.1.toNat size.2.2.toNat (some size.1.toNat)
        (elements (deduplicateNetwork network)) searchOptions T :=
  ⟨solveBalancer_decodes hl (dedup_colours hpos) h, solveBalancer_iff hl (dedup_colours hpos) hw hh h⟩

/-- C97: if the input colour of the network is no splitter's output, every balancer is among the sizes considered. -/
theorem c97_considered {a p b q : Int} (hE : Ends network a p b q) (hback : some a ∉ outsOf network) (hb : HasBalancer network size) :
    Considered network size.1 (max p q) size := by
  obtain ⟨T, hR, F, lab, hI, hM⟩ := hb
  have hE' : Ends (elements (deduplicateNetwork network)) a p b q :=
    (gio_iff _ _ _ _ _).1 ((c39_ends network a p b q).2 ((gio_iff _ _ _ _ _).2 hE))
  have hlen : (elements (deduplicateNetwork network)).length = network.length := by
    have := (elements_perm (network.map sortNode)).length_eq
    rw [List.length_map] at this
    exact this
  have hback' : (outsOf (elements (deduplicateNetwork network))).count (some a) = 0 := by
    rw [List.count_eq_zero]
    intro hm
    apply hback
    simp only [outsOf, List.mem_flatMap] at hm ⊢
    obtain ⟨x, hx, hm⟩ := hm
    have hx : x ∈ network.map sortNode := (elements_perm (network.map sortNode)).mem_iff.1 hx
    obtain ⟨k, hk, rfl⟩ := List.mem_map.1 hx
    refine ⟨k, hk, ?_⟩
    obtain ⟨-, s2⟩ := sortNode_same k
    rcases s2 with s2 | s2 <;> simp only [s2, List.mem_cons, List.not_mem_nil, or_false] at hm ⊢ <;> tauto
  obtain ⟨h1, h2, h3⟩ := room_of hR hE' hI (hM.edgeSplitters (.inr rfl)) (hM.ends a p b q hE') hback'
  rw [hlen] at h1
  have hp := hE.pos
  have hq := hE.neg
  have e1 : ((size.2.1.toNat : Nat) : Int) = size.2.1 := by omega
  have e2 : ((size.2.2.toNat : Nat) : Int) = size.2.2 := by omega
  refine ⟨rfl, by omega, by omega, ?_⟩
  have h1' : ((2 * network.length : Nat) : Int) ≤ (((size.2.1.toNat - 2) * size.2.2.toNat : Nat) : Int) := by exact_mod_cast h1
  rw [Nat.cast_mul, Nat.cast_mul, Nat.cast_sub (by omega), e1, e2] at h1'
  exact_mod_cast h1'

end

/-- C97: when the search for a shortest balancer is over, the stored solution that the program reports is of a size that has a balancer;
any considered size that has one is higher, or as high and not narrower.  Nothing is assumed about which sizes have balancers. -/
theorem c97_length {fits : Size → Prop} {ul : Int} {n : Network} {name : List Char} {s : Store} {a p b q : Int} (hE : Ends n a p b q)
    (hs : Computed fits ul n name s) (hn : nextSize .length s ul = .ok none) :
    ∃ size v, s.best .length ul = some v ∧ (size, v) ∈ s.solutions ∧ fits size ∧ Considered n ul (max p q) size ∧
      ∀ o, Considered n ul (max p q) o → fits o → size.2.2 < o.2.2 ∨ size.2.2 = o.2.2 ∧ size.2.1 ≤ o.2.1 := by
  obtain ⟨size, v, h1, h2, h3, h4, h5⟩ := (hs.inv hE).best hE hn
  refine ⟨size, v, h1, h2, h3, h4, fun o ho hf => ?_⟩
  have := h5 o ho hf nofun
  rw [Bool.eq_false_iff, Ne, pairLt_iff] at this
  simp only [loss] at this
  omega

/-- C97: the same for the smallest area, among the sizes at most twice as high as the larger end. -/
theorem c97_area {fits : Size → Prop} {ul : Int} {n : Network} {name : List Char} {s : Store} {a p b q : Int} (hE : Ends n a p b q)
    (hs : Computed fits ul n name s) (hn : nextSize .area s ul = .ok none) :
    ∃ size v, s.best .area ul = some v ∧ (size, v) ∈ s.solutions ∧ fits size ∧ Considered n ul (max p q) size ∧
      ∀ o, Considered n ul (max p q) o → fits o → o.2.2 ≤ 2 * max p q → (size.2.1 - 2) * size.2.2 ≤ (o.2.1 - 2) * o.2.2 := by
  obtain ⟨size, v, h1, h2, h3, h4, h5⟩ := (hs.inv hE).best hE hn
  refine ⟨size, v, h1, h2, h3, h4, fun o ho hf hh => ?_⟩
  have := h5 o ho hf fun _ => hh
  rw [Bool.eq_false_iff, Ne, pairLt_iff] at this
  simp only [loss] at this
  omega

/-- The runs of the task of a network arrive at computed stores. -/
theorem turn_computed {lib : CardLib} {n : Network} {name : List Char} {ul a p b q : Int} (hl : lib.Correct)
    (hpos : ∀ k ∈ n, ∀ c, k.HasColour c → 0 ≤ c) (hE : Ends n a p b q) (hh : 2 ≤ max p q) (solve : Network → Size → Option Json)
    (obj : Objective) (s : Store) (hs : Computed (HasBalancer n) ul n name s) (k : Nat)
    (hsolve : ∀ j < k, ∀ size, ((Task.turn obj ul solve)^[j] (Task.go obj ul s)).state = .waiting size →
      ∃ g node cs s', solveBalancerGrid lib n size = .ok (g, node, cs, s') ∧ ((solve n size).isSome = true ↔ ∃ v, Sat v cs)) :
    ∃ s', (Task.turn obj ul solve)^[k] (Task.go obj ul s) = Task.go obj ul s' ∧ Computed (HasBalancer n) ul n name s' := by
  induction k with
  | zero => exact ⟨s, rfl, hs⟩
  | succ k ih =>
    obtain ⟨s1, h1, h2⟩ := ih fun j hj => hsolve j (by omega)
    rw [Function.iterate_succ_apply', h1]
    have hinv := h2.inv hE
    cases hn : nextSize obj s1 ul with
    | error e =>
      refine ⟨s1, ?_, h2⟩
      simp only [Task.go, hn, Task.turn]
    | ok r =>
      cases r with
      | none =>
        refine ⟨s1, ?_, h2⟩
        simp only [Task.go, hn, Task.turn]
      | some size =>
        have hgo : Task.go obj ul s1 = ⟨s1, .waiting size⟩ := by simp only [Task.go, hn]
        obtain ⟨hc, -⟩ := hinv.next hE hn
        obtain ⟨g, node, cs, s', e1, e2⟩ := hsolve k (by omega) size (by rw [h1, hgo])
        have h3 := hc.wide
        have h4 := hc.high
        refine ⟨(s1.add size (solve n size)).clean, ?_, .step obj _ h2 hn ?_⟩
        · simp only [hgo, Task.turn, Task.resume, hinv.network]
        · rw [e2]
          exact c97_answer hl hpos (by omega) (by omega) e1

/-- C97: whatever the earlier searches with this underground length were, if the task of a network ends and every solver run of it was
right about the clauses it was given, then the solution reported is a best one: every balancer of the network with this underground length,
for the area at most twice as high as the larger end, has at least its loss.  The input colour of the network is no splitter's output. -/
theorem c97_optimal_partial {lib : CardLib} {n : Network} {name : List Char} {ul a p b q : Int} (hl : lib.Correct)
    (hpos : ∀ k ∈ n, ∀ c, k.HasColour c → 0 ≤ c) (hE : Ends n a p b q) (hback : some a ∉ outsOf n) (hh : 2 ≤ max p q)
    (solve : Network → Size → Option Json) (obj : Objective) (s : Store) (hs : Computed (HasBalancer n) ul n name s) (k : Nat) (s' : Store)
    (hsolve : ∀ j < k, ∀ size, ((Task.turn obj ul solve)^[j] (Task.go obj ul s)).state = .waiting size →
      ∃ g node cs s', solveBalancerGrid lib n size = .ok (g, node, cs, s') ∧ ((solve n size).isSome = true ↔ ∃ v, Sat v cs))
    (hdone : (Task.turn obj ul solve)^[k] (Task.go obj ul s) = ⟨s', .done⟩) :
    ∃ size v, s'.best obj ul = some v ∧ (size, v) ∈ s'.solutions ∧ HasBalancer n size ∧ size.1 = ul ∧
      ∀ o, HasBalancer n o → o.1 = ul →
        (obj = .length → size.2.2 < o.2.2 ∨ size.2.2 = o.2.2 ∧ size.2.1 ≤ o.2.1) ∧
        (obj = .area → o.2.2 ≤ 2 * max p q → (size.2.1 - 2) * size.2.2 ≤ (o.2.1 - 2) * o.2.2) := by
  obtain ⟨s1, h1, h2⟩ := turn_computed hl hpos hE hh solve obj s hs k hsolve
  have hn : nextSize obj s' ul = .ok none ∧ s1 = s' := by
    rw [h1] at hdone
    cases hn : nextSize obj s1 ul with
    | error e => simp only [Task.go, hn, Task.mk.injEq, reduceCtorEq, and_false] at hdone
    | ok r =>
      cases r with
      | some size => simp only [Task.go, hn, Task.mk.injEq, reduceCtorEq, and_false] at hdone
      | none =>
        simp only [Task.go, hn, Task.mk.injEq, and_true] at hdone
        subst hdone
        exact ⟨hn, rfl⟩
  obtain ⟨hn, rfl⟩ := hn
  have cons : ∀ o, HasBalancer n o → o.1 = ul → Considered n ul (max p q) o := fun o ho hu => hu ▸ c97_considered hE hback ho
  cases obj with
  | length =>
    obtain ⟨size, v, e1, e2, e3, e4, e5⟩ := c97_length hE h2 hn
    exact ⟨size, v, e1, e2, e3, e4.len, fun o ho hu => ⟨fun _ => e5 o (cons o ho hu) ho, nofun⟩⟩
  | area =>
    obtain ⟨size, v, e1, e2, e3, e4, e5⟩ := c97_area hE h2 hn
    exact ⟨size, v, e1, e2, e3, e4.len, fun o ho hu => ⟨nofun, fun _ => e5 o (cons o ho hu) ho⟩⟩

/-! ### The two things that go wrong -/

/-- One splitter. -/
def oneSplitter : Network := [((some 0, some 0), (some 1, some 1))]

/-- The splitter between two columns of belts. -/
def oneSplitterAsg : Asg := cellsAsg 24 [
  exOneCell 0 false true false true false false, exOneCell 2 false false false true false false, exOneCell 0 false false true true true false,
  exOneCell 0 false true false true false false, exOneCell 2 true false false true false true, exOneCell 0 false false true true true false]

theorem oneSplitter_sat : okSat oneSplitterAsg (balancerCnf (solveBalancerGrid naiveLib oneSplitter (4, 3, 2))) = true := by decide +kernel

theorem oneSplitter_has : HasBalancer oneSplitter (4, 3, 2) := by
  obtain ⟨g, node, cs, s', h1, h2⟩ := balancerCnf_ok oneSplitter_sat
  exact (c97_answer naiveLib_correct (by simp [oneSplitter, Node.HasColour]) (by decide) (by decide) h1).1 ⟨_, h2⟩

theorem oneSplitter_ends : Ends oneSplitter 0 2 1 2 := (gio_iff _ _ _ _ _).1 (by decide)

/-- A splitter that is both a first and a last one needs exactly three columns. -/
theorem oneSplitter_only (size : Size) (h : HasBalancer oneSplitter size) : size.2.1 = 3 := by
  obtain ⟨T, hR, F, lab, hI, hM⟩ := h
  have he : elements (deduplicateNetwork oneSplitter) = oneSplitter := by decide
  rw [he] at hI hM
  obtain ⟨e1, e2⟩ := hM.edgeSplitters (.inr rfl) 0 2 1 2 oneSplitter_ends
  unfold AtEdge at e1 e2
  rw [if_pos (by decide)] at e1 e2
  have hc : 0 < oneSplitter.count ((some 0, some 0), (some 1, some 1)) := by decide
  rw [← hI.realises.used] at hc
  obtain ⟨p, hp, hlab⟩ := List.countP_pos_iff.1 hc
  have hlab : lab p = some ((some 0, some 0), (some 1, some 1)) := by simpa using hlab
  have a1 := (e1 p hp _ hlab rfl).1
  have a2 := (e2 p hp _ hlab rfl).1
  omega

/-- C97 is false of larger sizes: a network has a balancer three columns wide and none four columns wide, but once the first is recorded the
database says that the second exists. -/
theorem c97_larger_refuted : ∃ (n : Network) (size size' : Size), HasBalancer n size ∧ ¬ HasBalancer n size' ∧
    ∀ v, doesExist ((⟨n, [], [], []⟩ : Store).add size (some v)).clean.exist size' = some true := by
  refine ⟨oneSplitter, (4, 3, 2), (4, 4, 2), oneSplitter_has, fun h => ?_, fun v => rfl⟩
  have := oneSplitter_only _ h
  simp at this

/-- The sizes that have a balancer are not closed upwards, as C51 assumed. -/
theorem c97_upwards_refuted : ¬ UpClosed (HasBalancer oneSplitter) := by
  intro h
  have := oneSplitter_only _ (h (4, 3, 2) (4, 4, 2) (by decide) oneSplitter_has)
  simp at this

/-- Two splitters; the first one's outputs have the colour of the inputs. -/
def fedBack : Network := [((some 0, some 0), (some 0, some 0)), ((some 0, some 0), (some 1, some 1))]

/-- A cell of the example: kind, head, input, output, colour, nodes; everything moves to the right. -/
def fedBackCell (kind : Nat) (head isIn isOut colour : Bool) (node : List Bool) : List Bool :=
  (List.range 5).map (· == kind) ++ [head, isIn, isOut] ++ [true, false, false, false] ++ [true, false, false, false] ++
    [false, false, false, false] ++ [colour] ++ [false] ++ [false] ++ node

/-- The two splitters in the first two columns, and a column of belts. -/
def fedBackAsg : Asg := cellsAsg 25 [
  fedBackCell 2 false true false false [false, false], fedBackCell 2 false false false false [false, false], fedBackCell 0 false false true true [false, false],
  fedBackCell 2 true true false false [true, false], fedBackCell 2 true false false false [false, true], fedBackCell 0 false false true true [false, false]]

theorem fedBack_sat : okSat fedBackAsg (balancerCnf (solveBalancerGrid naiveLib fedBack (4, 3, 2))) = true := by decide +kernel

theorem fedBack_has : HasBalancer fedBack (4, 3, 2) := by
  obtain ⟨g, node, cs, s', h1, h2⟩ := balancerCnf_ok fedBack_sat
  exact (c97_answer naiveLib_correct (by simp [fedBack, Node.HasColour]) (by decide) (by decide) h1).1 ⟨_, h2⟩

/-- The two splitters between two columns of belts. -/
def fedBackWideAsg : Asg := cellsAsg 25 [
  fedBackCell 0 false true false false [false, false], fedBackCell 2 false false false false [false, false],
  fedBackCell 2 false false false false [false, false], fedBackCell 0 false false true true [false, false],
  fedBackCell 0 false true false false [false, false], fedBackCell 2 true false false false [true, false],
  fedBackCell 2 true false false false [false, true], fedBackCell 0 false false true true [false, false]]

theorem fedBackWide_sat : okSat fedBackWideAsg (balancerCnf (solveBalancerGrid naiveLib fedBack (4, 4, 2))) = true := by decide +kernel

theorem fedBackWide_has : HasBalancer fedBack (4, 4, 2) := by
  obtain ⟨g, node, cs, s', h1, h2⟩ := balancerCnf_ok fedBackWide_sat
  exact (c97_answer naiveLib_correct (by simp [fedBack, Node.HasColour]) (by decide) (by decide) h1).1 ⟨_, h2⟩

/-- C97 is false of networks that feed their input colour back: the search may leave out the narrowest balancer, because it counts the first
column as one without splitters.  Here it ends with a balancer of four columns although there is one of three. -/
theorem c97_room_refuted : ∃ (n : Network) (ul : Int) (name : List Char) (s : Store) (size o : Size) (v : Json),
    Computed (HasBalancer n) ul n name s ∧ nextSize .length s ul = .ok none ∧ s.best .length ul = some v ∧ s.solutions = [(size, v)] ∧
    HasBalancer n o ∧ o.1 = ul ∧ o.2.2 = size.2.2 ∧ o.2.1 < size.2.1 := by
  refine ⟨fedBack, 4, [], ((⟨fedBack, [], [], []⟩ : Store).add (4, 4, 2) (some .null)).clean, (4, 4, 2), (4, 3, 2), .null,
    .step .length (some .null) .start (by decide +kernel) (by simp [fedBackWide_has]), by decide +kernel, rfl, rfl,
    fedBack_has, rfl, rfl, by decide⟩

/-! ### Examples -/

/-- The hypotheses of `c97_optimal_partial` are met: for one splitter a single run suffices. -/
example : ∃ (solve : Network → Size → Option Json) (s' : Store), Ends oneSplitter 0 2 1 2 ∧ some 0 ∉ outsOf oneSplitter ∧
    (∀ k ∈ oneSplitter, ∀ c, k.HasColour c → 0 ≤ c) ∧ Computed (HasBalancer oneSplitter) 4 oneSplitter [] ⟨oneSplitter, [], [], []⟩ ∧
    (∀ j < 1, ∀ size, ((Task.turn .length 4 solve)^[j] (Task.go .length 4 ⟨oneSplitter, [], [], []⟩)).state = .waiting size →
      ∃ g node cs s', solveBalancerGrid naiveLib oneSplitter size = .ok (g, node, cs, s') ∧
        ((solve oneSplitter size).isSome = true ↔ ∃ v, Sat v cs)) ∧
    (Task.turn .length 4 solve)^[1] (Task.go .length 4 ⟨oneSplitter, [], [], []⟩) = ⟨s', .done⟩ := by
  refine ⟨fun _ _ => some .null, ((⟨oneSplitter, [], [], []⟩ : Store).add (4, 3, 2) (some .null)).clean, oneSplitter_ends, by decide,
    by simp [oneSplitter, Node.HasColour], .start, fun j hj size hst => ?_, ?_⟩
  · obtain rfl : j = 0 := by omega
    have hn : nextSize .length ⟨oneSplitter, [], [], []⟩ 4 = .ok (some (4, 3, 2)) := by decide +kernel
    simp only [Function.iterate_zero, id_eq, Task.go, hn, TaskState.waiting.injEq] at hst
    subst hst
    obtain ⟨g, node, cs, s', h1, h2⟩ := balancerCnf_ok oneSplitter_sat
    exact ⟨g, node, cs, s', h1, by simp; exact ⟨_, h2⟩⟩
  · have hn : nextSize .length ⟨oneSplitter, [], [], []⟩ 4 = .ok (some (4, 3, 2)) := by decide +kernel
    have hn' : nextSize .length ((⟨oneSplitter, [], [], []⟩ : Store).add (4, 3, 2) (some .null)).clean 4 = .ok none := by decide +kernel
    simp only [Function.iterate_one, Task.go, hn, Task.turn, Task.resume, hn']

end FSat
