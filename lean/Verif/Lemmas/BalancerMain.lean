import Verif.Lemmas.Complete
import Verif.Lemmas.Labels
import Verif.Model.BalancerMain
import Verif.Spec.BalancerMain

set_option linter.unusedSimpArgs false

namespace FSat

open Classical

/-! ### A layout with its connections, drawn -/

section
variable {g : Grid} {T : Nat × Nat → Tile} {F : Flow (Nat × Nat)} {col : Nat × Nat → Nat}

theorem draw_lays (hb : ∀ p, g.In p → (T p).Basic) (hf : FlowFits g.In g.nb T F) : Lays g (drawCell g T F.inp F.out col) T := by
  intro p hp
  have fi : ¬ (T p).IsSplitter → ∀ d, (drawCell g T F.inp F.out col p).inp d = true ↔ (T p).Takes d := fun hs d =>
    ⟨hf.takes p d hp, hf.inp p d hp hs⟩
  have fo : ¬ (T p).IsSplitter → ∀ d, (drawCell g T F.inp F.out col p).out d = true ↔ (T p).Emits d := fun hs d =>
    ⟨hf.emits p d hp, hf.out p d hp hs⟩
  have fi' : ¬ (T p).IsSplitter → ∀ d, (drawCell g T F.inp F.out col p).inp d = false ↔ ¬ (T p).Takes d := fun hs d => by
    rw [← fi hs, Bool.not_eq_true]
  have fo' : ¬ (T p).IsSplitter → ∀ d, (drawCell g T F.inp F.out col p).out d = false ↔ ¬ (T p).Emits d := fun hs d => by
    rw [← fo hs, Bool.not_eq_true]
  have hb := hb p hp
  cases hT : T p with
  | empty =>
    have hs : ¬ (T p).IsSplitter := by rw [hT]; rintro ⟨_, _, h⟩; cases h
    refine ⟨by simp [CellVal.kinds, drawCell, hT, Tile.IsSplitter], by simp [drawCell, hT], fun d => ?_, fun d => ?_⟩
    · rw [fi' hs, hT]; exact fun h => h
    · rw [fo' hs, hT]; exact fun h => h
  | belt i o =>
    have hs : ¬ (T p).IsSplitter := by rw [hT]; rintro ⟨_, _, h⟩; cases h
    rw [hT] at hb
    refine ⟨by simp [CellVal.kinds, drawCell, hT, Tile.IsSplitter], by simp [drawCell, hT], fun d => ?_, fun d => ?_, hb⟩
    · rw [fi hs, hT]; exact eq_comm
    · rw [fo hs, hT]; exact eq_comm
  | underground d b =>
    have hs : ¬ (T p).IsSplitter := by rw [hT]; rintro ⟨_, _, h⟩; cases h
    cases b
    · refine ⟨by simp [CellVal.kinds, drawCell, hT, Tile.IsSplitter], by simp [drawCell, hT], fun d => ?_, fun d => ?_⟩
      · rw [fi' hs, hT]; exact fun h => h
      · rw [fo hs, hT]; exact eq_comm
    · refine ⟨by simp [CellVal.kinds, drawCell, hT, Tile.IsSplitter], by simp [drawCell, hT], fun d => ?_, fun d => ?_⟩
      · rw [fi hs, hT]; exact eq_comm
      · rw [fo' hs, hT]; exact fun h => h
  | splitter d b =>
    have h1 := fun e => hf.takes p e hp
    have h2 := fun e => hf.emits p e hp
    have h3 := hf.half p d b hp hT
    rw [hT] at h1 h2
    simp only [Agrees, CellVal.kinds, drawCell, hT]
    exact ⟨by simp [Tile.IsSplitter], by cases b <;> simp, fun e h => (h1 e h).symm, fun e h => (h2 e h).symm, h3⟩
  | _ => rw [hT] at hb; exact hb.elim

theorem draw_intersection (hg : g.WF) (hl : Lays g (drawCell g T F.inp F.out col) T) (hf : FlowFits g.In g.nb T F)
    (he : SplitterEnds g.In g.nb T) : IntersectionSem g (drawCell g T F.inp F.out col) := by
  intro d p q hp hq
  have hq' := Grid.nb_in hg hq
  refine ⟨hf.same p q d hp hq, fun h1 h2 h3 => ?_⟩
  have hdir := (hl p hp).splitter_dir h2 (.inl h1)
  have hns : ¬ (T q).IsSplitter := by
    intro hs
    rw [(hl q hq').isSplitter_iff.2 hs] at h3; cases h3
  have key : ∀ a b, a ≠ d →
      ¬ ((drawCell g T F.inp F.out col q).inp a = true ∧ (drawCell g T F.inp F.out col q).out b = true) := by
    rintro a b hab ⟨ha, hb'⟩
    have ht := (hl q hq').inp_takes ha
    have hm := (hl q hq').out_emits hb'
    cases hT : T q with
    | belt i o =>
      rw [hT] at ht
      have : i = a := ht
      exact hab (this ▸ he.noLeak p q d _ hp hdir hq i o hT)
    | underground e b => rw [hT] at ht hm; cases b <;> simp [Tile.Takes, Tile.Emits] at ht hm
    | splitter e b => exact hns ⟨e, b, hT⟩
    | _ => rw [hT] at ht; exact ht.elim
  have e1 : d.ccw ≠ d := by cases d <;> simp [Dir.ccw]
  have e2 : d.opp.ccw ≠ d := by cases d <;> simp [Dir.ccw, Dir.opp]
  have e3 : d.opp ≠ d := Dir.opp_ne d
  exact ⟨key _ _ e1, key _ _ e2, key _ _ e1, key _ _ e2, key _ _ e3, key _ _ e3⟩

/-- The connections of a solution fit its layout. -/
theorem fits_of_lays {C : Nat × Nat → CellVal} (hl : Lays g C T) (hx : IntersectionSem g C) : FlowFits g.In g.nb T (flowOf C) := by
  refine ⟨fun p q d hp hq => (hx d p q hp hq).1, fun p d hp h => (hl p hp).inp_takes h, fun p d hp h => (hl p hp).out_emits h,
    fun p d hp hs h => ((hl p hp).takes_iff ((hl p hp).isSplitter_false hs) d).2 h,
    fun p d hp hs h => ((hl p hp).emits_iff ((hl p hp).isSplitter_false hs) d).2 h, fun p d h hp ht => ?_⟩
  have := hl p hp
  rw [ht] at this
  exact this.splitter_flags.2.2

end

/-! ### Tiles that are set -/

theorem setTile_sem {g : Grid} {v : Asg} {T : Nat × Nat → Tile} (hl : Lays g (g.vals v) T) {x y : Nat} {t : Tile} {ts : Cnf}
    (h : setTile g x y t = .ok ts) : Sat v ts ↔ T (x, y) = t.required := by
  unfold setTile Grid.getTile at h
  split at h
  · cases h
  rename_i u hu
  split at hu
  · rename_i hin
    cases hu
    have ha : Agrees (evalTile v (g.tile x y)) (T (x, y)) := hl (x, y) hin
    split at h <;> cases h
    · simp only [Sat_cons, Sat_nil, SatC_cons, SatC_nil, or_false, and_true]
      exact ha.isEmpty_iff
    · simp only [Sat_cons, Sat_nil, SatC_cons, SatC_nil, or_false, and_true]
      exact ha.isEmpty_iff
    · rename_i d b
      simp only [Sat_cons, Sat_nil, SatC_cons, SatC_nil, or_false, and_true]
      have hb : ev v (setLiteral (g.tile x y).isHead b) = true ↔ (evalTile v (g.tile x y)).isHead = b := by
        cases b <;> simp [setLiteral, evalTile]
      constructor
      · rintro ⟨h1, h2, h3⟩
        rw [ha.splitter_dir h1 h3, hb.1 h2]; rfl
      · intro h
        rw [show T (x, y) = .splitter d b from h] at ha
        obtain ⟨h1, h2, h3⟩ := ha.splitter_flags
        exact ⟨h1, hb.2 h2, h3⟩
    · rename_i i o
      simp only [Sat_cons, Sat_nil, SatC_cons, SatC_nil, or_false, and_true]
      constructor
      · rintro ⟨h1, h2, h3⟩
        obtain ⟨i', o', h⟩ := ha.isBelt_iff.1 h1
        rw [h] at ha ⊢
        rw [(ha.2.2.1 i).1 h2, (ha.2.2.2.1 o).1 h3]; rfl
      · intro h
        rw [show T (x, y) = .belt i o from h] at ha
        exact ⟨ha.isBelt_iff.2 ⟨i, o, rfl⟩, (ha.2.2.1 i).2 rfl, (ha.2.2.2.1 o).2 rfl⟩
    · rename_i d
      simp only [Sat_cons, Sat_nil, SatC_cons, SatC_nil, or_false, and_true]
      exact ha.ugIn_iff d
    · rename_i d
      simp only [Sat_cons, Sat_nil, SatC_cons, SatC_nil, or_false, and_true]
      exact ha.ugOut_iff d
  · cases hu

theorem mem_enumerateTiles {rows : List (List Tile)} {x y : Nat} {t : Tile} :
    ((x, y), t) ∈ enumerateTiles rows ↔ ∃ row, rows[y]? = some row ∧ row[x]? = some t := by
  unfold enumerateTiles
  simp only [List.mem_flatMap, List.mem_map, Prod.exists, Prod.mk.injEq, List.mem_zipIdx_iff_getElem?]
  constructor
  · rintro ⟨row, y', hy, t', x', hx, ⟨rfl, rfl⟩, rfl⟩
    exact ⟨row, hy, hx⟩
  · rintro ⟨row, hy, hx⟩
    exact ⟨row, y, hy, t, x, hx, ⟨rfl, rfl⟩, rfl⟩

theorem concatE_each {α : Type} {f : α → Except PyErr Cnf} {l : List α} {cs : Cnf} (h : concatE f l = .ok cs) (v : Asg)
    {P : α → Prop} (hP : ∀ a ∈ l, ∀ c, f a = .ok c → (Sat v c ↔ P a)) : Sat v cs ↔ ∀ a ∈ l, P a := by
  induction l generalizing cs with
  | nil => cases h; simp
  | cons a l ih =>
    unfold concatE at h
    split at h
    · cases h
    · rename_i c1 h1
      split at h
      · cases h
      · rename_i c2 h2
        cases h
        rw [Sat_append, hP a (by simp) _ h1, ih h2 fun b hb => hP b (by simp [hb])]
        simp

theorem setNonempty_sem {g : Grid} {v : Asg} {T : Nat × Nat → Tile} (hl : Lays g (g.vals v) T) {rows : List (List Tile)} {cs : Cnf}
    (h : setNonemptyTiles g rows = .ok cs) : Sat v cs ↔ Contains T rows := by
  unfold setNonemptyTiles at h
  rw [concatE_each h v (P := fun e => e.2 ≠ .empty → T e.1 = e.2.required)]
  · constructor
    · intro hh x y row t h1 h2 h3
      exact hh ((x, y), t) (mem_enumerateTiles.2 ⟨row, h1, h2⟩) h3
    · rintro hh ⟨⟨x, y⟩, t⟩ hm h3
      obtain ⟨row, h1, h2⟩ := mem_enumerateTiles.1 hm
      exact hh x y row t h1 h2 h3
  · rintro ⟨⟨x, y⟩, t⟩ _ c hc
    split at hc
    · cases hc
      rename_i he
      simp only at he
      simp [he]
    · rename_i he
      rw [setTile_sem hl hc]
      exact ⟨fun h _ => h, fun h => h he⟩

/-! ### Splitters at the edges -/

theorem column_countP {g : Grid} {x : Nat} (hx : x < g.width) (P : Nat × Nat → Bool) :
    ((List.range g.height).map fun y => (x, y)).countP P = g.cells.countP fun p => p.1 == x && P p := by
  have hperm : ((List.range g.height).map fun y => (x, y)).Perm (g.cells.filter fun p => p.1 == x) := by
    rw [List.perm_ext_iff_of_nodup]
    · rintro ⟨a, b⟩
      simp only [List.mem_map, List.mem_range, Prod.mk.injEq, List.mem_filter, g.mem_cells, beq_iff_eq]
      constructor
      · rintro ⟨y, hy, rfl, rfl⟩; exact ⟨⟨hx, hy⟩, rfl⟩
      · rintro ⟨⟨_, h2⟩, rfl⟩; exact ⟨b, h2, rfl, rfl⟩
    · refine List.Nodup.map (fun a b h => by simpa using h) List.nodup_range
    · exact g.cells_nodup.filter _
  rw [hperm.countP_eq, List.countP_filter]
  exact List.countP_congr fun p _ => by rw [Bool.and_comm]

theorem countP_and_eq {α : Type} (l : List α) (f h : α → Bool) :
    l.countP (fun a => f a && h a) = l.countP h ↔ ∀ a ∈ l, h a = true → f a = true := by
  induction l with
  | nil => simp
  | cons a l ih =>
    have hle : l.countP (fun a => f a && h a) ≤ l.countP h := List.countP_mono_left fun b _ hb => by
      simp only [Bool.and_eq_true] at hb; exact hb.2
    simp only [List.countP_cons, List.mem_cons, forall_eq_or_imp, ← ih]
    cases hf : f a <;> cases hh : h a <;> simp <;> omega

theorem sum_ite_countP {α : Type} (l : List α) (f : α → Bool) : (l.map fun a => if f a = true then 1 else 0).sum = l.countP f := by
  induction l with
  | nil => rfl
  | cons a l ih => rw [List.map_cons, List.sum_cons, ih, List.countP_cons]; omega

/-- What `edgeColumn` says. -/
def EdgeSem (g : Grid) (v : Asg) (node : Nat × Nat → List Lit) (x : Nat) (nodes : List (Nat × Nat)) (back : Nat) : Prop :=
  if back = 0 then ∀ e ∈ nodes, g.cells.countP (fun p => p.1 == x && ev v ((node p).getD e.1 default)) = e.2 ∧
    ∀ y < g.height, ev v ((node (x, y)).getD e.1 default) = true → (g.vals v (x, y)).inp .right = true ∨ (g.vals v (x, y)).out .right = true
  else (nodes.map Prod.snd).sum ≤
    (g.cells.map fun p => if p.1 = x then nodes.countP fun e => ev v ((node p).getD e.1 default) else 0).sum + back

theorem countTrue_flatMap {α : Type} (v : Asg) (l : List α) (f : α → List Lit) :
    countTrue v (l.flatMap f) = (l.map fun a => countTrue v (f a)).sum := by
  induction l with
  | nil => rfl
  | cons a l ih =>
    simp only [List.flatMap_cons, List.map_cons, List.sum_cons, ← ih]
    simp [countTrue, trues]

theorem column_sum {g : Grid} {x : Nat} (hx : x < g.width) (f : Nat × Nat → Nat) :
    (((List.range g.height).map fun y => (x, y)).map f).sum = (g.cells.map fun p => if p.1 = x then f p else 0).sum := by
  have hperm : ((List.range g.height).map fun y => (x, y)).Perm (g.cells.filter fun p => p.1 == x) := by
    rw [List.perm_ext_iff_of_nodup]
    · rintro ⟨a, b⟩
      simp only [List.mem_map, List.mem_range, Prod.mk.injEq, List.mem_filter, g.mem_cells, beq_iff_eq]
      constructor
      · rintro ⟨y, hy, rfl, rfl⟩; exact ⟨⟨hx, hy⟩, rfl⟩
      · rintro ⟨⟨_, h2⟩, rfl⟩; exact ⟨b, h2, rfl, rfl⟩
    · refine List.Nodup.map (fun a b h => by simpa using h) List.nodup_range
    · exact g.cells_nodup.filter _
  rw [(hperm.map f).sum_eq]
  generalize g.cells = l
  induction l with
  | nil => rfl
  | cons a l ih =>
    by_cases h : a.1 = x
    · simp [List.filter_cons, h, ih]
    · simp [List.filter_cons, h, ih]

theorem edgeColumn_enc {lib : CardLib} (hl : lib.Correct) {g : Grid} {s0 : Nat} (hb : g.LitsLe s0) {node : Nat × Nat → List Lit}
    {x : Int} (h0 : 0 ≤ x) (hx : x < g.width) {nodes : List (Nat × Nat)}
    (hn : ∀ p, g.In p → ∀ e ∈ nodes, ((node p).getD e.1 default).var ≤ s0) (back : Nat) :
    GenEnc s0 (edgeColumn lib g node x nodes back) fun v => EdgeSem g v node x.toNat nodes back := by
  have hxn : x.toNat < g.width := by omega
  unfold edgeColumn EdgeSem
  simp only [if_pos (show g.height = 0 ∨ (0 ≤ x ∧ x < g.width) from .inr ⟨h0, hx⟩)]
  have hcol : ∀ p ∈ (List.range g.height).map fun y => (x.toNat, y), g.In p := by
    intro p hp
    simp only [List.mem_map, List.mem_range] at hp
    obtain ⟨y, hy, rfl⟩ := hp
    exact ⟨hxn, hy⟩
  by_cases hback : back = 0
  · simp only [if_pos hback]
    refine GenEnc.map _ fun e he => ?_
    have h1 := GenEnc.equals hl (s0 := s0) (ls := ((List.range g.height).map fun y => (x.toNat, y)).map fun p => (node p).getD e.1 default)
      (by
        intro l hl'
        obtain ⟨p, hp, rfl⟩ := List.mem_map.1 hl'
        exact hn p (hcol p hp) e he) (e.2 : Nat)
    have h2 : GenEnc s0 (Gen.pure (.ok (((List.range g.height).map fun y => (x.toNat, y)).flatMap fun p =>
        implies [(node p).getD e.1 default] [[(g.at' p).inp .right, (g.at' p).out .right]])))
        fun v => ∀ y < g.height, ev v ((node (x.toNat, y)).getD e.1 default) = true →
          (g.vals v (x.toNat, y)).inp .right = true ∨ (g.vals v (x.toNat, y)).out .right = true := by
      refine GenEnc.pure ?_ ?_
      · refine fun v w ha => forall_congr' fun y => forall_congr' fun hy => ?_
        have hin : g.In (x.toNat, y) := ⟨hxn, hy⟩
        rw [ev_agree' ha (hn _ hin e he), g.vals_agree hb ha hin]
      · intro cs hcs v
        cases hcs
        simp only [Sat_flatMap, List.mem_map, List.mem_range, forall_exists_index, and_imp, forall_apply_eq_imp_iff₂, Sat_implies,
          List.mem_singleton, forall_eq, Sat_cons, Sat_nil, SatC_cons, SatC_nil, or_false, and_true]
        exact Iff.rfl
    refine (h1.cons (h2.cons (GenEnc.nil s0))).congr fun v => ?_
    rw [countTrue_map, column_countP hxn]
    simp only [and_true, Nat.cast_inj]
  · simp only [if_neg hback]
    by_cases hpos : ((nodes.map Prod.snd).sum : Int) - back > 0
    · rw [if_pos hpos]
      refine (GenEnc.atleast hl (s0 := s0) ?_ _).congr fun v => ?_
      · intro l hl'
        obtain ⟨p, hp, hl'⟩ := List.mem_flatMap.1 hl'
        obtain ⟨e, he, rfl⟩ := List.mem_map.1 hl'
        exact hn p (hcol p hp) e he
      · rw [countTrue_flatMap]
        simp only [countTrue_map]
        rw [column_sum hxn]
        omega
    · rw [if_neg hpos]
      refine (GenEnc.nil s0).congr fun v => ?_
      simp only [true_iff]
      omega

section
variable {g : Grid} {v : Asg} {T : Nat × Nat → Tile} {net : PyDict Node Nat} {lab : Nat × Nat → Option Node}
  {node : Nat × Nat → List Lit}

/-- The edge clauses in terms of the labels. -/
theorem edgeSem_iff (hv : net.Valid) (hT : Lays g (g.vals v) T)
    (hheads : ∀ p ∈ g.cells, (∃ k, lab p = some k) ↔ ∃ d, T p = .splitter d true)
    (hused : ∀ k, g.cells.countP (fun p => lab p = some k) = (elements net).count k)
    (hN : ∀ p, g.In p → ∀ i, ∀ hi : i < net.length, ev v ((node p).getD i default) = true ↔ lab p = some (net[i]).1)
    (hmem : ∀ p, g.In p → ∀ k, lab p = some k → k ∈ net.map Prod.fst)
    (side : Node → Colour × Colour) (c : Int) (back : Nat) {x : Nat} (hx : x < g.width) :
    EdgeSem g v node x (edgeNodes side net c) back ↔
      AtEdge T lab g.cells (elements net) (fun k => side k == (some c, some c)) back x := by
  have hside : ∀ s : Colour × Colour, sideAll c s = (s == (some c, some c)) := fun s => rfl
  have hcnt : ∀ i, ∀ hi : i < net.length, g.cells.countP (fun p => lab p = some (net[i]).1) = (net[i]).2 := by
    intro i hi
    have hget : net.get (net[i]).1 = some (net[i]).2 := PyDict.get_of_mem hv (List.getElem_mem hi)
    rw [hused, count_elements net hv, hget, Option.getD_some]
  have hen : ∀ e : Nat × Nat, e ∈ edgeNodes side net c ↔ ∃ hi : e.1 < net.length, e.2 = (net[e.1]).2 ∧ sideAll c (side (net[e.1]).1) = true := by
    intro e
    unfold edgeNodes
    simp only [List.mem_filterMap]
    constructor
    · rintro ⟨z, hz, h⟩
      split at h
      · rename_i hs
        cases h
        have hi := (List.mem_zipIdx' hz).1
        have hx := (List.mem_zipIdx' hz).2
        exact ⟨hi, by simp only [hx], by simp only [← hx]; exact hs⟩
      · cases h
    · rintro ⟨hi, h1, h2⟩
      exact ⟨(net[e.1], e.1), zipIdx_getElem hi, by simp only [if_pos h2, ← h1]⟩
  unfold EdgeSem AtEdge
  by_cases hb : back = 0
  · rw [if_pos hb, if_pos hb]
    constructor
    · intro h p hp k hk hh
      have hin := (g.mem_cells p).1 hp
      obtain ⟨e, he, hek⟩ := List.mem_map.1 (hmem p hin k hk)
      obtain ⟨i, hi, rfl⟩ := List.mem_iff_getElem.1 he
      subst hek
      obtain ⟨h1, h2⟩ := h (i, (net[i]).2) ((hen _).2 ⟨hi, rfl, hh⟩)
      have hcol : ∀ a ∈ g.cells, decide (lab a = some (net[i]).1) = true → (a.1 == x) = true := by
        refine (countP_and_eq _ _ _).1 ?_
        rw [hcnt i hi, ← h1]
        refine List.countP_congr fun a ha => ?_
        simp only [Bool.and_eq_true, decide_eq_true_eq, hN a ((g.mem_cells a).1 ha) i hi]
      have hpx : p.1 = x := by simpa using hcol p hp (by simpa using hk)
      refine ⟨hpx, ?_⟩
      obtain ⟨d, hd⟩ := (hheads p hp).1 ⟨_, hk⟩
      have hpe : p = (x, p.2) := by rw [← hpx]
      have h3 := h2 p.2 hin.2 (by rw [← hpe]; exact (hN p hin i hi).2 hk)
      rw [← hpe] at h3
      have ha := hT p hin
      have h4 := ha.splitter_dir (by rw [ha.isSplitter_iff]; exact ⟨d, true, hd⟩) h3
      rw [hd] at h4 ⊢
      simp only [Tile.splitter.injEq] at h4
      rw [h4.1]
    · intro h e he
      obtain ⟨hi, h1, h2⟩ := (hen e).1 he
      have hall : ∀ p ∈ g.cells, lab p = some (net[e.1]).1 → p.1 = x ∧ T p = .splitter .right true := fun p hp hk => h p hp _ hk h2
      refine ⟨?_, fun y hy hn => ?_⟩
      · rw [h1, ← hcnt e.1 hi, ← (countP_and_eq g.cells (fun p => p.1 == x) (fun p => decide (lab p = some (net[e.1]).1))).2
          (fun a ha hl => by simpa using (hall a ha (by simpa using hl)).1)]
        refine List.countP_congr fun a ha => ?_
        simp only [Bool.and_eq_true, decide_eq_true_eq, hN a ((g.mem_cells a).1 ha) _ hi]
      · have hin : g.In (x, y) := ⟨hx, hy⟩
        have ht := (hall _ ((g.mem_cells _).2 hin) ((hN _ hin _ hi).1 hn)).2
        have ha := hT _ hin
        rw [ht] at ha
        exact ha.splitter_flags.2.2
  · rw [if_neg hb, if_neg hb]
    have e1 : ((edgeNodes side net c).map Prod.snd).sum = (elements net).countP fun k => side k == (some c, some c) := by
      unfold edgeNodes elements
      have : ∀ (l : List (Node × Nat)) (j : Nat), ((((l.zipIdx j).filterMap fun e => if sideAll c (side e.1.1) then some (e.2, e.1.2) else none).map
          Prod.snd)).sum = (l.flatMap fun e => List.replicate e.2 e.1).countP fun k => side k == (some c, some c) := by
        intro l
        induction l with
        | nil => intro j; rfl
        | cons a l ih =>
          intro j
          simp only [List.zipIdx_cons, List.filterMap_cons, List.flatMap_cons, List.countP_append, List.countP_replicate, ← ih (j + 1)]
          rw [hside]
          split
          · rename_i hh; split at hh
            · cases hh
            · rename_i hs; simp only [Bool.not_eq_true] at hs; rw [hs]; simp
          · rename_i hh; split at hh
            · rename_i hs; cases hh; rw [if_pos hs]; simp
            · cases hh
      exact this net 0
    have e2 : ∀ p ∈ g.cells, (if p.1 = x then (edgeNodes side net c).countP fun e => ev v ((node p).getD e.1 default) else 0) =
        if (p.1 == x && (lab p).any fun k => side k == (some c, some c)) = true then 1 else 0 := by
      intro p hp
      have hin := (g.mem_cells p).1 hp
      by_cases hpx : p.1 = x
      · rw [if_pos hpx]
        have e3 : (edgeNodes side net c).countP (fun e => ev v ((node p).getD e.1 default)) =
            (net.map Prod.fst).countP fun k => decide (lab p = some k) && (side k == (some c, some c)) := by
          unfold edgeNodes
          rw [List.countP_filterMap, List.countP_map]
          have hz0 : ∀ f : Node × Nat → Bool, net.countP f = net.zipIdx.countP (f ∘ Prod.fst) := fun f => by
            rw [← List.countP_map, List.zipIdx_map_fst]
          rw [hz0]
          refine List.countP_congr fun z hz => ?_
          have hi := (List.mem_zipIdx' hz).1
          have hx' := (List.mem_zipIdx' hz).2
          simp only [Function.comp_apply, ← hside]
          have := hN p hin z.2 hi
          cases hs : sideAll c (side z.1.1)
          · simp
          · simp only [if_true, Option.any_some, Bool.and_true, decide_eq_true_eq, hx']
            exact this
        rw [e3]
        cases hlab : lab p with
        | none => simp
        | some k =>
          have hk := hmem p hin k hlab
          simp only [Option.some.injEq, Option.any_some, hpx, beq_self_eq_true, Bool.true_and]
          cases hs : side k == (some c, some c)
          · simp only [Bool.false_eq_true, if_false, List.countP_eq_zero]
            intro k' _ h
            simp only [Bool.and_eq_true, decide_eq_true_eq] at h
            rw [h.1, h.2] at hs; cases hs
          · have hc1 : (net.map Prod.fst).count k = 1 := List.count_eq_one_of_mem hv hk
            simp only [if_true]
            rw [← hc1, List.count]
            refine List.countP_congr fun k' _ => ?_
            simp only [Bool.and_eq_true, decide_eq_true_eq, beq_iff_eq]
            constructor
            · rintro ⟨rfl, _⟩; rfl
            · rintro rfl; exact ⟨rfl, by simpa using hs⟩
      · simp [hpx]
    rw [e1, List.map_congr_left e2, sum_ite_countP]

end

end FSat
