import Verif.Model.PrintSolution
import Verif.Spec.PrintSolution
import Verif.Lemmas.Template
import Verif.Lemmas.Commands
import Verif.Lemmas.JsonText
import Mathlib.Tactic.IntervalCases
/-!
Lemmas about printed answers.
-/

namespace FSat

/-! ### A larger dictionary gives the same values -/

/-- The second dictionary has all entries of the first. -/
def Mapping.Le (m m' : Mapping) : Prop := ∀ x b, m x = some b → m' x = some b

theorem Mapping.Le.get {m m' : Mapping} (h : m.Le m') {l : Lit} {b : Bool} (hb : m.get l = .ok b) : m'.get l = .ok b := by
  unfold Mapping.get at hb ⊢
  cases e : m l.var with
  | none => rw [e] at hb; cases hb
  | some c => rw [e] at hb; rw [h _ _ e]; exact hb

theorem Mapping.Le.getAll {m m' : Mapping} (h : m.Le m') {ls : List Lit} {bs : List Bool} (hb : m.getAll ls = .ok bs) :
    m'.getAll ls = .ok bs := by
  induction ls generalizing bs with
  | nil => exact hb
  | cons l ls ih =>
    unfold Mapping.getAll at hb ⊢
    cases e : m.get l with
    | error e' => rw [e] at hb; cases hb
    | ok b =>
      rw [e] at hb
      rw [h.get e]
      cases e2 : m.getAll ls with
      | error e' => rw [e2] at hb; cases hb
      | ok bs' => rw [e2] at hb; rw [ih e2]; exact hb

theorem Mapping.Le.manyHot {m m' : Mapping} (h : m.Le m') {ls : List Lit} {j : Nat} {bs : List Nat} (hb : parseManyHot m j ls = .ok bs) :
    parseManyHot m' j ls = .ok bs := by
  induction ls generalizing bs j with
  | nil => exact hb
  | cons l ls ih =>
    unfold parseManyHot at hb ⊢
    cases e : m.get l with
    | error e' => rw [e] at hb; cases hb
    | ok b =>
      rw [e] at hb
      rw [h.get e]
      cases e2 : parseManyHot m (j + 1) ls with
      | error e' => rw [e2] at hb; cases hb
      | ok bs' => rw [e2] at hb; rw [ih e2]; exact hb

theorem Mapping.Le.oneHot {m m' : Mapping} (h : m.Le m') {ls : List Lit} {j : Nat} {r : Option Nat} (hb : parseOneHot m j ls = .ok r) :
    parseOneHot m' j ls = .ok r := by
  induction ls generalizing j with
  | nil => exact hb
  | cons l ls ih =>
    unfold parseOneHot at hb ⊢
    cases e : m.get l with
    | error e' => rw [e] at hb; cases hb
    | ok b =>
      rw [e] at hb
      rw [h.get e]
      cases b with
      | true => exact hb
      | false => exact ih hb

theorem parseAll_mono {α β : Type} {f f' : α → Except PyErr β} (h : ∀ a b, f a = .ok b → f' a = .ok b) {as : List α} {bs : List β}
    (hb : parseAll f as = .ok bs) : parseAll f' as = .ok bs := by
  induction as generalizing bs with
  | nil => exact hb
  | cons a as ih =>
    unfold parseAll at hb ⊢
    cases e : f a with
    | error e' => rw [e] at hb; cases hb
    | ok b =>
      rw [e] at hb
      rw [h _ _ e]
      cases e2 : parseAll f as with
      | error e' => rw [e2] at hb; cases hb
      | ok bs' => rw [e2] at hb; rw [ih e2]; exact hb

theorem parseNested_mono {α β : Type} {f f' : α → Except PyErr β} (h : ∀ a b, f a = .ok b → f' a = .ok b) (shape : List Nat)
    (a : Nested α shape) (b : Nested β shape) (hb : parseNested f shape a = .ok b) : parseNested f' shape a = .ok b := by
  induction shape with
  | nil => exact h _ _ hb
  | cons n shape ih => exact parseAll_mono (fun a b => ih a b) hb

mutual
theorem Tmpl.parse_mono {m m' : Mapping} (h : m.Le m') : (t : Tmpl) → (i : t.Inst) → (x : t.Val) → t.parse m i = .ok x →
    t.parse m' i = .ok x
  | .bool, _, _, hb => h.get hb
  | .array c shape, i, x, hb => parseNested_mono (fun a b => Tmpl.parse_mono h c a b) shape i x hb
  | .manyHot _, _, _, hb => h.manyHot hb
  | .oneHot _, _, _, hb => h.oneHot hb
  | .number n sg, i, x, hb => by
    unfold Tmpl.parse at hb ⊢
    cases e : m.getAll i with
    | error e' => rw [e] at hb; cases hb
    | ok bs => rw [e] at hb; rw [h.getAll e]; exact hb
  | .composite fs, i, x, hb => TFields.parse_mono h fs i x hb
theorem TFields.parse_mono {m m' : Mapping} (h : m.Le m') : (fs : TFields) → (i : fs.Inst) → (x : fs.Val) → fs.parse m i = .ok x →
    fs.parse m' i = .ok x
  | .nil, _, _, hb => hb
  | .cons _ t rest, i, x, hb => by
    unfold TFields.parse at hb ⊢
    cases e : t.parse m i.1 with
    | error e' => rw [e] at hb; cases hb
    | ok a =>
      rw [e] at hb
      rw [Tmpl.parse_mono h t _ _ e]
      cases e2 : rest.parse m i.2 with
      | error e' => rw [e2] at hb; cases hb
      | ok as => rw [e2] at hb; rw [TFields.parse_mono h rest _ _ e2]; exact hb
end

/-- What is read from an answer is what every assignment that agrees with it says. -/
theorem TFields.parse_means {m : Mapping} {v : Asg} (hm : ∀ x b, m x = some b → v x = b) {fs : TFields} (hp : fs.Proper) {s : Nat}
    {x : fs.Val} (h : fs.parse m (fs.instantiate s).1 = .ok x) : fs.Means v (fs.instantiate s).1 x := by
  have h2 := TFields.parse_mono (m' := fun x => some (v x)) (fun x b hb => congrArg some (hm x b hb)) fs _ _ h
  obtain ⟨y, h3, h4, _⟩ := fs.parse_ok (fun x => some (v x)) v hp s (fun _ _ _ => rfl)
  rw [h2] at h3
  rw [Except.ok.inj h3]
  exact h4

/-! ### The only exception is a missing entry -/

/-- The only exception is a `KeyError`. -/
def KeyOnly {α β : Type} (p : α → Except PyErr β) (a : α) : Prop := ∀ e, p a = .error e → e = .keyError

theorem Mapping.get_key (m : Mapping) (l : Lit) : KeyOnly m.get l := by
  intro e h
  unfold Mapping.get at h
  split at h
  · exact (Except.error.inj h).symm
  · cases h

theorem Mapping.getAll_key (m : Mapping) (ls : List Lit) : KeyOnly m.getAll ls := by
  induction ls with
  | nil => intro e h; cases h
  | cons l ls ih =>
    intro e h
    unfold Mapping.getAll at h
    split at h
    · rename_i e' he
      obtain rfl := Except.error.inj h
      exact m.get_key l _ he
    · split at h
      · rename_i e' he
        obtain rfl := Except.error.inj h
        exact ih _ he
      · cases h

theorem Mapping.getAll_length {m : Mapping} {ls : List Lit} {bs : List Bool} (h : m.getAll ls = .ok bs) : bs.length = ls.length := by
  induction ls generalizing bs with
  | nil => cases h; rfl
  | cons l ls ih =>
    unfold Mapping.getAll at h
    split at h
    · cases h
    · split at h
      · cases h
      · rename_i bs' he
        obtain rfl := Except.ok.inj h
        simp [ih he]

theorem parseManyHot_key (m : Mapping) (j : Nat) (ls : List Lit) : KeyOnly (parseManyHot m j) ls := by
  induction ls generalizing j with
  | nil => intro e h; cases h
  | cons l ls ih =>
    intro e h
    unfold parseManyHot at h
    split at h
    · rename_i e' he
      obtain rfl := Except.error.inj h
      exact m.get_key l _ he
    · split at h
      · rename_i e' he
        obtain rfl := Except.error.inj h
        exact ih _ _ he
      · cases h

theorem parseOneHot_key (m : Mapping) (j : Nat) (ls : List Lit) : KeyOnly (parseOneHot m j) ls := by
  induction ls generalizing j with
  | nil => intro e h; cases h
  | cons l ls ih =>
    intro e h
    unfold parseOneHot at h
    split at h
    · rename_i e' he
      obtain rfl := Except.error.inj h
      exact m.get_key l _ he
    · cases h
    · exact ih _ _ h

theorem parseAll_key {α β : Type} {p : α → Except PyErr β} {as : List α} (h : ∀ a ∈ as, KeyOnly p a) : KeyOnly (parseAll p) as := by
  induction as with
  | nil => intro e h; cases h
  | cons a as ih =>
    intro e he
    unfold parseAll at he
    split at he
    · rename_i e' h1
      obtain rfl := Except.error.inj he
      exact h a (by simp) _ h1
    · split at he
      · rename_i e' h1
        obtain rfl := Except.error.inj he
        exact ih (fun a ha => h a (by simp [ha])) _ h1
      · cases he

theorem repeatInst_mem {α : Type} {f : Nat → α × Nat} {n s : Nat} {a : α} (h : a ∈ (repeatInst f n s).1) : ∃ s', a = (f s').1 := by
  induction n generalizing s with
  | zero => cases h
  | succ n ih =>
    unfold repeatInst at h
    simp only [List.mem_cons] at h
    rcases h with h | h
    · exact ⟨s, h⟩
    · exact ih h

theorem parseNested_key {α β : Type} {f : Nat → α × Nat} {p : α → Except PyErr β} (h : ∀ s, KeyOnly p (f s).1) (shape : List Nat) (s : Nat) :
    KeyOnly (parseNested p shape) (nestedInst f shape s).1 := by
  induction shape generalizing s with
  | nil => exact h s
  | cons n shape ih =>
    refine parseAll_key fun a ha => ?_
    obtain ⟨s', rfl⟩ := repeatInst_mem ha
    exact ih s'

mutual
theorem Tmpl.parse_error (m : Mapping) : (t : Tmpl) → t.Proper → (s : Nat) → KeyOnly (t.parse m) (t.instantiate s).1
  | .bool, _, s => m.get_key _
  | .array c shape, hp, s => parseNested_key (fun s => c.parse_error m (by simpa [Tmpl.Proper] using hp) s) shape s
  | .manyHot _, _, _ => parseManyHot_key m 0 _
  | .oneHot _, _, _ => parseOneHot_key m 0 _
  | .number n sg, hp, s => by
    intro e h
    unfold Tmpl.parse at h
    split at h
    · rename_i e' he
      obtain rfl := Except.error.inj h
      exact m.getAll_key _ _ he
    · rename_i bs he
      exfalso
      have hl := Mapping.getAll_length he
      simp only [Tmpl.instantiate, nextMany_eq] at hl
      have hl : bs.length = n := hl.trans (freshLits_length s n)
      cases sg with
      | false => simp [readNumber] at h
      | true =>
        simp only [Tmpl.Proper] at hp
        unfold readNumber at h
        simp only [if_true] at h
        rw [if_pos (by omega)] at h
        split at h <;> cases h
  | .composite fs, hp, s => fs.parse_error m (by simpa [Tmpl.Proper] using hp) s
theorem TFields.parse_error (m : Mapping) : (fs : TFields) → fs.Proper → (s : Nat) → KeyOnly (fs.parse m) (fs.instantiate s).1
  | .nil, _, _ => by intro e h; cases h
  | .cons _ t rest, hp, s => by
    simp only [TFields.Proper] at hp
    intro e h
    unfold TFields.parse at h
    split at h
    · rename_i e' he
      obtain rfl := Except.error.inj h
      exact t.parse_error m hp.1 s _ he
    · split at h
      · rename_i e' he
        obtain rfl := Except.error.inj h
        exact rest.parse_error m hp.2 _ _ he
      · cases h
end

/-! ### Values as JSON -/

theorem nestedJson_shows {α β : Type} {R : α → β → Prop} {S : α → Json → Prop} {f : β → Json} (h : ∀ a b, R a b → S a (f b))
    (shape : List Nat) (a : Nested α shape) (b : Nested β shape) (hr : NestedRel R shape a b) :
    NestedShows S shape a (nestedJson f shape b) := by
  induction shape with
  | nil => exact h _ _ hr
  | cons n shape ih =>
    refine ⟨_, rfl, ?_⟩
    unfold NestedRel at hr
    exact List.forall₂_map_right_iff.2 (List.Forall₂.imp (fun a b hab => ih a b hab) hr)

mutual
theorem Tmpl.json_shows {v : Asg} : (t : Tmpl) → (i : t.Inst) → (x : t.Val) → t.Means v i x → t.Shows v i (t.json x)
  | .bool, _, _, h => by
    simp only [Tmpl.Means] at h
    simp only [Tmpl.Shows, Tmpl.json, h]
  | .array c shape, i, x, h => nestedJson_shows (fun a b hab => Tmpl.json_shows c a b hab) shape i x h
  | .manyHot _, i, x, h => ⟨x, rfl, h⟩
  | .oneHot _, i, none, h => Or.inl ⟨rfl, h⟩
  | .oneHot _, i, some k, h => Or.inr ⟨k, rfl, h⟩
  | .number _ _, _, _, h => by
    simp only [Tmpl.Means] at h
    simp only [Tmpl.Shows, Tmpl.json, h]
  | .composite fs, i, x, h => ⟨_, rfl, TFields.members_shows fs i x h⟩
theorem TFields.members_shows {v : Asg} : (fs : TFields) → (i : fs.Inst) → (x : fs.Val) → fs.Means v i x → fs.Shows v i (fs.members x)
  | .nil, _, _, _ => rfl
  | .cons _ t rest, i, x, h => ⟨_, _, rfl, Tmpl.json_shows t _ _ h.1, TFields.members_shows rest _ _ h.2⟩
end

theorem TFields.members_names : (fs : TFields) → (x : fs.Val) → (fs.members x).map Prod.fst = fs.names.map String.toList
  | .nil, _ => rfl
  | .cons _ t rest, x => by
    simp only [TFields.members, TFields.names, List.map_cons, TFields.members_names rest]

theorem nestedJson_ok {β : Type} {f : β → Json} (h : ∀ b, (f b).Ok) (shape : List Nat) (b : Nested β shape) :
    (nestedJson f shape b).Ok := by
  induction shape with
  | nil => exact h b
  | cons n shape ih =>
    unfold nestedJson Json.Ok
    rw [Json.okElems_iff]
    intro j hj
    obtain ⟨a, _, rfl⟩ := List.mem_map.1 hj
    exact ih a

theorem toList_injective : Function.Injective String.toList := fun _ _ h => String.toList_inj.1 h

mutual
theorem Tmpl.json_ok : (t : Tmpl) → t.Named → (x : t.Val) → (t.json x).Ok
  | .bool, _, _ => by simp [Tmpl.json, Json.Ok]
  | .array c shape, h, x => nestedJson_ok (fun b => Tmpl.json_ok c (by simpa [Tmpl.Named] using h) b) shape x
  | .manyHot _, _, x => by
    simp only [Tmpl.json, Json.Ok, Json.okElems_iff]
    intro j hj
    obtain ⟨n, _, rfl⟩ := List.mem_map.1 hj
    simp [Json.Ok]
  | .oneHot _, _, none => by simp [Tmpl.json, Json.Ok]
  | .oneHot _, _, some k => by simp [Tmpl.json, Json.Ok]
  | .number _ _, _, _ => by simp [Tmpl.json, Json.Ok]
  | .composite fs, h, x => by
    simp only [Tmpl.Named] at h
    simp only [Tmpl.json, Json.Ok, Json.okPairs_iff']
    refine ⟨?_, TFields.members_ok fs h.2 x⟩
    exact (congrArg List.Nodup (TFields.members_names fs x)).mpr (h.1.map toList_injective)
theorem TFields.members_ok : (fs : TFields) → fs.Named → (x : fs.Val) → ∀ e ∈ fs.members x, e.2.Ok
  | .nil, _, _ => by simp [TFields.members]
  | .cons _ t rest, h, x => by
    simp only [TFields.Named] at h
    simp only [TFields.members, List.mem_cons, forall_eq_or_imp]
    exact ⟨Tmpl.json_ok t h.1 _, TFields.members_ok rest h.2 _⟩
end

/-! ### Cells -/

theorem directionOf_json {v : Asg} {a b c d : Lit} {x : Option Nat} (h : FirstTrue v [a, b, c, d] x) :
    directionOf ((Tmpl.oneHot 4).json x) = .ok (firstDir fun e => ev v (byDir [a, b, c, d] e)) := by
  cases x with
  | none =>
    simp only [FirstTrue, List.mem_cons, List.not_mem_nil, or_false, forall_eq_or_imp, forall_eq] at h
    simp [Tmpl.json, directionOf, firstDir, Dir.all, byDir, Dir.value, h]
  | some k =>
    obtain ⟨⟨l, h1, h2⟩, h3⟩ := h
    have hk : k < 4 := by
      have := (List.getElem?_eq_some_iff.1 h1).1
      simpa using this
    interval_cases k
    · simp only [List.getElem?_cons_zero, Option.some.injEq] at h1
      subst h1
      simp [Tmpl.json, directionOf, Dir.ofInt, firstDir, Dir.all, byDir, Dir.value, h2]
    · simp only [List.getElem?_cons_succ, List.getElem?_cons_zero, Option.some.injEq] at h1
      subst h1
      have e0 := h3 0 a (by omega) rfl
      simp [Tmpl.json, directionOf, Dir.ofInt, firstDir, Dir.all, byDir, Dir.value, h2, e0]
    · simp only [List.getElem?_cons_succ, List.getElem?_cons_zero, Option.some.injEq] at h1
      subst h1
      have e0 := h3 0 a (by omega) rfl
      have e1 := h3 1 b (by omega) rfl
      simp [Tmpl.json, directionOf, Dir.ofInt, firstDir, Dir.all, byDir, Dir.value, h2, e0, e1]
    · simp only [List.getElem?_cons_succ, List.getElem?_cons_zero, Option.some.injEq] at h1
      subst h1
      have e0 := h3 0 a (by omega) rfl
      have e1 := h3 1 b (by omega) rfl
      have e2 := h3 2 c (by omega) rfl
      simp [Tmpl.json, directionOf, Dir.ofInt, firstDir, Dir.all, byDir, Dir.value, h2, e0, e1, e2]

theorem cellGet_here (name : String) (v : Json) (rest : Fields) : cellGet ((name.toList, v) :: rest) name = .ok v := by
  simp [cellGet, PyDict.get]

theorem cellGet_skip {name' name : String} (h : name' ≠ name) (v : Json) (rest : Fields) :
    cellGet ((name'.toList, v) :: rest) name = cellGet rest name := by
  unfold cellGet
  rw [PyDict.get, if_neg fun e => h (toList_injective e)]

/-- `read_tile` on a cell with the members it asks for. -/
theorem readParsed_of {o : Fields} {input output : Option Dir} {i j : Json} {cell : CellVal} (g1 : cellGet o "input_direction" = .ok i)
    (g2 : cellGet o "output_direction" = .ok j) (hi : directionOf i = .ok input) (ho : directionOf j = .ok output)
    (h1 : cellGet o "is_belt" = .ok (.bool cell.isBelt)) (h2 : cellGet o "is_empty" = .ok (.bool cell.isEmpty))
    (h3 : cellGet o "is_splitter" = .ok (.bool cell.isSplitter)) (h4 : cellGet o "is_underground_in" = .ok (.bool cell.isUgIn))
    (h5 : cellGet o "is_underground_out" = .ok (.bool cell.isUgOut)) (h6 : cellGet o "is_splitter_head" = .ok (.bool cell.isHead))
    (hin : firstDir cell.inp = input) (hout : firstDir cell.out = output) : readParsed o = readTile cell := by
  unfold readParsed readTile
  rw [g1, g2, h1, h2, h3, h4, h5, h6, hin, hout]
  simp only [bind, Except.bind, hi, ho, truthOf]
  generalize cell.isBelt = b1
  generalize cell.isEmpty = b2
  generalize cell.isSplitter = b3
  generalize cell.isUgIn = b4
  generalize cell.isUgOut = b5
  cases b3 <;> cases b2 <;> cases b4 <;> cases b5 <;> cases b1 <;> cases input <;> cases output <;> rfl

/-- `read_tile` on the members of a tile instance. -/
theorem readParsed_members {colours : Option Nat} {extras : TFields} {v : Asg} {s : Nat} {x : (gridFields colours extras).Val}
    (h : (gridFields colours extras).Means v ((gridFields colours extras).instantiate s).1 x) :
    readParsed ((gridFields colours extras).members x) =
      readTile (evalTile v (toTileInst colours extras ((gridFields colours extras).instantiate s).1)) := by
  cases colours <;>
  · obtain ⟨h1, h2, h3, h4, h5, h6, _, _, h9, h10, _⟩ := h
    simp only [Tmpl.Means] at h1 h2 h3 h4 h5 h6
    have h9 := directionOf_json h9
    have h10 := directionOf_json h10
    refine readParsed_of (i := _) (j := _) ?_ ?_ h9 h10 ?_ ?_ ?_ ?_ ?_ ?_ rfl rfl
    all_goals
      unfold gridFields
      simp only [TFields.members]
      repeat rw [cellGet_skip (by decide)]
      rw [cellGet_here]
    · exact congrArg (fun b => Except.ok (Json.bool b)) h1
    · exact congrArg (fun b => Except.ok (Json.bool b)) h2
    · exact congrArg (fun b => Except.ok (Json.bool b)) h3
    · exact congrArg (fun b => Except.ok (Json.bool b)) h4
    · exact congrArg (fun b => Except.ok (Json.bool b)) h5
    · exact congrArg (fun b => Except.ok (Json.bool b)) h6

end FSat
