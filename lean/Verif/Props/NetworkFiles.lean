import Verif.Model.NetworkFiles
import Verif.Props.ReverseFlow
/-!
# C100: the files that the network commands write
-/

namespace FSat

variable (ord : Nat → List Colour → List Colour) (ordP : List (Int × Int) → List (Int × Int)) (ordT : List Colour → List Colour)

theorem write_other {fs : Files} {p q : List Char} (h : q ≠ p) (text : List Char) : fs.write p text q = fs q := if_neg h

theorem finish_other {fs : Files} {p q : List Char} (h : q ≠ p) (r : Except PyErr (List Char)) : (finish fs p r).1 q = fs q := by
  cases r with
  | ok text => exact write_other h text
  | error e => rfl

/-- C100: a command changes no file but the one it is told to write. -/
theorem c100_others (fs : Files) (stdin : List Char) (cmd : NetCommand) (q : List Char) (h : q ≠ cmd.output) :
    (networkMain ord ordP ordT fs stdin cmd).1 q = fs q := by
  cases cmd with
  | create network size =>
    unfold networkMain
    dsimp only
    split
    · exact write_other h []
    · exact (finish_other h _).trans (write_other h [])
  | flip input output =>
    unfold networkMain
    dsimp only
    split
    · rfl
    · exact (finish_other h _).trans (write_other h [])
  | parse output assume =>
    unfold networkMain
    dsimp only
    split
    · exact write_other h []
    · exact (finish_other h _).trans (write_other h [])

theorem finish_ok {fs : Files} {p : List Char} {r : Except PyErr (List Char)} : (finish fs p r).2 = .ok ↔ ∃ text, r = .ok text := by
  cases r with
  | ok text => exact ⟨fun _ => ⟨text, rfl⟩, fun _ => rfl⟩
  | error e => exact ⟨nofun, nofun⟩

/-- C100, partial: if `create`, `parse`, or `flip` with two different files ends normally, then the output file has the text that the
command computes from its arguments and from what its input was before.  `c100_same_refuted`: for `flip` with the same file twice this
is false. -/
theorem c100_written_partial (fs : Files) (stdin : List Char) :
    (∀ p size, (networkMain ord ordP ordT fs stdin (.create p size)).2 = .ok → ∃ n text, intOf size = .ok n ∧ networkCreate ord n = .ok text ∧
      (networkMain ord ordP ordT fs stdin (.create p size)).1 p = some text) ∧
    (∀ p q, p ≠ q → (networkMain ord ordP ordT fs stdin (.flip p q)).2 = .ok → ∃ old text, fs p = some old ∧ networkFlip old = .ok text ∧
      (networkMain ord ordP ordT fs stdin (.flip p q)).1 q = some text) ∧
    ∀ p assume, (networkMain ord ordP ordT fs stdin (.parse p assume)).2 = .ok → ∃ text, networkParse ordP ordT assume stdin = some (.ok text) ∧
      (networkMain ord ordP ordT fs stdin (.parse p assume)).1 p = some text := by
  refine ⟨fun p size h => ?_, fun p q hpq h => ?_, fun p assume h => ?_⟩
  · unfold networkMain at h ⊢
    dsimp only at h ⊢
    cases e : intOf size with
    | error _ => rw [e] at h; cases h
    | ok n =>
      rw [e] at h
      obtain ⟨text, ht⟩ := finish_ok.1 h
      exact ⟨n, text, rfl, ht, by dsimp only; rw [ht]; exact if_pos rfl⟩
  · unfold networkMain at h ⊢
    dsimp only at h ⊢
    cases e : fs p with
    | none => rw [e] at h; cases h
    | some old =>
      rw [e] at h
      have e1 : (fs.create q) p = some old := (write_other hpq []).trans e
      dsimp only at h ⊢
      rw [e1] at h ⊢
      obtain ⟨text, ht⟩ := finish_ok.1 h
      exact ⟨old, text, rfl, ht, by rw [show (some old).getD [] = old from rfl] at ht ⊢; rw [ht]; exact if_pos rfl⟩
  · unfold networkMain at h ⊢
    dsimp only at h ⊢
    cases e : networkParse ordP ordT assume stdin with
    | none => rw [e] at h; cases h
    | some r =>
      rw [e] at h
      obtain ⟨text, ht⟩ := finish_ok.1 h
      exact ⟨text, by rw [ht], by dsimp only; rw [ht]; exact if_pos rfl⟩

/-- C100, partial: when a command fails, its output file is as it was only if the file had not been opened yet, because the input file of
`flip` is missing, or if it was empty.  In all other cases it is empty afterwards: the property asks that it is kept. -/
theorem c100_failed_partial (fs : Files) (stdin : List Char) (cmd : NetCommand) (h : (networkMain ord ordP ordT fs stdin cmd).2 ≠ .ok) :
    (networkMain ord ordP ordT fs stdin cmd).1 cmd.output =
      match cmd with
      | .flip input output => if fs input = none then fs output else some []
      | _ => some [] := by
  have fin : ∀ (fs : Files) p r, (finish (fs.create p) p r).2 ≠ .ok → (finish (fs.create p) p r).1 p = some [] := by
    intro fs p r hr
    cases r with
    | ok text => exact absurd rfl hr
    | error e => exact if_pos rfl
  cases cmd with
  | create network size =>
    unfold networkMain at h ⊢
    dsimp only [NetCommand.output] at h ⊢
    split
    · exact if_pos rfl
    · rename_i n e
      rw [e] at h
      exact fin fs network _ h
  | flip input output =>
    unfold networkMain at h ⊢
    dsimp only [NetCommand.output] at h ⊢
    cases e : fs input with
    | none => rfl
    | some old =>
      rw [e] at h
      exact fin fs output _ h
  | parse output assume =>
    unfold networkMain at h ⊢
    dsimp only [NetCommand.output] at h ⊢
    split
    · exact if_pos rfl
    · rename_i r e
      rw [e] at h
      exact fin fs output r h

/-- C100: `network flip` with the same file for input and output empties the file, whatever it held, and reports success. -/
theorem c100_same_refuted (fs : Files) (stdin p old : List Char) (h : fs p = some old) :
    (networkMain ord ordP ordT fs stdin (.flip p p)).2 = .ok ∧ (networkMain ord ordP ordT fs stdin (.flip p p)).1 p = some [] := by
  have e : (fs.create p) p = some [] := if_pos rfl
  have e2 : networkFlip [] = .ok [] := by decide +kernel
  unfold networkMain
  dsimp only
  rw [h]
  dsimp only
  rw [e]
  show (finish _ _ (networkFlip [])).2 = .ok ∧ (finish _ _ (networkFlip [])).1 p = some []
  rw [e2]
  exact ⟨rfl, if_pos rfl⟩

/-- C100: whenever `network create` fails, the contents of the file are lost; it fails for a size that is too small and for text that is no
number.  So does `network parse` without input. -/
theorem c100_failed_refuted (fs : Files) (stdin p old : List Char) (h : fs p = some old) (hne : old ≠ []) :
    (∀ size, (networkMain ord ordP ordT fs stdin (.create p size)).2 ≠ .ok →
      (networkMain ord ordP ordT fs stdin (.create p size)).1 p ≠ some old) ∧
    (networkMain ord ordP ordT fs stdin (.create p ['1'])).2 = .raised .runtimeError ∧
    (networkMain ord ordP ordT fs stdin (.create p ['x'])).2 = .usage ∧
    ∀ assume, (networkMain ord ordP ordT fs [] (.parse p assume)).2 = .noInput ∧
      (networkMain ord ordP ordT fs [] (.parse p assume)).1 p = some [] := by
  refine ⟨fun size hs => ?_, ?_, ?_, fun assume => ?_⟩
  · have := c100_failed_partial ord ordP ordT fs stdin (.create p size) hs
    dsimp only [NetCommand.output] at this
    rw [this]
    exact fun hx => hne (Option.some.inj hx).symm
  · have : intOf ['1'] = .ok 1 := by decide +kernel
    unfold networkMain
    dsimp only
    rw [this]
    rfl
  · have : intOf ['x'] = .error .valueError := by decide +kernel
    unfold networkMain
    dsimp only
    rw [this]
  · have hn : networkParse ordP ordT assume [] = none := by
      unfold networkParse
      rw [show inputLines [] = [] by decide +kernel]
    unfold networkMain
    dsimp only
    rw [hn]
    exact ⟨rfl, if_pos rfl⟩

/-- The hypotheses can be met: reversing one splitter into another file, and into the same. -/
example : ∃ fs : Files, fs ['a'] = some "0 0 1 1\n".toList ∧ fs ['b'] = none ∧
    (networkMain (fun _ l => l) id id fs [] (.flip ['a'] ['b'])).2 = .ok ∧
    (networkMain (fun _ l => l) id id fs [] (.flip ['a'] ['b'])).1 ['b'] = some "1 1 0 0\n".toList ∧
    (networkMain (fun _ l => l) id id fs [] (.flip ['a'] ['b'])).1 ['a'] = some "0 0 1 1\n".toList ∧
    (networkMain (fun _ l => l) id id fs [] (.flip ['b'] ['a'])).2 = .usage :=
  ⟨fun q => if q = ['a'] then some "0 0 1 1\n".toList else none, by decide +kernel, by decide +kernel, by decide +kernel, by decide +kernel,
    by decide +kernel, by decide +kernel⟩

end FSat
