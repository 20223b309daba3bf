import Verif.Model.NetworkMain
import Verif.Model.Commands
/-!
# Model of `factorio_sat/network.py`: the files of `network create`, `flip` and `parse`

The files are opened by argparse (`argparse.FileType`) while it reads the command line, one after the other in the order of the arguments;
opening a file for writing empties it.  A path stands for one file (no links), is not `-` (standard input or output), and can be written.
-/

namespace FSat

/-- The contents of the files; `none` if there is no such file. -/
abbrev Files := List Char → Option (List Char)

/-- The file `p` has the given contents. -/
def Files.write (fs : Files) (p : List Char) (text : List Char) : Files := fun q => if q = p then some text else fs q

/-- `open(p, 'w')`: the file is there, and empty. -/
def Files.create (fs : Files) (p : List Char) : Files := fs.write p []

/-- How a command ends: normally, with a message of argparse about its arguments, with an exception, or waiting for input that does not
come (`EOFError`). -/
inductive NetEnding
  | ok
  | usage
  | raised (e : PyErr)
  | noInput
deriving DecidableEq, Repr

/-- network.py:689-712: the command line.  The size is text that argparse converts with `int`. -/
inductive NetCommand
  | create (network size : List Char)
  | flip (input output : List Char)
  | parse (output : List Char) (assume : Bool)

/-- The file that the command writes. -/
def NetCommand.output : NetCommand → List Char
  | .create network _ => network
  | .flip _ output => output
  | .parse output _ => output

/-- The text is written to the file that was opened for it, or an exception leaves it as it was when opened. -/
def finish (fs : Files) (p : List Char) : Except PyErr (List Char) → Files × NetEnding
  | .ok text => (fs.write p text, .ok)
  | .error e => (fs, .raised e)

/-- network.py:686-755 `main`, modes `create` (693-695, 717-724), `flip` (701-703, 744-755) and `parse` (710-712, 731-743), with what is on
standard input.  The orders are those in which Python goes through its sets. -/
def networkMain (ord : Nat → List Colour → List Colour) (ordP : List (Int × Int) → List (Int × Int)) (ordT : List Colour → List Colour)
    (fs : Files) (stdin : List Char) : NetCommand → Files × NetEnding
  | .create network size =>
    let fs := fs.create network
    match intOf size with
    | .error _ => (fs, .usage)
    | .ok size => finish fs network (networkCreate ord size)
  | .flip input output =>
    match fs input with
    | none => (fs, .usage)
    | some _ =>
      let fs := fs.create output
      finish fs output (networkFlip ((fs input).getD []))
  | .parse output assume =>
    let fs := fs.create output
    match networkParse ordP ordT assume stdin with
    | none => (fs, .noInput)
    | some r => finish fs output r

end FSat
