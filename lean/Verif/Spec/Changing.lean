import Verif.Model.Changing

/-!
# Inputs that change while the program runs: the specification
-/
namespace Chopper.Spec
open Chopper

/-- `w` and `w'` have the same at this path: nothing, or a file with the same content, read in the same pieces; and, should it be an address, the same page. -/
def SameAt (w w' : World) (p : Path) : Prop :=
  w.pathExists p = w'.pathExists p ∧ w.file p = w'.file p ∧ ∀ s, utf8Encode s = p → w.http s = w'.http s

/-- There is a zip archive at this path, or at least something that begins like one. -/
def ZipThere (w : World) (p : Path) : Prop := w.pathExists p = true ∧ ∃ inner, w.file p = some inner ∧ [0x50, 0x4b, 3, 4] <+: inner.data

/-- There is something at this path that cannot be opened. -/
def Closed (w : World) (p : Path) : Prop := w.pathExists p = true ∧ w.file p = none

/-- In `w` the path is as it was at the moment that counts: when it was tested, if it was a zip archive or could not be opened then; otherwise when it was opened for reading, provided it was
no zip archive at that time. -/
def AsItWas (w check stream : World) (p : Path) : Prop :=
  ((ZipThere check p ∨ Closed check p) ∧ SameAt w check p) ∨ (¬ ZipThere check p ∧ ¬ Closed check p ∧ ¬ ZipThere stream p ∧ SameAt w stream p)

/-- The files of a directory in the order of their paths, as they are listed. -/
def Listed (w : World) (dir : Path) (paths : List Path) : Prop := filesInDir w.isDir (w.listing dir) = .ok paths

/-- In the world `w`, which does not change, the input is as it was at the moments it was looked at. -/
def ShowsInput (w : World) (hist : History) (i : Input) : Prop :=
  match i.input with
  | .stdIn => w.stdin = (hist 0).stdin
  | .path s =>
    w.isDir (utf8Encode s) = (hist 0).isDir (utf8Encode s) ∧
    (if w.isDir (utf8Encode s) then
      filesInDir w.isDir (w.listing (utf8Encode s)) = filesInDir (hist 1).isDir ((hist 1).listing (utf8Encode s)) ∧
      ∀ paths, Listed (hist 1) (utf8Encode s) paths → ∀ (k : Nat) p, paths[k]? = some p → AsItWas w (hist (2 + 2 * k)) (hist (3 + 2 * k)) p
    else AsItWas w (hist 2) (hist 3) (utf8Encode s))

/-- In `w` every path is as it was at one of the moments. -/
def FromHistory (w : World) (hist : History) : Prop := ∀ p, ∃ n, SameAt w (hist n) p

/-- The path became a zip archive between the test and the opening for reading. -/
def TurnedZip (check stream : World) (p : Path) : Prop := ¬ ZipThere check p ∧ ¬ Closed check p ∧ ZipThere stream p

/-- No file of the input became a zip archive between the two moments when it was looked at. -/
def NoneTurned (hist : History) (i : Input) : Prop :=
  match i.input with
  | .stdIn => True
  | .path s =>
    if (hist 0).isDir (utf8Encode s) then
      ∀ paths, Listed (hist 1) (utf8Encode s) paths → ∀ (k : Nat) p, paths[k]? = some p → ¬ TurnedZip (hist (2 + 2 * k)) (hist (3 + 2 * k)) p
    else ¬ TurnedZip (hist 2) (hist 3) (utf8Encode s)

/-- What file systems promise of the listing of a directory: no name twice, and the directory is not its own entry. -/
def ProperListing (w : World) (dir : Path) : Prop := ∀ entries, w.listing dir = some entries → entries.Nodup ∧ some dir ∉ entries

end Chopper.Spec
