import Verif.Spec.CsvRead
import Verif.Model.Infistream

/-!
# Specification of the endless CSV streams (C99)
-/
namespace Chopper.Spec
open Chopper

/-- The first `n` chunks of a stream that is asked `n` times, and its state then. -/
def pollTimes {σ : Type} (poll : σ → Res (List Byte × σ)) : Nat → σ → Res (List (List Byte) × σ)
  | 0, s => .ok ([], s)
  | n + 1, s => (poll s).bind fun (c, s') => (pollTimes poll n s').bind fun (cs, s'') => .ok (c :: cs, s'')

/-- Line `i`: the number itself, then the number after `a`, `b`, …, `f`. -/
def counterLine (i : Nat) : List Str := decimal i :: ['a', 'b', 'c', 'd', 'e', 'f'].map (· :: decimal i)

/-- The first `n` lines. -/
def counterLines (n : Nat) : List (List Str) := (List.range n).map counterLine

/-- The row of line `i`, if its time is counted in units `u`. -/
def counterRow (u : TimestampUnits) (i : Nat) : Row := ⟨BitVec.ofNat 64 (i * nanosPer u), (counterLine i).map .string⟩

/-- What a gzip encoder puts out when it is given these texts one after the other, one call each, whatever part of them it takes. -/
def Encodes {σ : Type} (gz : GzLib σ) : σ → List (List Byte) → List (List Byte) → Prop
  | _, [], outs => outs = []
  | s, t :: ts, outs => ∃ n s' o more, gz.write s t = some (n, s', o) ∧ outs = o :: more ∧ Encodes gz s' ts more

end Chopper.Spec
