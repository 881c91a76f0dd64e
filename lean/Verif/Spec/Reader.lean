import Verif.Model.Reader

/-!
# Specification vocabulary for readers
-/
namespace Chopper.Spec
open Chopper

/-- What a client can do with a buffered reader: read into a buffer of `n` bytes, or look at the buffered bytes (`fill_buf`), use up to
`amt` of them and `consume` those. -/
inductive ReadOp where
  | read (n : Nat)
  | fillConsume (amt : Nat)
deriving DecidableEq, Repr

/-- The number of bytes asked for. -/
def ReadOp.asks : ReadOp → Nat
  | .read n => n
  | .fillConsume amt => amt

/-- One client operation: the bytes the client got. -/
def ReadOp.run : ReadOp → BufReader → Res (List Byte) × BufReader
  | .read n, r => r.read n
  | .fillConsume amt, r =>
    match r.fillBuf with
    | (.ok rem, r') => (.ok (rem.take amt), r'.consume amt)
    | (e, r') => (e, r')

/-- A sequence of client operations, going on after errors: all answers. -/
def runOps : List ReadOp → BufReader → List (Res (List Byte)) × BufReader
  | [], r => ([], r)
  | op :: ops, r =>
    let (a, r') := op.run r
    let (as, r'') := runOps ops r'
    (a :: as, r'')

/-- All bytes delivered by a sequence of answers, in order. -/
def deliveredBytes : List (Res (List Byte)) → List Byte
  | [] => []
  | .ok bs :: as => bs ++ deliveredBytes as
  | _ :: as => deliveredBytes as

/-- The underlying reader may report this error: now and then, or in place of the end of file. -/
def CanFail (r : Inner) (e : IoKind) : Prop := ReadStep.fail e ∈ r.sched ∨ r.ending = some e

/-- The underlying reader reports no error. -/
def NoFail (r : Inner) : Prop := ∀ e, ¬ CanFail r e

/-- `bs` consists of the given pieces, each followed by a newline, and an unterminated rest; no newline inside pieces and rest. -/
def IsLines (bs : List Byte) (pieces : List (List Byte)) (rest : List Byte) : Prop :=
  bs = pieces.flatMap (· ++ [10]) ++ rest ∧ (∀ p ∈ pieces, (10 : Byte) ∉ p) ∧ (10 : Byte) ∉ rest

/-- A line without one trailing carriage return. -/
def dropCr (line : List Byte) : List Byte := if line.getLast? = some 13 then line.dropLast else line

/-- The texts whose UTF-8 encodings are the given byte sequences; `none` if one of them is not valid UTF-8. -/
def decodeAll : List (List Byte) → Option (List Str)
  | [] => some []
  | l :: ls => match utf8Decode l with
    | some s => (decodeAll ls).map (s :: ·)
    | none => none

end Chopper.Spec
