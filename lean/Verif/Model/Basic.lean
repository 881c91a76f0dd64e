/-!
# Outcomes, errors, bytes, text

Shared vocabulary of the model of octoske/chopper.
-/
namespace Chopper

/-- One byte (`u8`). -/
abbrev Byte := BitVec 8

/-- A Rust `String`/`&str` as its sequence of Unicode scalar values.  Byte lengths are computed with
`Chopper.utf8Len`/`Chopper.utf8Encode` where the code depends on them. -/
abbrev Str := List Char

/-- `std::io::ErrorKind`, only the kinds the code distinguishes.
Models the uses in `/repo/src/error.rs:35,112`, `/repo/src/util/file.rs:33-36`,
`/repo/src/decompress/crc32.rs:30-34`. -/
inductive IoKind where
  | brokenPipe | unexpectedEof | invalidData | other
deriving DecidableEq, Repr

/-- `crate::error::Error`.  Models `/repo/src/error.rs:20-27`.
Simplification: the payloads of the foreign error types (clap, csv, chrono) are dropped, the message of a
`Custom` error is kept as a Lean string. -/
inductive Err where
  | cliParsing
  | csv
  | io (kind : IoKind)
  | timeParsing
  | custom (msg : String)
deriving DecidableEq, Repr

/-- The outcome of running a piece of Rust code returning `CliResult<α>`:
`ok` / `Err` / panic (or the `process::exit` of `/repo/src/error.rs:31-41` out of a comparison) /
did not finish within the fuel (only for the functions that recurse through a possibly cyclic graph). -/
inductive Res (α : Type) where
  | ok (a : α)
  | err (e : Err)
  | panic
  | diverge
deriving DecidableEq, Repr

namespace Res

/-- Rust's `?` (for `err`) and unwinding (for `panic`). -/
@[inline] def bind {α β} : Res α → (α → Res β) → Res β
  | ok a, f => f a
  | err e, _ => err e
  | panic, _ => panic
  | diverge, _ => diverge

@[inline] def map {α β} (f : α → β) : Res α → Res β
  | ok a => ok (f a)
  | err e => err e
  | panic => panic
  | diverge => diverge

instance : Monad Res where
  pure := ok
  bind := bind

/-- `Option::unwrap` / slice indexing: `None` panics. -/
def unwrap {α} : Option α → Res α
  | some a => ok a
  | none => panic

/-- `Option::ok_or`. -/
def okOr {α} (e : Err) : Option α → Res α
  | some a => ok a
  | none => err e

def isOk {α} : Res α → Bool
  | ok _ => true
  | _ => false

@[simp] theorem bind_ok {α β} (a : α) (f : α → Res β) : bind (ok a) f = f a := rfl
@[simp] theorem bind_err {α β} (e : Err) (f : α → Res β) : bind (err e) f = err e := rfl
@[simp] theorem bind_panic {α β} (f : α → Res β) : bind panic f = panic := rfl
@[simp] theorem bind_diverge {α β} (f : α → Res β) : bind diverge f = diverge := rfl
@[simp] theorem bind_eq {α β} (x : Res α) (f : α → Res β) : (x >>= f) = bind x f := rfl
@[simp] theorem pure_eq {α} (a : α) : (pure a : Res α) = ok a := rfl
@[simp] theorem unwrap_some {α} (a : α) : unwrap (some a) = ok a := rfl
@[simp] theorem unwrap_none {α} : unwrap (none : Option α) = panic := rfl

theorem bind_eq_ok {α β} {x : Res α} {f : α → Res β} {b : β} :
    bind x f = ok b ↔ ∃ a, x = ok a ∧ f a = ok b := by
  cases x <;> simp

theorem bind_assoc {α β γ} (x : Res α) (f : α → Res β) (g : β → Res γ) :
    bind (bind x f) g = bind x (fun a => bind (f a) g) := by
  cases x <;> rfl

end Res

end Chopper
