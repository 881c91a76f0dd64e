import Verif.Model.Basic

/-!
# `RemoveMultiple` (`/repo/src/util/remove_multiple.rs`)
-/
namespace Chopper

/-- `slice[a..b].rotate_left(k)`: slicing panics unless `a ≤ b ≤ len`, `rotate_left` panics unless `k` is at most the length of the
slice. -/
def rotateRange {α : Type} (l : List α) (a b k : Nat) : Res (List α) :=
  if a ≤ b ∧ b ≤ l.length ∧ k ≤ b - a then
    let seg := (l.drop a).take (b - a)
    .ok (l.take a ++ (seg.drop k ++ seg.take k) ++ l.drop b)
  else .panic

/-- The loop and the final steps of `remove_multiple` (`/repo/src/util/remove_multiple.rs:19-26`): `prev` is `prev_index`, `removed` is
`removed_count`. An underflow of `prev_index - (removed_count - 1)` is a panic (in a build without overflow checks it wraps to a huge
start index, which panics in the slicing). -/
def removeLoop {α : Type} (slice : List α) (prev removed : Nat) : List Nat → Res (List α)
  | cur :: rest =>
    if prev < removed - 1 then .panic
    else (rotateRange slice (prev - (removed - 1)) cur removed).bind fun slice => removeLoop slice cur (removed + 1) rest
  | [] =>
    if prev < removed - 1 then .panic
    else (rotateRange slice (prev - (removed - 1)) slice.length removed).bind fun slice =>
      if slice.length < removed then .panic else .ok (slice.take (slice.length - removed))

/-- `remove_multiple` (`/repo/src/util/remove_multiple.rs:10-27`). -/
def removeMultiple {α : Type} (l : List α) (indices : List Nat) : Res (List α) :=
  match indices with
  | [] => .ok l
  | i :: rest => removeLoop l i 1 rest

end Chopper
