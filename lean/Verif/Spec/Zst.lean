import Verif.Model.Zst
import Verif.Spec.Reader

/-!
# Specification vocabulary for zstd input
-/
namespace Chopper.Spec
open Chopper

/-- Successive `read` calls with buffers of the given sizes, going on after errors: all answers. -/
def answers {σ : Type} (read : σ → Nat → Res (List Byte) × σ) : List Nat → σ → List (Res (List Byte))
  | [], _ => []
  | n :: ns, s => (read s n).1 :: answers read ns (read s n).2

/-- What a frame holds. -/
def ZstFrame.content (f : ZstFrame) : List Byte := f.blocks.flatten

/-- The reader that holds exactly these bytes and always delivers as many as fit. -/
def plainReader (bs : List Byte) : Inner := ⟨bs, [], none⟩

end Chopper.Spec
