import Verif.Spec.Graph

/-!
# Specification vocabulary for cycles in a graph
-/
namespace Chopper.Spec
open Chopper

variable {S : Type}

/-- Some merge or split in chain `c` sends rows to chain `d`. -/
inductive Leads (chains : List (DChain S)) (c d : Nat) : Prop
  | merge {ch} : chains[c]? = some ch → DNode.merge d ∈ ch → Leads chains c d
  | split {ch ds} : chains[c]? = some ch → DNode.split ds ∈ ch → d ∈ ds → Leads chains c d

/-- Following one or more merges and splits leads from chain `c` to chain `d`. -/
inductive LeadsOn (chains : List (DChain S)) : Nat → Nat → Prop
  | one {c d} : Leads chains c d → LeadsOn chains c d
  | more {c d e} : Leads chains c d → LeadsOn chains d e → LeadsOn chains c e

/-- Chain `c` leads to a chain that leads back to itself (possibly `c` itself). -/
def Loops (chains : List (DChain S)) (c : Nat) : Prop :=
  ∃ d, (c = d ∨ LeadsOn chains c d) ∧ LeadsOn chains d d

/-- Chain `c` and every chain it leads to exist. -/
def AllThere (chains : List (DChain S)) (c : Nat) : Prop :=
  c < chains.length ∧ ∀ d, LeadsOn chains c d → d < chains.length

/-- A sink whose calls all succeed. -/
def NeverFails (ops : SinkOps S) : Prop :=
  (∀ s r, ∃ s' rows, ops.write s r = (s', .ok rows)) ∧ ∀ s, ∃ s', ops.flush s = (s', .ok ())

end Chopper.Spec
