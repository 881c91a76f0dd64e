import Verif.Spec.MultiFile
import Verif.Model.Input

/-! # Directories as inputs: vocabulary -/
namespace Chopper.Spec
open Chopper

/-- The directory `dir` holds exactly the files `paths`, named here in the order of their names; there may be sub-directories and entries that cannot be read, in whatever order they are listed. -/
structure DirHolds (w : World) (dir : Str) (paths : List Str) : Prop where
  isDir : w.isDir (utf8Encode dir) = true
  entries : ∃ entries, w.listing (utf8Encode dir) = some entries ∧ (paths.map utf8Encode).Perm ((entries.filterMap id).filter fun e => !w.isDir e)
  order : (paths.map utf8Encode).Pairwise PathBefore

end Chopper.Spec
