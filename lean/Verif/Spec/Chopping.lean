import Verif.Spec.Cli
import Verif.Spec.CsvRead

/-!
# The same content, read and written in different pieces
-/
namespace Chopper.Spec
open Chopper

/-- Two readers of the same bytes that end in the same way (end of file, or the same error in its place); no call fails before. How many bytes each call delivers is left
open. -/
structure SameContent (i1 i2 : Inner) : Prop where
  data : i1.data = i2.data
  ending : i1.ending = i2.ending
  noFail1 : ∀ e, ReadStep.fail e ∉ i1.sched
  noFail2 : ∀ e, ReadStep.fail e ∉ i2.sched

/-- Both absent, or both there and related. -/
inductive Both {α : Type} (R : α → α → Prop) : Option α → Option α → Prop
  | none : Both R none none
  | some {x y : α} (h : R x y) : Both R (some x) (some y)

/-- The same failure, or results that are related. -/
inductive SameRes {α : Type} (R : α → α → Prop) : Res α → Res α → Prop
  | ok {x y : α} (h : R x y) : SameRes R (.ok x) (.ok y)
  | err (e : Err) : SameRes R (.err e) (.err e)
  | panic : SameRes R .panic .panic
  | diverge : SameRes R .diverge .diverge

/-- Two worlds with the same files, directories, pages and standard input, which may be delivered in different pieces. -/
structure SameWorld (w1 w2 : World) : Prop where
  pathExists : w1.pathExists = w2.pathExists
  isDir : w1.isDir = w2.isDir
  listing : w1.listing = w2.listing
  file : ∀ p, Both SameContent (w1.file p) (w2.file p)
  http : ∀ u, SameRes SameContent (w1.http u) (w2.http u)
  stdin : SameContent w1.stdin w2.stdin

/-- Two output devices that hold the same bytes and never fail; how many bytes each call takes is left open. -/
structure SameDevice (d1 d2 : Device) : Prop where
  taken : d1.taken = d2.taken
  reliable1 : Reliable d1
  reliable2 : Reliable d2

/-- The same places for output. -/
structure SameOut (o1 o2 : OutWorld) : Prop where
  create : ∀ p, Both SameDevice (o1.create p) (o2.create p)
  stdout : SameDevice o1.stdout o2.stdout

/-- Buffered readers with the same bytes to come, equally many of them buffered already, the same end, and no failing calls before it. -/
structure SameReader (r1 r2 : BufReader) : Prop where
  bytes : stillToCome r1 = stillToCome r2
  ahead : r1.cap - r1.pos = r2.cap - r2.pos
  ending : r1.inner.ending = r2.inner.ending
  noFail1 : ∀ e, ReadStep.fail e ∉ r1.inner.sched
  noFail2 : ∀ e, ReadStep.fail e ∉ r2.inner.sched
  sane1 : r1.pos ≤ r1.cap ∧ r1.cap ≤ r1.buf.length
  sane2 : r2.pos ≤ r2.cap ∧ r2.cap ≤ r2.buf.length

/-- What is assumed of the csv library: what it makes of a reader depends on its bytes only, not on the pieces they come in. -/
def CsvByContent (csv : CsvLib) : Prop := ∀ d hh r1 r2, SameReader r1 r2 → csv.parse d hh r1 = csv.parse d hh r2

/-- The same of the decoders. -/
structure DecodeByContent (dec : Decoders) : Prop where
  gz : ∀ r1 r2, SameReader r1 r2 → SameContent (dec.gz r1) (dec.gz r2)
  lzf : ∀ r1 r2, SameReader r1 r2 → SameContent (dec.lzf r1) (dec.lzf r2)
  lz4Block : ∀ r1 r2, SameReader r1 r2 → SameContent (dec.lz4Block r1) (dec.lz4Block r2)
  lz4Frame : ∀ r1 r2, SameReader r1 r2 → Both SameContent (dec.lz4Frame r1) (dec.lz4Frame r2)
  zst : ∀ r1 r2, SameReader r1 r2 → Both SameContent (dec.zst r1) (dec.zst r2)

end Chopper.Spec
