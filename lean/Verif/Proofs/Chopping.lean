import Verif.Spec.Chopping
import Verif.Proofs.Input2
import Verif.Proofs.Cli3

/-!
# The pieces reads and writes come in do not matter
-/
namespace Chopper
open Spec

theorem read_noFail (r : Inner) (n : Nat) (hs : ∀ e, ReadStep.fail e ∉ r.sched) (hd : r.data ≠ []) (hn : 0 < n) :
    ∃ bs r', r.read n = (.ok bs, r') ∧ bs ≠ [] ∧ bs ++ r'.data = r.data ∧ bs.length ≤ n ∧ ∀ e, ReadStep.fail e ∉ r'.sched := by
  have key : ∀ m s, 0 < m → m ≤ n → (∀ e, ReadStep.fail e ∉ s) →
      ∃ bs r', r.deliver m s = (.ok bs, r') ∧ bs ≠ [] ∧ bs ++ r'.data = r.data ∧ bs.length ≤ n ∧ ∀ e, ReadStep.fail e ∉ r'.sched := by
    intro m s hm hmn hs'
    have hne : r.data.take m ≠ [] := by
      intro h0
      rcases List.take_eq_nil_iff.1 h0 with h | h
      · omega
      · exact hd h
    unfold Inner.deliver
    cases r.ending with
    | none => exact ⟨_, _, rfl, hne, List.take_append_drop _ _, by simp; omega, hs'⟩
    | some e =>
      simp only
      rw [if_neg (fun h => hd h.1)]
      exact ⟨_, _, rfl, hne, List.take_append_drop _ _, by simp; omega, hs'⟩
  unfold Inner.read
  rcases hsc : r.sched with _ | ⟨x, s⟩
  · exact key n [] hn (Nat.le_refl _) (by simp)
  · cases x with
    | fail e => rw [hsc] at hs; exact absurd (.head _) (hs e)
    | bytes k => exact key _ s (by omega) (by omega) (fun e he => hs e (by rw [hsc]; exact .tail _ he))

theorem fillLoop_full : ∀ (fuel : Nat) (r : BufReader), r.cap < r.buf.length → r.buf.length - r.cap < fuel → r.buf.length ≤ r.cap + r.inner.data.length →
    (∀ e, ReadStep.fail e ∉ r.inner.sched) → ∃ r', r.fillLoop fuel = (.ok (), r')
  | 0, r, _, hf, _, _ => by omega
  | fuel + 1, r, hc, hf, hd, hs => by
    obtain ⟨bs, i', h1, h2, h3, h4, h5⟩ := read_noFail r.inner (r.buf.length - r.cap) hs (by intro h; rw [h] at hd; simp at hd; omega) (by omega)
    have hl : (overwrite r.buf r.cap bs).length = r.buf.length := overwrite_length (by omega)
    have hb : 0 < bs.length := List.length_pos_iff.2 h2
    simp only [BufReader.fillLoop, BufReader.oneShot, h1]
    rw [if_neg (by omega)]
    simp only
    by_cases h0 : bs.length = 0 ∨ r.cap + bs.length = (overwrite r.buf r.cap bs).length
    · rw [if_pos h0]; exact ⟨_, rfl⟩
    · rw [if_neg h0]
      have := congrArg List.length h3
      simp only [List.length_append] at this
      refine fillLoop_full fuel _ ?_ ?_ ?_ h5 <;> simp only [hl] at * <;> omega

theorem read_sched_noFail (r : Inner) (n : Nat) (hs : ∀ e, ReadStep.fail e ∉ r.sched) : ∀ e, ReadStep.fail e ∉ (r.read n).2.sched := by
  have key : ∀ m s, (∀ e, ReadStep.fail e ∉ s) → ∀ e, ReadStep.fail e ∉ (r.deliver m s).2.sched := by
    intro m s h
    unfold Inner.deliver
    split
    · split <;> exact h
    · exact h
  unfold Inner.read
  rcases hsc : r.sched with _ | ⟨x, s⟩
  · exact key _ _ (by simp)
  · have hs' : ∀ e, ReadStep.fail e ∉ s := fun e he => hs e (by rw [hsc]; exact .tail _ he)
    cases x with
    | fail e => exact hs'
    | bytes k => exact key _ _ hs'

theorem fillLoop_sched_noFail : ∀ (fuel : Nat) (r : BufReader), (∀ e, ReadStep.fail e ∉ r.inner.sched) → ∀ e, ReadStep.fail e ∉ (r.fillLoop fuel).2.inner.sched
  | 0, r, hs => hs
  | fuel + 1, r, hs => by
    have h1 : ∀ e, ReadStep.fail e ∉ r.oneShot.2.inner.sched := by
      unfold BufReader.oneShot
      split
      · exact hs
      · have := read_sched_noFail r.inner (r.buf.length - r.cap) hs
        rcases h : r.inner.read (r.buf.length - r.cap) with ⟨x, i⟩
        rw [h] at this
        cases x <;> exact this
    rw [BufReader.fillLoop]
    rcases h : r.oneShot with ⟨x, r'⟩
    rw [h] at h1
    cases x with
    | ok n =>
      simp only
      split
      · exact h1
      · exact fillLoop_sched_noFail fuel r' h1
    | err e => exact h1
    | panic => exact h1
    | diverge => exact h1

/-- Opening a preview of a reader without failing calls, exactly. -/
theorem previewer_exact (capacity : Nat) (hc : 0 < capacity) (inner : Inner) (hs : ∀ e, ReadStep.fail e ∉ inner.sched) :
    (∃ p, Previewer.new capacity inner = .ok p ∧ p.reader.Inv ∧ p.reader.pending = inner.data ∧ p.trimmed = inner.data.take capacity ∧
      (∀ pieces rest, IsLines (inner.data.take capacity) pieces rest →
        p.lines = decodeAll ((pieces ++ if rest = [] ∨ capacity ≤ inner.data.length then [] else [rest]).map dropCr)) ∧
      p.reader.inner.ending = inner.ending ∧ (∀ e, ReadStep.fail e ∉ p.reader.inner.sched) ∧ (inner.data.length < capacity → inner.ending = none)) ∨
    (∃ e, Previewer.new capacity inner = .err (.io e) ∧ inner.ending = some e ∧ inner.data.length < capacity) := by
  have hsched : ∀ p, Previewer.new capacity inner = .ok p → ∀ e, ReadStep.fail e ∉ p.reader.inner.sched := by
    intro p hp
    have h0 := fillLoop_sched_noFail (capacity + 1) (BufReader.withCapacity capacity inner) hs
    have hl : (BufReader.withCapacity capacity inner).buf.length = capacity := by simp [BufReader.withCapacity]
    unfold Previewer.new BufReader.fillBuffer at hp
    rw [if_neg (by simp [BufReader.withCapacity]), hl] at hp
    rcases h : (BufReader.withCapacity capacity inner).fillLoop (capacity + 1) with ⟨x, r⟩
    rw [h] at hp h0
    cases x with
    | ok u =>
      simp only [Res.bind_eq_ok, Res.ok.injEq] at hp
      obtain ⟨t, _, l, _, rfl⟩ := hp
      exact h0
    | err e => cases hp
    | panic => cases hp
    | diverge => cases hp
  rcases previewer_spec capacity hc inner with ⟨p, h1, h2, h3, h4, h5, _, h7, h8⟩ | ⟨e, h1, h2⟩
  · exact .inl ⟨p, h1, h2, h3, h4, h5, h7, hsched p h1, h8⟩
  · right
    refine ⟨e, h1, h2.resolve_left (hs e), ?_⟩
    refine Nat.lt_of_not_le fun hle => ?_
    have hl : (BufReader.withCapacity capacity inner).buf.length = capacity := by simp [BufReader.withCapacity]
    obtain ⟨r, hr⟩ := fillLoop_full (capacity + 1) (BufReader.withCapacity capacity inner) (by rw [hl]; exact hc) (by rw [hl]; omega)
      (by rw [hl]; simpa [BufReader.withCapacity] using hle) hs
    unfold Previewer.new BufReader.fillBuffer at h1
    rw [if_neg (by simp [BufReader.withCapacity]), hl, hr] at h1
    rcases previewer_spec capacity hc { inner with ending := none } with ⟨p, q1, _⟩ | ⟨e', _, q2⟩
    · simp only at h1
      rcases fillBuffer_spec capacity hc inner with ⟨r2, g1, g2, g3, g4, g5, g6, g7, g8⟩ | ⟨e2, r2, g1, _⟩
      · unfold BufReader.fillBuffer at g1
        rw [if_neg (by simp [BufReader.withCapacity]), hl, hr] at g1
        cases g1
        have hsl : slice r.buf 0 r.cap = .ok (inner.data.take capacity) := by
          unfold slice
          rw [if_pos ⟨by omega, g2.cap⟩]; simp [g7]
        obtain ⟨ps, rest, hd⟩ := isLines_exists (inner.data.take capacity)
        have := getLinesLoop_spec r.buf r.cap g2.cap rest hd.2.2 ps (r.cap + 1) 0 [] [] hd.2.1 (by rw [g7, hd.1]; simp) rfl (by omega)
        rw [hsl, Res.bind_ok, this] at h1
        cases hx : decodeAll (ps.map dropCr) <;> simp at h1
      · unfold BufReader.fillBuffer at g1
        rw [if_neg (by simp [BufReader.withCapacity]), hl, hr] at g1
        cases g1
    · exact hs e' (q2.resolve_right (by simp))

/-- How much a previewer has read ahead. -/
theorem previewer_ahead {capacity : Nat} (hc : 0 < capacity) {inner : Inner} {p : Previewer} (h : Previewer.new capacity inner = .ok p) :
    p.reader.pos = 0 ∧ p.reader.cap = min capacity inner.data.length := by
  rcases fillBuffer_spec capacity hc inner with ⟨b, g1, _, g3, _, _, g6, _⟩ | ⟨e, b, g1, _⟩
  · unfold Previewer.new at h
    rw [g1] at h
    simp only at h
    obtain ⟨t, _, h⟩ := Res.bind_eq_ok.1 h
    obtain ⟨l, _, h⟩ := Res.bind_eq_ok.1 h
    cases h
    exact ⟨g3, g6⟩
  · unfold Previewer.new at h
    rw [g1] at h
    cases h

/-- Previews of the same content. -/
structure SamePreview (p1 p2 : Previewer) : Prop where
  reader : SameReader p1.reader p2.reader
  trimmed : p1.trimmed = p2.trimmed
  lines : p1.lines = p2.lines

theorem Spec.SameContent.preview {i1 i2 : Inner} (h : SameContent i1 i2) (n : Nat) (hn : 0 < n) : SameRes SamePreview (Previewer.new n i1) (Previewer.new n i2) := by
  rcases previewer_exact n hn i1 h.noFail1 with ⟨p1, a1, a2, a3, a4, a5, a6, a7, a8⟩ | ⟨e1, a1, a2, a3⟩ <;>
    rcases previewer_exact n hn i2 h.noFail2 with ⟨p2, b1, b2, b3, b4, b5, b6, b7, b8⟩ | ⟨e2, b1, b2, b3⟩
  · rw [a1, b1]
    refine .ok ⟨⟨?_, by rw [(previewer_ahead hn a1).1, (previewer_ahead hn a1).2, (previewer_ahead hn b1).1, (previewer_ahead hn b1).2, h.data], by rw [a6, b6, h.ending], a7, b7, ⟨a2.pos, a2.cap⟩, ⟨b2.pos, b2.cap⟩⟩, by rw [a4, b4, h.data], ?_⟩
    · show p1.reader.pending = p2.reader.pending
      rw [a3, b3, h.data]
    · obtain ⟨ps, rest, hd⟩ := isLines_exists (i1.data.take n)
      rw [a5 ps rest hd, b5 ps rest (by rw [← h.data]; exact hd), h.data]
  · rw [h.data] at a8
    have := a8 b3
    rw [h.ending, b2] at this
    cases this
  · rw [← h.data] at b8
    have := b8 a3
    rw [← h.ending, a2] at this
    cases this
  · rw [h.ending, b2] at a2
    cases a2
    rw [a1, b1]
    exact .err _

theorem Spec.SameRes.bind {α β : Type} {R : α → α → Prop} {S : β → β → Prop} {x y : Res α} {f g : α → Res β} (h : SameRes R x y) (hf : ∀ a b, R a b → SameRes S (f a) (g b)) :
    SameRes S (x.bind f) (y.bind g) := by
  cases h with
  | ok h => exact hf _ _ h
  | err e => exact .err e
  | panic => exact .panic
  | diverge => exact .diverge

theorem Spec.SameRes.bind_eq {α β : Type} {R : α → α → Prop} {x y : Res α} {f g : α → Res β} (h : SameRes R x y) (hf : ∀ a b, R a b → f a = g b) : x.bind f = y.bind g := by
  cases h with
  | ok h => exact hf _ _ h
  | err e => rfl
  | panic => rfl
  | diverge => rfl

theorem Spec.Both.okOr {α : Type} {R : α → α → Prop} {x y : Option α} (e : Err) (h : Both R x y) : SameRes R (Res.okOr e x) (Res.okOr e y) := by
  cases h with
  | none => exact .err _
  | some h => exact .ok h

theorem SamePreview.decompress {dec : Decoders} (hd : DecodeByContent dec) (f : CompFormat) {p1 p2 : Previewer} (h : SamePreview p1 p2) :
    SameRes SamePreview (decompressPreview dec f p1) (decompressPreview dec f p2) := by
  refine SameRes.bind (R := SameContent) ?_ (fun a b hab => hab.preview _ (by decide))
  cases f with
  | gz => exact .ok (hd.gz _ _ h.reader)
  | lz4 =>
    unfold decompressReader decompressLz4
    simp only [h.trimmed]
    split
    · exact .ok (hd.lz4Block _ _ h.reader)
    · exact (hd.lz4Frame _ _ h.reader).okOr _
  | lzf => exact .ok (hd.lzf _ _ h.reader)
  | zip => exact .err _
  | zst => exact (hd.zst _ _ h.reader).okOr _

theorem SamePreview.byName {dec : Decoders} (hd : DecodeByContent dec) (format : Str) {p1 p2 : Previewer} (h : SamePreview p1 p2) :
    SameRes (fun x y : Bool × Previewer × Str => x.1 = y.1 ∧ SamePreview x.2.1 y.2.1 ∧ x.2.2 = y.2.2) (decompressByName dec p1 format) (decompressByName dec p2 format) := by
  unfold decompressByName
  cases compressionOfName format with
  | none => exact .ok ⟨rfl, h, rfl⟩
  | some x => exact (h.decompress hd x.1).bind fun a b hab => .ok ⟨rfl, hab, rfl⟩

theorem SamePreview.byContent {dec : Decoders} (hd : DecodeByContent dec) {p1 p2 : Previewer} (h : SamePreview p1 p2) :
    SameRes SamePreview (decompressByContent dec p1) (decompressByContent dec p2) := by
  unfold decompressByContent
  rw [h.trimmed]
  cases compressionOfContent p2.trimmed with
  | none => exact .ok h
  | some f => exact h.decompress hd f

/-- A factory that looks at the content only. -/
structure FactoryByContent {α : Type} (f : Factory α) : Prop where
  can : ∀ p1 p2, SamePreview p1 p2 → f.canPreview p1 = f.canPreview p2
  create : ∀ p1 p2, SamePreview p1 p2 → f.create p1 = f.create p2

theorem SamePreview.createFromFormat {α : Type} {p1 p2 : Previewer} (h : SamePreview p1 p2) (format : Str) : ∀ sfs : List (Factory α), (∀ f ∈ sfs, FactoryByContent f) →
    createFromFormat p1 format sfs = createFromFormat p2 format sfs
  | [], _ => rfl
  | f :: sfs, hf => by
    rw [Chopper.createFromFormat, Chopper.createFromFormat, SamePreview.createFromFormat h format sfs (fun x hx => hf x (.tail _ hx)), (hf f (.head _)).create _ _ h]

theorem SamePreview.createFromContent {α : Type} {p1 p2 : Previewer} (h : SamePreview p1 p2) : ∀ sfs : List (Factory α), (∀ f ∈ sfs, FactoryByContent f) →
    createFromContent p1 sfs = createFromContent p2 sfs
  | [], _ => rfl
  | f :: sfs, hf => by
    rw [Chopper.createFromContent, Chopper.createFromContent, SamePreview.createFromContent h sfs (fun x hx => hf x (.tail _ hx)), (hf f (.head _)).create _ _ h,
      (hf f (.head _)).can _ _ h]

theorem SamePreview.createByName {α : Type} {p1 p2 : Previewer} (h : SamePreview p1 p2) (format : Str) (o : Res α) : ∀ sfs : List (Factory α), (∀ f ∈ sfs, FactoryByContent f) →
    createByName p1 format o sfs = createByName p2 format o sfs
  | [], _ => rfl
  | f :: sfs, hf => by
    rw [Chopper.createByName, Chopper.createByName, SamePreview.createByName h format o sfs (fun x hx => hf x (.tail _ hx)), (hf f (.head _)).create _ _ h]

theorem SamePreview.create {α : Type} {dec : Decoders} (hd : DecodeByContent dec) {sfs : List (Factory α)} (hf : ∀ f ∈ sfs, FactoryByContent f) {p1 p2 : Previewer}
    (h : SamePreview p1 p2) (name : Option Str) (fmt : InputFormat) : createFromPreviewer dec sfs p1 name fmt = createFromPreviewer dec sfs p2 name fmt := by
  unfold createFromPreviewer
  cases fmt with
  | extension e =>
    refine (h.byName hd _).bind_eq ?_
    rintro ⟨b1, q1, s1⟩ ⟨b2, q2, s2⟩ ⟨rfl, h2, rfl⟩
    exact h2.createFromFormat _ _ hf
  | auto =>
    cases name with
    | none => exact (h.byContent hd).bind_eq fun a b hab => hab.createFromContent _ hf
    | some name =>
      refine (h.byName hd _).bind_eq ?_
      rintro ⟨b1, q1, s1⟩ ⟨b2, q2, s2⟩ ⟨rfl, h2, rfl⟩
      show Chopper.createByName q1 s1 _ sfs = Chopper.createByName q2 s1 _ sfs
      rw [h2.createByName _ _ _ hf]
      congr 1
      refine SameRes.bind_eq (R := SamePreview) ?_ fun a b hab => hab.createFromContent _ hf
      split
      · exact .ok h2
      · exact h2.byContent hd

theorem Spec.SameReader.stream {r1 r2 : BufReader} (h : SameReader r1 r2) : streamOf r1 = streamOf r2 := by
  rw [streamOf_eq r1 h.noFail1, streamOf_eq r2 h.noFail2, h.ending]
  congr 2
  exact h.bytes

theorem dcFactory_content (ov : Overflow) : FactoryByContent (dcFactory ov) where
  can p1 p2 h := by
    show dcCanPreview p1.trimmed = dcCanPreview p2.trimmed
    rw [h.trimmed]
  create p1 p2 h := by
    show (dcOpen ov (streamOf p1.reader)).bind _ = (dcOpen ov (streamOf p2.reader)).bind _
    rw [h.reader.stream]

theorem csvFactory_content (env : CsvEnv) (hc : CsvByContent env.csv) (cfg : CsvInputConfig env.lib) : FactoryByContent (csvFactory env cfg) where
  can p1 p2 h := by
    show p1.lines.isSome = p2.lines.isSome
    rw [h.lines]
  create p1 p2 h := by
    show (csvOpen env cfg p1).bind _ = (csvOpen env cfg p2).bind _
    have : csvOpen env cfg p1 = csvOpen env cfg p2 := by
      unfold csvOpen
      rw [h.lines]
      simp only
      congr 1
      funext d
      exact congrArg (csvStart env cfg _) (hc _ _ _ _ h.reader)
    rw [this]

/-- The same way of opening inputs, in two worlds with the same content. -/
structure SameInputs {α : Type} (a b : Inputs α) : Prop where
  dec : a.dec = b.dec
  zip : a.zip = b.zip
  factories : a.factories = b.factories
  decoders : DecodeByContent a.dec
  content : ∀ f ∈ a.factories, FactoryByContent f
  previewer : ∀ p, SameRes (Both SamePreview) (createPreviewer a.streaming p) (createPreviewer b.streaming p)
  seekable : ∀ p, createSeekable a.seekable p = createSeekable b.seekable p

theorem SameInputs.fromStream {α : Type} {a b : Inputs α} (h : SameInputs a b) (p : Path) (fmt : InputFormat) : createFromStream a p fmt = createFromStream b p fmt := by
  unfold createFromStream
  refine (h.previewer p).bind_eq ?_
  intro x y hxy
  cases hxy with
  | none => rfl
  | some hxy =>
    simp only
    congr 1
    funext name
    rw [← h.dec, ← h.factories, hxy.create h.decoders h.content]

theorem SameInputs.fromPath {α : Type} {a b : Inputs α} (h : SameInputs a b) (p : Path) (fmt : InputFormat) : createFromPath a p fmt = createFromPath b p fmt := by
  have hz : createFromZip a p fmt = createFromZip b p fmt := by
    unfold createFromZip
    rw [h.seekable, h.dec, h.zip, h.factories]
  unfold createFromPath
  rw [hz]
  congr 1
  funext x
  cases x with
  | some s => rfl
  | none => exact h.fromStream p fmt

theorem openLoop_same {path : Path} : ∀ {ts us : List (Transport Inner)}, ts.length = us.length →
    (∀ (i : Nat) t u, ts[i]? = some t → us[i]? = some u → t.canOpen path = u.canOpen path ∧ SameRes SameContent (t.openPath path) (u.openPath path)) →
    ∀ {x y : Option Inner}, Both SameContent x y → SameRes (Both SameContent) (openLoop path ts x) (openLoop path us y)
  | [], [], _, _, _, _, h => .ok h
  | [], _ :: _, hl, _, _, _, _ => by simp at hl
  | _ :: _, [], hl, _, _, _, _ => by simp at hl
  | t :: ts, u :: us, hl, hi, x, y, h => by
    obtain ⟨h1, h2⟩ := hi 0 t u rfl rfl
    have hi' : ∀ (i : Nat) t u, ts[i]? = some t → us[i]? = some u → t.canOpen path = u.canOpen path ∧ SameRes SameContent (t.openPath path) (u.openPath path) :=
      fun i t u ht hu => hi (i + 1) t u (by simpa using ht) (by simpa using hu)
    rw [openLoop, openLoop, h1]
    split
    · exact h2.bind fun a b hab => openLoop_same (by simpa using hl) hi' (.some hab)
    · exact openLoop_same (by simpa using hl) hi' h

theorem newInputs_same (env : CsvEnv) (hc : CsvByContent env.csv) (dec : Decoders) (hd : DecodeByContent dec) (zip : ZipLib) {w1 w2 : World} (hw : SameWorld w1 w2)
    (csv : Option (CsvInputConfig env.lib)) : SameInputs (newInputs env dec zip w1 csv [] []) (newInputs env dec zip w2 csv [] []) where
  dec := rfl
  zip := rfl
  factories := rfl
  decoders := hd
  content f hf := by
    cases csv with
    | none =>
      have : f = dcFactory env.ov := by simpa [newInputs, defaultFactories] using hf
      subst this
      exact dcFactory_content _
    | some cfg =>
      have : f = csvFactory env cfg ∨ f = dcFactory env.ov := by simpa [newInputs, defaultFactories] using hf
      rcases this with rfl | rfl
      · exact csvFactory_content _ hc _
      · exact dcFactory_content _
  previewer p := by
    refine SameRes.bind (R := Both SameContent) ?_ ?_
    · refine openLoop_same (ts := [fileTransport w1, httpTransport w1]) (us := [fileTransport w2, httpTransport w2]) rfl ?_ .none
      intro i t u ht hu
      match i, ht, hu with
      | 0, ht, hu =>
        cases ht; cases hu
        exact ⟨congrFun hw.pathExists p, (hw.file p).okOr _⟩
      | 1, ht, hu =>
        cases ht; cases hu
        refine ⟨rfl, ?_⟩
        show SameRes SameContent ((Res.unwrap (utf8Decode p)).bind w1.http) ((Res.unwrap (utf8Decode p)).bind w2.http)
        cases utf8Decode p with
        | none => exact .panic
        | some s => exact hw.http s
      | i + 2, ht, _ => cases ht
    · intro a b hab
      cases hab with
      | none => exact .ok .none
      | some hab => exact (hab.preview _ (by decide)).bind fun x y hxy => .ok (.some hxy)
  seekable p := by
    show openLoop p [seekableFileTransport w1] none = openLoop p [seekableFileTransport w2] none
    have e1 : (seekableFileTransport w1).canOpen p = (seekableFileTransport w2).canOpen p := congrFun hw.pathExists p
    have e2 : (seekableFileTransport w1).openPath p = (seekableFileTransport w2).openPath p := by
      show Res.okOr _ ((w1.file p).map (·.data)) = Res.okOr _ ((w2.file p).map (·.data))
      have h := hw.file p
      generalize w1.file p = x at h
      generalize w2.file p = y at h
      cases h with
      | none => rfl
      | some h => rw [Option.map_some, Option.map_some, h.data]
    simp only [openLoop, e1, e2]

theorem createFromInput_same {a b : Inputs FileSource} (h : SameInputs a b) {w1 w2 : World} (hw : SameWorld w1 w2) (i : Input) : createFromInput a w1 i = createFromInput b w2 i := by
  unfold createFromInput
  cases i.input with
  | stdIn =>
    refine (hw.stdin.preview _ (by decide)).bind_eq fun x y hxy => ?_
    rw [← h.dec, ← h.factories, hxy.create h.decoders h.content]
  | path p =>
    simp only [createFromPathInput]
    have e : (fun p => createFromPath a p i.format) = fun p => createFromPath b p i.format := funext fun p => h.fromPath p i.format
    rw [e, h.fromPath, hw.isDir, hw.listing]

theorem openInputs_same {a b : Inputs FileSource} (h : SameInputs a b) {w1 w2 : World} (hw : SameWorld w1 w2) : ∀ is, openInputs a w1 is = openInputs b w2 is
  | [] => rfl
  | i :: is => by rw [openInputs, openInputs, createFromInput_same h hw, openInputs_same h hw is]

/-! ## Output -/

/-- Two buffered writers that were given the same bytes and whose devices do not fail. -/
structure SameWriter (w1 w2 : BufWriter) : Prop where
  holds : w1.dev.taken ++ w1.buf = w2.dev.taken ++ w2.buf
  reliable1 : Reliable w1.dev
  reliable2 : Reliable w2.dev

theorem SameWriter.emit {α : Type} {w1 w2 : BufWriter} (h : SameWriter w1 w2) (ch : Chunking) (bs : List Byte) (res : Res α) :
    SameWriter (w1.emit ch bs res).1 (w2.emit ch bs res).1 ∧ (w1.emit ch bs res).2 = res ∧ (w2.emit ch bs res).2 = res := by
  obtain ⟨a1, a2⟩ := emit_step ch bs res (w := w1) rfl
  obtain ⟨b1, b2⟩ := emit_step ch bs res (w := w2) rfl
  rcases a2 with ⟨a2, a3⟩ | ⟨k, _, a3, _⟩
  · rcases b2 with ⟨b2, b3⟩ | ⟨k, _, b3, _⟩
    · refine ⟨⟨?_, fun k hk => h.reliable1 k (a1 k hk), fun k hk => h.reliable2 k (b1 k hk)⟩, a2, b2⟩
      rw [a3, b3, h.holds]
    · exact absurd b3 (h.reliable2 k)
  · exact absurd a3 (h.reliable1 k)

theorem SameWriter.flush {w1 w2 : BufWriter} (h : SameWriter w1 w2) : SameWriter w1.flush.1 w2.flush.1 ∧ w1.flush.2 = .ok () ∧ w2.flush.2 = .ok () := by
  obtain ⟨a1, a2⟩ := flush_step (w := w1) rfl
  obtain ⟨b1, b2⟩ := flush_step (w := w2) rfl
  rcases a2 with ⟨a2, a3, _⟩ | ⟨k, _, a3, _⟩
  · rcases b2 with ⟨b2, b3, _⟩ | ⟨k, _, b3, _⟩
    · refine ⟨⟨?_, fun k hk => h.reliable1 k (a1 k hk), fun k hk => h.reliable2 k (b1 k hk)⟩, a2, b2⟩
      rw [a3, b3, h.holds]
    · exact absurd b3 (h.reliable2 k)
  · exact absurd a3 (h.reliable1 k)

theorem SameWriter.close {w1 w2 : BufWriter} (h : SameWriter w1 w2) : w1.close.taken = w2.close.taken := by
  have key : ∀ w : BufWriter, Reliable w.dev → w.close.taken = w.dev.taken ++ w.buf := by
    intro w hw
    obtain ⟨_, _, a3, a4⟩ := flushBuf_step (w := w) rfl
    rcases a4 with ⟨_, a4⟩ | ⟨k, _, a4⟩
    · rw [a4, List.append_nil] at a3
      exact a3
    · exact absurd a4 (hw k)
  rw [key w1 h.reliable1, key w2 h.reliable2, h.holds]

theorem perform_same {e : SinkEnv} {mk : BufWriter → CliSink} {row : Row → Wr Unit} (hm : WritesRows e mk row) : ∀ (cs : List Call) (out : Res Unit) (w1 w2 : BufWriter),
    SameWriter w1 w2 → ∃ w1' w2', SameWriter w1' w2' ∧ (perform (sinkFeed (cliOps e)) (sinkFlush (cliOps e)) cs out (mk w1)).1 = mk w1' ∧
      (perform (sinkFeed (cliOps e)) (sinkFlush (cliOps e)) cs out (mk w2)).1 = mk w2' ∧
      (perform (sinkFeed (cliOps e)) (sinkFlush (cliOps e)) cs out (mk w1)).2 = (perform (sinkFeed (cliOps e)) (sinkFlush (cliOps e)) cs out (mk w2)).2
  | [], out, w1, w2, h => ⟨w1, w2, h, rfl, rfl, rfl⟩
  | .feed c r :: cs, out, w1, w2, h => by
    obtain ⟨g1, g2, g3⟩ := h.emit e.ch (row r).out ((row r).res.map fun _ => [r])
    have e1 : ∀ w, sinkFeed (cliOps e) c r (mk w) = (mk (w.emit e.ch (row r).out ((row r).res.map fun _ => [r])).1, (w.emit e.ch (row r).out ((row r).res.map fun _ => [r])).2.map fun _ => ()) := by
      intro w
      show ((CliSink.write e (mk w) r).1, (CliSink.write e (mk w) r).2.map fun _ => ()) = _
      rw [hm.write]
    simp only [perform, e1, g2, g3, res_map_unit]
    generalize (w1.emit e.ch (row r).out ((row r).res.map fun _ => [r])).1 = u1 at g1
    generalize (w2.emit e.ch (row r).out ((row r).res.map fun _ => [r])).1 = u2 at g1
    cases (row r).res with
    | ok u => exact perform_same hm cs out _ _ g1
    | err x => exact ⟨_, _, g1, rfl, rfl, rfl⟩
    | panic => exact ⟨_, _, g1, rfl, rfl, rfl⟩
    | diverge => exact ⟨_, _, g1, rfl, rfl, rfl⟩
  | .flush c :: cs, out, w1, w2, h => by
    obtain ⟨g1, g2, g3⟩ := h.flush
    have e1 : ∀ w, sinkFlush (cliOps e) c (mk w) = (mk w.flush.1, w.flush.2) := fun w => hm.flush w
    simp only [perform, e1, g2, g3]
    exact perform_same hm cs out _ _ g1

end Chopper
