import Verif.Proofs.InPlaceDc
import Verif.Props.DcGrow
import Verif.Props.Cli2

/-!
# Writing over an input (C136)
-/
namespace Chopper.Props
open Chopper Chopper.Spec

/-- `chop -o s s` and the like: the only input is a DC file `s` with these bytes, and `s` is the output file too (it can be created, that is emptied: `d` is empty). -/
structure OverItself (e : CliEnv) (a : CliArgs) (st : CliSettings e.csv.lib) (s : Str) (data : List Byte) (d : Device) : Prop where
  settings : parseSettings e a = .ok st
  input : ∃ fmt, st.inputs = [⟨.path s, fmt⟩] ∧
    ((∃ base, lastComponent s = some (base ++ ".dc".toList) ∧ fmt = .auto) ∨ fmt = .extension "dc".toList ∨ fmt = .extension ".dc".toList)
  plain : e.userFactories = [] ∧ e.userTransports = []
  isFile : e.world.isDir (utf8Encode s) = false ∧ e.world.pathExists (utf8Encode s) = true ∧ ¬ HttpAddress s
  bytes : ∃ inner, e.world.file (utf8Encode s) = some inner ∧ NoFail inner ∧ inner.data = data
  output : a.output = some s ∧ "dc".toList <:+ s ∧ e.out.create (utf8Encode s) = some d ∧ d.taken = []

/-- **C136 (in general).** Any inputs of the tool, some of them being the output file.  Suppose that the program has fetched certain bytes of those files when it creates the output,
and that what the run writes is not longer than that.  Then the run is, to the last detail (result, messages, output), the run on inputs that are cut off after those bytes: nothing
behind them is ever read, however the program fetches bytes later on. -/
theorem C136_cut (e : CliEnv) (a : CliArgs) (fetch : List Byte → Nat → List Byte → Nat) (places : List (Option InPlaceFile)) (sfuel fuel : Nat) (w' : World)
    (st : CliSettings e.csv.lib) (files files' : List FileSource) (hs : parseSettings e a = .ok st) (ho : Opens e st files) (ho' : Opens { e with world := w' } st files')
    (hh : files'.map (·.header) = files.map (·.header)) (hc : files'.map (·.source) = cutSources (files.map (·.source)) places)
    (hlen : ∀ out, (chopperCli { e with world := w' } a).output = some out → ∀ p, some p ∈ places → out.taken.length ≤ p.seen.length)
    (hsf : ∀ f ∈ files', f.source.rows.length < sfuel) (hfuel : enough (files'.map (·.source)) ≤ fuel) :
    chopperCliInPlace e a fetch places sfuel fuel = chopperCli { e with world := w' } a :=
  inPlace_cut e a fetch places sfuel fuel w' st files files' hs ho ho' hh hc hlen hsf hfuel

theorem dc_not_zip {bytes : List Byte} {h : Header} {src : Source} (hf : IsDcFile bytes h src) : ¬ [0x50, 0x4b, 3, 4] <+: bytes := by
  rintro ⟨t, ht⟩
  obtain ⟨hdr, parts, rest, rfl, ⟨user, cols, _, _, _, _, rfl, _⟩, _⟩ := hf
  simp at ht

theorem one_opens {e : CliEnv} {st : CliSettings e.csv.lib} {i : Input} {f : FileSource} (hi : st.inputs = [i])
    (h : createFromInput (newInputs e.csv e.dec e.zip e.world (some st.inCfg) e.userFactories e.userTransports) e.world i = .ok f) : Opens e st [f] := by
  refine ⟨by simp [hi], ?_⟩
  intro k x y hx hy
  rw [hi] at hx
  match k with
  | 0 => cases hx; cases hy; exact h
  | k + 1 => simp at hx

theorem OverItself.opens {e : CliEnv} {a : CliArgs} {st : CliSettings e.csv.lib} {s : Str} {data : List Byte} {d : Device} (h : OverItself e a st s data d) {hd : Header} {src : Source}
    (hf : IsDcFile data hd src) : Opens e st [⟨hd, src⟩] := by
  obtain ⟨fmt, h1, h2⟩ := h.input
  obtain ⟨inner, h3, h4, rfl⟩ := h.bytes
  refine one_opens h1 ?_
  rw [h.plain.1, h.plain.2]
  exact (C94_file e.csv e.dec e.zip e.world (some st.inCfg) s fmt inner h.isFile.1 h.isFile.2.1 h3 h.isFile.2.2 (dc_not_zip hf) h4 h2 hd src).2 hf

theorem OverItself.cut {e : CliEnv} {a : CliArgs} {st : CliSettings e.csv.lib} {s : Str} {data : List Byte} {d : Device} (h : OverItself e a st s data d) (bytes : List Byte) :
    OverItself { e with world := withFile e.world (utf8Encode s) bytes } a st s bytes d where
  settings := h.settings
  input := h.input
  plain := h.plain
  isFile := h.isFile
  bytes := ⟨⟨bytes, [], none⟩, by simp [withFile], by intro k hk; rcases hk with hk | hk <;> simp at hk, rfl⟩
  output := h.output

/-- A file has one header. -/
theorem one_header {hdr hdr' data : List Byte} {h h' : Header} (hp : hdr <+: data) (hp' : hdr' <+: data) (hh : IsDcHeader hdr h) (hh' : IsDcHeader hdr' h') : hdr = hdr' ∧ h = h' := by
  obtain ⟨r, rfl⟩ := hp
  obtain ⟨r', hr⟩ := hp'
  have h1 := (uses_dcHeader .wraps hh).here (ofBytes r)
  have h2 := (uses_dcHeader .wraps hh').here (ofBytes r')
  rw [← ofBytes_append] at h1 h2
  rw [hr, h1] at h2
  simp only [Prod.mk.injEq, Res.ok.injEq] at h2
  have h3 : r.length = r'.length := by simpa [ofBytes] using congrArg List.length h2.2
  exact ⟨(List.append_inj' hr.symm h3).1, h2.1⟩

/-- A file that is copied is not longer than it was. -/
theorem over_len {e : CliEnv} {a : CliArgs} {st : CliSettings e.csv.lib} {s : Str} {data : List Byte} {d : Device} (ho : OverItself e a st s data d) {h : Header} {src : Source}
    (hf : IsDcFile data h src) {hdr0 : List Byte} (hp0 : hdr0 <+: data) (hh0 : IsDcHeader hdr0 h)
    (hhdr : (dcProcessHeader e.csv.ov h).out.length ≤ hdr0.length) (hl : data.length < 2 ^ 31) :
    ∀ out, (chopperCli e a).output = some out → out.taken.length ≤ data.length := by
  intro out hout
  have hdc : DcTo e.out a.output d := ⟨s, ho.output.1, ho.output.2.1, ho.output.2.2.1⟩
  have hopen := ho.opens hf
  by_cases hp : ∃ n, (dcProcessHeader e.csv.ov h).res = .ok n
  · obtain ⟨n, hn⟩ := hp
    rcases dc_run e a st [⟨h, src⟩] h d ho.settings hopen (by simp) hdc n hn with ⟨k, _, _, h1⟩ | ⟨out', cs, res, h1, h2, h3, _⟩
    · rw [h1] at hout; simp at hout
    · rw [hout] at h2
      cases h2
      refine Nat.le_trans h3.length_le ?_
      rw [ho.output.2.2.2, List.nil_append]
      have hsub := fed_single st.range (enough [src]) src
      have hcs : cs = (calls st.range (enough [src]) [src]).1 := congrArg Prod.fst h1
      rw [← hcs] at hsub
      obtain ⟨hdr, parts, rest, rfl, h5, h6, h7, _⟩ := hf
      have h8 : (dcProcessHeader e.csv.ov h).out.length ≤ hdr.length := by
        rw [← (one_header hp0 (by rw [List.append_assoc]; exact List.prefix_append _ _) hh0 h5).1]
        exact hhdr
      simp only [List.length_append] at hl ⊢
      have h9 := rows_len h.types (bitmap_len hn) parts src.rows h6 h7 (by omega) _ hsub
      unfold dcWriteFile
      refine Nat.le_trans ?_ (show hdr.length + parts.flatten.length ≤ _ by omega)
      unfold Wr.bind
      rw [hn]
      simp only [List.length_append]
      omega
  · have := dc_bad_header e a st [⟨h, src⟩] h d ho.settings hopen (by simp) hdc (fun n hn => hp ⟨n, hn⟩)
    rw [this.2] at hout
    simp at hout

/-- **C136 (DC files).** A run that writes a DC file over itself, where the header is within the first 8192 bytes (and not shorter than the tool would write it), reads those bytes
and nothing else of it: it does, to the last detail, what a run on the file cut off there does; what it leaves is at most 8192 bytes. -/
theorem C136_dc (e : CliEnv) (a : CliArgs) (st : CliSettings e.csv.lib) (s : Str) (data : List Byte) (d : Device) (ho : OverItself e a st s data d)
    (fetch : List Byte → Nat → List Byte → Nat) (meaning : List Byte → Source) (hm : DcMeaning meaning) (h : Header) (hdr : List Byte) (hp : hdr <+: data.take 8192)
    (hh : IsDcHeader hdr h) (hhdr : (dcProcessHeader e.csv.ov h).out.length ≤ hdr.length) (src : Source) (hf : IsDcFile (data.take 8192) h src)
    (sfuel fuel : Nat) (hsf : src.rows.length < sfuel) (hfuel : src.rows.length + 1 ≤ fuel) :
    chopperCliInPlace e a fetch [some ⟨meaning, data.take 8192⟩] sfuel fuel = chopperCli { e with world := withFile e.world (utf8Encode s) (data.take 8192) } a ∧
    ∀ out, (chopperCliInPlace e a fetch [some ⟨meaning, data.take 8192⟩] sfuel fuel).output = some out → out.taken.length ≤ 8192 := by
  have hlen : (data.take 8192).length ≤ 8192 := by rw [List.length_take]; omega
  obtain ⟨src0, hf0, _⟩ := C96_grow (data.take 8192) (data.drop 8192) h src hf
  rw [List.take_append_drop] at hf0
  have hcut := ho.cut (data.take 8192)
  have hl := over_len hcut hf hp hh hhdr (by omega)
  have h1 := C136_cut e a fetch [some ⟨meaning, data.take 8192⟩] sfuel fuel (withFile e.world (utf8Encode s) (data.take 8192)) st [⟨h, src0⟩] [⟨h, src⟩] ho.settings (ho.opens hf0)
    (hcut.opens hf) rfl (by rw [List.map_cons, List.map_nil, List.map_cons, List.map_nil]; simp only [cutSources]; rw [hm _ _ _ hf]) (by
      intro out hout p hp
      simp only [List.mem_singleton, Option.some.injEq] at hp
      subst hp
      exact hl out hout) (by simpa using hsf) (by simpa [enough, totalRows] using hfuel)
  refine ⟨h1, fun out hout => ?_⟩
  rw [h1] at hout
  exact Nat.le_trans (hl out hout) hlen

/-- The claim one would like: a run over a file gives the result and the bytes that the same run gives when the output is another file. -/
def C136_full : Prop := ∀ (e : CliEnv) (a : CliArgs) (st : CliSettings e.csv.lib) (s : Str) (data : List Byte) (d : Device), OverItself e a st s data d → Reliable d →
  ∀ (fetch : List Byte → Nat → List Byte → Nat) (meaning : List Byte → Source), DcMeaning meaning → ∀ (h : Header) (hdr : List Byte), hdr <+: data.take 8192 → IsDcHeader hdr h →
  (dcProcessHeader e.csv.ov h).out.length ≤ hdr.length → ∀ src, IsDcFile data h src → GoodInputs st.range h [⟨h, src⟩] →
  ∀ sfuel fuel, src.rows.length < sfuel → src.rows.length + 1 ≤ fuel →
  (chopperCliInPlace e a fetch [some ⟨meaning, data.take 8192⟩] sfuel fuel).result = (chopperCli e a).result ∧
  (chopperCliInPlace e a fetch [some ⟨meaning, data.take 8192⟩] sfuel fuel).output.map (·.taken) = (chopperCli e a).output.map (·.taken)

/-- **C136 (partial: files of up to 8192 bytes).** A DC file of at most 8192 bytes can be written over itself: the run is the run whose output is another file. -/
theorem C136_small_partial (e : CliEnv) (a : CliArgs) (st : CliSettings e.csv.lib) (s : Str) (data : List Byte) (d : Device) (ho : OverItself e a st s data d) (hsmall : data.length ≤ 8192)
    (fetch : List Byte → Nat → List Byte → Nat) (meaning : List Byte → Source) (hm : DcMeaning meaning) (h : Header) (hdr : List Byte) (hp : hdr <+: data)
    (hh : IsDcHeader hdr h) (hhdr : (dcProcessHeader e.csv.ov h).out.length ≤ hdr.length) (src : Source) (hf : IsDcFile data h src)
    (sfuel fuel : Nat) (hsf : src.rows.length < sfuel) (hfuel : src.rows.length + 1 ≤ fuel) :
    chopperCliInPlace e a fetch [some ⟨meaning, data.take 8192⟩] sfuel fuel = chopperCli e a := by
  rw [List.take_of_length_le hsmall]
  have hl := over_len ho hf hp hh hhdr (by omega)
  exact C136_cut e a fetch [some ⟨meaning, data⟩] sfuel fuel e.world st [⟨h, src⟩] [⟨h, src⟩] ho.settings (ho.opens hf)
    (ho.opens hf) rfl (by rw [List.map_cons, List.map_nil]; simp only [cutSources]; rw [hm _ _ _ hf]) (by
      intro out hout p hp
      simp only [List.mem_singleton, Option.some.injEq] at hp
      subst hp
      exact hl out hout) (by simpa using hsf) (by simpa [enough, totalRows] using hfuel)

theorem merge_one {range : TimestampRange} {rows : List Row} (hs : Sorted rows) : IsMerge range [rows] (rows.filter fun r => inRange range r.timestamp) :=
  ⟨hs.filter _, fun t => by simp [List.filter_filter]⟩

/-- **C136 (what is kept).** If moreover the first 8192 bytes are a complete file with sorted rows, some of them in the range, the run succeeds and leaves exactly those rows
that are in the range: the rows behind are lost, and nothing says so. -/
theorem C136_kept (e : CliEnv) (a : CliArgs) (st : CliSettings e.csv.lib) (s : Str) (data : List Byte) (d : Device) (ho : OverItself e a st s data d) (hr : Reliable d)
    (fetch : List Byte → Nat → List Byte → Nat) (meaning : List Byte → Source) (hm : DcMeaning meaning) (h : Header) (hdr : List Byte) (hp : hdr <+: data.take 8192)
    (hh : IsDcHeader hdr h) (hhdr : (dcProcessHeader e.csv.ov h).out.length ≤ hdr.length) (src : Source) (hf : IsDcFile (data.take 8192) h src)
    (sfuel fuel : Nat) (hsf : src.rows.length < sfuel) (hfuel : src.rows.length + 1 ≤ fuel) (hg : GoodInputs st.range h [⟨h, src⟩])
    (hn : 2 ≤ h.types.length) (hn2 : h.types.length < 2 ^ 32) (ht : ∀ t ∈ h.types, t ≠ .boolean ∧ t ≠ .byteBuf) (hl : h.names.length = h.types.length)
    (hnm : ∀ n ∈ h.names, (utf8Encode n).length < 2 ^ 32) (hfit : ∀ r ∈ src.rows, inRange st.range r.timestamp = true → RowFits h.types r) :
    ∃ out, (chopperCliInPlace e a fetch [some ⟨meaning, data.take 8192⟩] sfuel fuel).result = .ok () ∧
      (chopperCliInPlace e a fetch [some ⟨meaning, data.take 8192⟩] sfuel fuel).output = some out ∧
      (dcWriteFile e.csv.ov h (src.rows.filter fun r => inRange st.range r.timestamp)).res = .ok () ∧
      out.taken = (dcWriteFile e.csv.ov h (src.rows.filter fun r => inRange st.range r.timestamp)).out := by
  have hcut := ho.cut (data.take 8192)
  rw [(C136_dc e a st s data d ho fetch meaning hm h hdr hp hh hhdr src hf sfuel fuel hsf hfuel).1]
  obtain ⟨out, rows, h1, h2, h3, _, h4, h5⟩ := C61_dc { e with world := withFile e.world (utf8Encode s) (data.take 8192) } a st [⟨h, src⟩] h d hcut.settings (hcut.opens hf) hg
    ⟨s, hcut.output.1, hcut.output.2.1, hcut.output.2.2.1⟩ hr hl hn hn2 ht hnm (by
      intro f hf' r hr'
      simp only [List.mem_singleton] at hf'
      subst hf'
      exact hfit r hr')
  have h6 := C61_merge_unique h3 (merge_one (hg.sorted ⟨h, src⟩ (by simp)))
  rw [ho.output.2.2.2, List.nil_append] at h5
  subst h6
  exact ⟨out, h1, h2, h4, h5⟩

/-- **C136 (what has been fetched).** When an input has been previewed (which happens before the output is created), exactly its first 8192 bytes have been fetched: those behind them
are still in the file, and only there. -/
theorem C136_fetched (inner : Inner) (p : Previewer) (h : Previewer.new defaultBufSize inner = .ok p) :
    p.reader.inner.data = inner.data.drop defaultBufSize ∧ p.reader.rem = inner.data.take defaultBufSize := by
  have hc : 0 < defaultBufSize := by decide
  generalize defaultBufSize = c at *
  unfold Previewer.new at h
  rcases fillBuffer_spec c hc inner with ⟨r, h1, h2, h3, h4, h5, h6, h7, _⟩ | ⟨e, r, h1, _⟩
  · simp only [h1] at h
    have hsl : slice r.buf 0 r.cap = .ok (inner.data.take c) := by
      unfold slice
      rw [if_pos ⟨by omega, h2.cap⟩]; simp [h7]
    rw [hsl] at h
    simp only [Res.bind] at h
    cases hg : getLinesLoop r.buf r.cap (r.cap + 1) 0 [] with
    | ok lines =>
      rw [hg] at h
      cases h
      have hrem : r.rem = inner.data.take c := by rw [BufReader.rem, h3]; simpa using h7
      refine ⟨?_, hrem⟩
      have h8 : inner.data.take c ++ r.inner.data = inner.data.take c ++ inner.data.drop c := by
        rw [List.take_append_drop, ← hrem]; exact h4
      exact List.append_cancel_left h8
    | err e => rw [hg] at h; simp at h
    | panic => rw [hg] at h; simp at h
    | diverge => rw [hg] at h; simp at h
  · simp only [h1] at h
    cases h

/-! ### A file that loses rows without a word -/

def lossHeader : Header := ⟨["a".toList, "bb".toList], [.int, .string]⟩
/-- 64 bytes. -/
def lossHdr : List Byte := dcStart ++ [0, 0, 0, 0] ++ [0, 0, 0, 2] ++ ([0, 0, 0, 1, 97] ++ [0, 0, 0, 1, 73] ++ [255, 255, 255, 255]) ++
  ([0, 0, 0, 2, 98, 98] ++ [0, 0, 0, 18] ++ utf8Encode "Ljava.lang.String;".toList ++ [255, 255, 255, 255])
/-- 16 bytes. -/
def lossPart : List Byte := [0, 0, 0, 0, 0, 0, 0, 7, 0, 0, 0, 1, 2, 0, 1, 104]
def lossRow : Row := ⟨7, [.int 258, .string ['h']]⟩

/-- The header and `n` rows. -/
def lossFile (n : Nat) : List Byte := lossHdr ++ (List.replicate n lossPart).flatten

theorem loss_header : IsDcHeader lossHdr lossHeader :=
  ⟨[], [⟨['a'], .int, "I", -1⟩, ⟨['b', 'b'], .string, "Ljava.lang.String;", -1⟩], by decide, by decide, by decide,
    by
      intro c hc
      simp only [List.mem_cons, List.not_mem_nil, or_false] at hc
      rcases hc with rfl | rfl
      · exact ⟨.int, by decide +kernel, by decide, by decide⟩
      · exact ⟨.string, by decide +kernel, by decide, by decide⟩, by decide +kernel, rfl, by decide +kernel⟩

theorem loss_row : IsDcRow lossHeader.types lossPart lossRow := by
  refine ⟨[0], [[0, 0, 1, 2], [0, 1, 104]], rfl, ⟨rfl, rfl, ?_⟩, by decide +kernel⟩
  intro j t q v ht hq hv
  match j with
  | 0 =>
    cases ht; cases hq; cases hv
    rw [if_neg (by decide +kernel)]
    exact StoredValue.int 258
  | 1 =>
    cases ht; cases hq; cases hv
    rw [if_neg (by decide +kernel)]
    exact .string (.short (bs := utf8Encode "h".toList) (by decide +kernel))
  | _ + 2 => cases ht

theorem loss_file (n : Nat) : IsDcFile (lossFile n) lossHeader ⟨List.replicate n lossRow, .eof⟩ := by
  refine ⟨lossHdr, List.replicate n lossPart, [], by simp [lossFile], loss_header, by simp, ?_, .eof (by decide)⟩
  intro i p r hp hr
  rw [(List.mem_replicate.1 (List.mem_of_getElem? hp)).2, (List.mem_replicate.1 (List.mem_of_getElem? hr)).2]
  exact loss_row

theorem loss_length (n : Nat) : (lossFile n).length = 64 + n * 16 := by
  unfold lossFile
  rw [List.length_append, List.length_flatten, List.map_replicate, List.sum_replicate_nat]
  rfl

theorem loss_grow (m n : Nat) : lossFile (m + n) = lossFile m ++ (List.replicate n lossPart).flatten := by
  unfold lossFile
  rw [← List.replicate_append_replicate, List.flatten_append, List.append_assoc]

theorem loss_cut (k m : Nat) (hk : 64 + k * 16 = 8192) : (lossFile (k + m)).take 8192 = lossFile k := by
  rw [loss_grow, List.take_left' ((loss_length k).trans hk)]

/-- A world in which the only file is `x.dc`. -/
def lossWorld (data : List Byte) : World :=
  ⟨fun p => p == utf8Encode "x.dc".toList, fun _ => false, fun p => if p = utf8Encode "x.dc".toList then some ⟨data, [.bytes 3], none⟩ else none,
   fun _ => none, fun _ => .err (.io .other), ⟨[], [], none⟩⟩

def lossEnv (data : List Byte) : CliEnv := { exEnv with world := lossWorld data }
/-- `chopper -o x.dc x.dc` -/
def lossArgs : CliArgs := { inputs := some ["x.dc".toList], output := some "x.dc".toList, outEpoch := true }
def lossSettings : CliSettings noLib := ⟨[⟨.path "x.dc".toList, .auto⟩], ⟨none, none⟩, ⟨none, .auto, .auto, .auto, none⟩, .new [','] true none .epoch .nanos none⟩

theorem loss_over (data : List Byte) : OverItself (lossEnv data) lossArgs lossSettings "x.dc".toList data exDev where
  settings := rfl
  input := ⟨.auto, rfl, .inl ⟨"x".toList, by decide +kernel, rfl⟩⟩
  plain := ⟨rfl, rfl⟩
  isFile := ⟨rfl, by simp [lossEnv, lossWorld], by decide +kernel⟩
  bytes := ⟨⟨data, [.bytes 3], none⟩, by simp [lossEnv, lossWorld], by intro k hk; rcases hk with hk | hk <;> simp at hk, rfl⟩
  output := ⟨rfl, ⟨"x.".toList, by decide +kernel⟩, rfl, rfl⟩

theorem loss_good (n : Nat) : GoodInputs ⟨none, none⟩ lossHeader [⟨lossHeader, ⟨List.replicate (n + 1) lossRow, .eof⟩⟩] where
  header := by simp
  sorted := by
    intro f hf
    simp only [List.mem_singleton] at hf
    subst hf
    exact List.pairwise_replicate.2 (.inr (by decide))
  some := by
    intro f hf
    simp only [List.mem_singleton] at hf
    subst hf
    exact ⟨lossRow, by simp [List.replicate_succ], by decide⟩
  readable := by
    intro f hf
    simp only [List.mem_singleton] at hf
    subst hf
    simp [endingWithin]

/-- There is such a function. -/
theorem dcMeaning_exists : ∃ meaning, DcMeaning meaning := by
  classical
  refine ⟨fun bytes => if h : ∃ p : Header × Source, IsDcFile bytes p.1 p.2 then h.choose.2 else ⟨[], .eof⟩, ?_⟩
  intro bytes h src hf
  have hex : ∃ p : Header × Source, IsDcFile bytes p.1 p.2 := ⟨(h, src), hf⟩
  simp only [dif_pos hex]
  exact (C94_unambiguous _ _ _ _ _ hex.choose_spec hf).2

theorem bind_out_ok {α β : Type} (x : Wr α) (f : α → Wr β) {b : β} (h : (Wr.bind x f).res = .ok b) :
    ∃ a, x.res = .ok a ∧ (f a).res = .ok b ∧ (Wr.bind x f).out = x.out ++ (f a).out := by
  unfold Wr.bind at h ⊢
  cases hx : x.res with
  | ok a => rw [hx] at h; exact ⟨a, rfl, h, rfl⟩
  | err e => rw [hx] at h; simp at h
  | panic => rw [hx] at h; simp at h
  | diverge => rw [hx] at h; simp at h

theorem rows_out_len (k : Nat) : ∀ rows : List Row, (dcWriteRows k rows).res = .ok () → 8 * rows.length ≤ (dcWriteRows k rows).out.length
  | [], _ => Nat.zero_le _
  | r :: rs, h => by
    rw [dcWriteRows] at h ⊢
    obtain ⟨_, h1, h2, h3⟩ := bind_out_ok _ _ h
    obtain ⟨_, _, _, h4⟩ := bind_out_ok _ _ h1
    have h5 := rows_out_len k rs h2
    rw [h3, List.length_append, dcWriteRow, h4, List.length_append, List.length_cons]
    have : (Wr.put (beBytes 8 r.timestamp.toNat)).out.length = 8 := beBytes_length 8 _
    omega

theorem file_out_len {ov : Overflow} {h : Header} {rows : List Row} (hr : (dcWriteFile ov h rows).res = .ok ()) : 8 * rows.length ≤ (dcWriteFile ov h rows).out.length := by
  obtain ⟨k, _, h2, h3⟩ := bind_out_ok _ _ hr
  have := rows_out_len k rows h2
  rw [dcWriteFile, h3, List.length_append]
  omega

theorem loss_fits : RowFits lossHeader.types lossRow := by
  refine ⟨rfl, ?_⟩
  intro i t v ht hv
  match i with
  | 0 => cases ht; cases hv; exact trivial
  | 1 => cases ht; cases hv; show _ < _; decide +kernel
  | _ + 2 => cases ht

theorem loss_run (fetch : List Byte → Nat → List Byte → Nat) (meaning : List Byte → Source) (hm : DcMeaning meaning) (k m sfuel fuel : Nat) (hk : 64 + (k + 1) * 16 = 8192)
    (hm' : 8192 < 8 * (k + 1 + m)) (hsf : k + 1 < sfuel) (hfuel : k + 2 ≤ fuel) :
    (∃ out, (chopperCliInPlace (lossEnv (lossFile (k + 1 + m))) lossArgs fetch [some ⟨meaning, (lossFile (k + 1 + m)).take 8192⟩] sfuel fuel).result = .ok () ∧
      (chopperCliInPlace (lossEnv (lossFile (k + 1 + m))) lossArgs fetch [some ⟨meaning, (lossFile (k + 1 + m)).take 8192⟩] sfuel fuel).output = some out ∧
      out.taken = (dcWriteFile .panics lossHeader (List.replicate (k + 1) lossRow)).out ∧ out.taken.length ≤ 8192) ∧
    ∃ out, (chopperCli (lossEnv (lossFile (k + 1 + m))) lossArgs).result = .ok () ∧ (chopperCli (lossEnv (lossFile (k + 1 + m))) lossArgs).output = some out ∧ 8192 < out.taken.length := by
  have hcut : (lossFile (k + 1 + m)).take 8192 = lossFile (k + 1) := loss_cut (k + 1) m hk
  have hkeep : ∀ n, (List.replicate n lossRow).filter (fun r => inRange lossSettings.range r.timestamp) = List.replicate n lossRow := by
    intro n
    rw [List.filter_eq_self]
    intro r hr
    rw [(List.mem_replicate.1 hr).2]
    decide
  have hrel : Reliable exDev := by intro k hk; simp [exDev] at hk
  have hnames : ∀ n ∈ lossHeader.names, (utf8Encode n).length < 2 ^ 32 := by decide +kernel
  have htypes : ∀ t ∈ lossHeader.types, t ≠ .boolean ∧ t ≠ .byteBuf := by decide
  have hfits : ∀ n, ∀ r ∈ List.replicate n lossRow, RowFits lossHeader.types r := fun n r hr => (List.mem_replicate.1 hr).2 ▸ loss_fits
  have hp : lossHdr <+: (lossFile (k + 1 + m)).take 8192 := by rw [hcut]; exact List.prefix_append _ _
  have hhdr : (dcProcessHeader (lossEnv (lossFile (k + 1 + m))).csv.ov lossHeader).out.length ≤ lossHdr.length := by
    show (dcProcessHeader .panics lossHeader).out.length ≤ lossHdr.length
    decide +kernel
  have hf : IsDcFile ((lossFile (k + 1 + m)).take 8192) lossHeader ⟨List.replicate (k + 1) lossRow, .eof⟩ := by rw [hcut]; exact loss_file (k + 1)
  constructor
  · obtain ⟨out, h1, h2, h3, h4⟩ := C136_kept (lossEnv (lossFile (k + 1 + m))) lossArgs lossSettings _ _ _ (loss_over _) hrel fetch meaning hm lossHeader lossHdr hp loss_header hhdr _ hf sfuel fuel
      (by rw [List.length_replicate]; exact hsf) (by rw [List.length_replicate]; exact hfuel) (loss_good k) (by decide) (by decide) htypes rfl hnames (fun r hr _ => hfits _ r hr)
    have h5 := (C136_dc (lossEnv (lossFile (k + 1 + m))) lossArgs lossSettings _ _ _ (loss_over _) fetch meaning hm lossHeader lossHdr hp loss_header hhdr _ hf sfuel fuel
      (by rw [List.length_replicate]; exact hsf) (by rw [List.length_replicate]; exact hfuel)).2 out h2
    refine ⟨out, h1, h2, ?_, h5⟩
    rw [hkeep] at h4
    exact h4
  · have ho := loss_over (lossFile (k + 1 + m))
    have hg : GoodInputs lossSettings.range lossHeader [⟨lossHeader, ⟨List.replicate (k + 1 + m) lossRow, .eof⟩⟩] := by
      rw [show k + 1 + m = k + m + 1 by omega]; exact loss_good (k + m)
    obtain ⟨out, rows, h1, h2, h3, _, h4, h5⟩ := C61_dc (lossEnv (lossFile (k + 1 + m))) lossArgs lossSettings _ lossHeader exDev ho.settings (ho.opens (loss_file _)) hg
      ⟨_, ho.output.1, ho.output.2.1, ho.output.2.2.1⟩ hrel rfl (by decide) (by decide) htypes hnames (by
        intro f hf' r hr' _
        simp only [List.mem_singleton] at hf'
        subst hf'
        exact hfits _ r hr')
    refine ⟨out, h1, h2, ?_⟩
    have h6 : rows = List.replicate (k + 1 + m) lossRow := (C61_merge_unique h3 (merge_one (hg.sorted _ List.mem_cons_self))).trans (hkeep _)
    have h7 := file_out_len h4
    have h8 : rows.length = k + 1 + m := by rw [h6, List.length_replicate]
    rw [h5, List.length_append]
    omega

/-- **C136 (rows are lost).** `chopper -o x.dc x.dc` on a file of 1108 equal rows: the run succeeds, and 600 of the rows are gone, however the program fetches bytes.  The same run to
another file gives more than 8192 bytes. -/
theorem C136_loss (fetch : List Byte → Nat → List Byte → Nat) (meaning : List Byte → Source) (hm : DcMeaning meaning) (sfuel fuel : Nat) (hsf : 508 < sfuel) (hfuel : 509 ≤ fuel) :
    (∃ out, (chopperCliInPlace (lossEnv (lossFile 1108)) lossArgs fetch [some ⟨meaning, (lossFile 1108).take 8192⟩] sfuel fuel).result = .ok () ∧
      (chopperCliInPlace (lossEnv (lossFile 1108)) lossArgs fetch [some ⟨meaning, (lossFile 1108).take 8192⟩] sfuel fuel).output = some out ∧
      out.taken = (dcWriteFile .panics lossHeader (List.replicate 508 lossRow)).out ∧ out.taken.length ≤ 8192) ∧
    ∃ out, (chopperCli (lossEnv (lossFile 1108)) lossArgs).result = .ok () ∧ (chopperCli (lossEnv (lossFile 1108)) lossArgs).output = some out ∧ 8192 < out.taken.length :=
  loss_run fetch meaning hm 507 600 sfuel fuel (by decide) (by decide) hsf hfuel

theorem loss_refutes (k m : Nat) (hk : 64 + (k + 1) * 16 = 8192) (hm' : 8192 < 8 * (k + 1 + m)) : ¬ C136_full := by
  intro hfull
  obtain ⟨meaning, hm⟩ := dcMeaning_exists
  obtain ⟨⟨out, _, h2, _, h3⟩, out', _, h4, h5⟩ := loss_run (fun _ _ _ => 0) meaning hm k m (k + m + 2) (k + m + 2) hk hm' (by omega) (by omega)
  have hp : lossHdr <+: (lossFile (k + 1 + m)).take 8192 := by rw [loss_cut (k + 1) m hk]; exact List.prefix_append _ _
  have hg : GoodInputs lossSettings.range lossHeader [⟨lossHeader, ⟨List.replicate (k + 1 + m) lossRow, .eof⟩⟩] := by
    rw [show k + 1 + m = k + m + 1 by omega]; exact loss_good (k + m)
  have := (hfull (lossEnv (lossFile (k + 1 + m))) lossArgs lossSettings _ _ _ (loss_over _) (by intro k hk; simp [exDev] at hk) (fun _ _ _ => 0) meaning hm lossHeader lossHdr hp loss_header
    (show (dcProcessHeader .panics lossHeader).out.length ≤ lossHdr.length by decide +kernel) _ (loss_file _) hg (k + m + 2) (k + m + 2)
    (by rw [List.length_replicate]; omega) (by rw [List.length_replicate]; omega)).2
  rw [h2, h4] at this
  simp only [Option.map_some, Option.some.injEq] at this
  rw [this] at h3
  omega

/-- **C136 (refuted).** A run over its own input does not give what the run to another file gives. -/
theorem C136_counterexample : ¬ C136_full := loss_refutes 507 600 (by decide) (by decide)

/-- Small files meet the hypotheses of `C136_small_partial`: the in-place run is the ordinary one. -/
example (n : Nat) (hn : n ≤ 508) (fetch : List Byte → Nat → List Byte → Nat) (meaning : List Byte → Source) (hm : DcMeaning meaning) :
    chopperCliInPlace (lossEnv (lossFile n)) lossArgs fetch [some ⟨meaning, (lossFile n).take 8192⟩] (n + 1) (n + 1) = chopperCli (lossEnv (lossFile n)) lossArgs :=
  C136_small_partial _ _ lossSettings _ _ _ (loss_over (lossFile n)) (by have := loss_length n; unfold lossFile at this; omega) fetch meaning hm lossHeader lossHdr (List.prefix_append _ _) loss_header
    (show (dcProcessHeader .panics lossHeader).out.length ≤ lossHdr.length by decide +kernel) _ (loss_file n) (n + 1) (n + 1) (by simp) (by simp)

end Chopper.Props
