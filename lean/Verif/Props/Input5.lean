import Verif.Props.Input4
import Verif.Props.Zip
import Verif.Spec.ZipInput

/-! # C83: checksums of zip archives used as inputs -/
namespace Chopper.Props
open Chopper Chopper.Spec

variable {env : CsvEnv} {dec : Decoders} {zip : ZipLib} {w : World} {csv : Option (CsvInputConfig env.lib)}

/-- A zip archive as input: its entry, ending with "invalid data" if the checksum is wrong, is opened under the entry's name. -/
theorem zip_input {s name : Str} {content : List Byte} {sched : List ReadStep} {sum : BitVec 32} (h : ZipAt zip w s name content sched sum) (fmt : InputFormat) :
    createFromInput (newInputs env dec zip w csv [] []) w ⟨.path s, fmt⟩ =
      (Previewer.new defaultBufSize ⟨content, sched, if Spec.crc32 content = sum then none else some .invalidData⟩).bind fun p =>
        createFromPreviewer dec (defaultFactories env csv) p (some name) fmt := by
  obtain ⟨⟨inner, L, packed, hf, hz, hs, hsum, hlast, hextra, hm⟩, hn⟩ := h
  have hop : ∀ pos, ∃ q, openZip zip inner.data pos = .ok ((CrcReader.new ⟨content, sched, none⟩ sum, name), q) := by
    intro pos
    have := openZip_single zip hs (by rcases hm with h | h | h <;> simp [h.1]) hlast (stops_of_layout hs (.inl hextra)) pos
    rw [hsum] at this
    rw [show unpacked zip L.ch.method packed = ⟨content, sched, none⟩ from ?_] at this
    · exact this
    · unfold unpacked
      rcases hm with ⟨h1, h2, h3⟩ | ⟨h1, h2⟩ | ⟨h1, h2⟩
      · rw [if_pos h1, h2, h3]
      · rw [if_neg (by omega), if_pos h1, h2]
      · rw [if_neg (by omega), if_neg (by omega), h2]
  rw [C66_zip_file env dec zip w csv s fmt inner hf.notDir hf.here hf.opens hz _ name hop]
  have hend : (CrcReader.new ⟨content, sched, none⟩ sum).asInner = ⟨content, sched, if Spec.crc32 content = sum then none else some .invalidData⟩ := by
    have := C52_incremental [content]
    simp only [List.foldl_cons, List.foldl_nil, List.flatten_cons, List.flatten_nil, List.append_nil] at this
    unfold CrcReader.asInner CrcReader.new
    simp only [this]
  rw [hend]

/-- The name or format says CSV. -/
def SaysCsv (name : Option Str) (fmt : InputFormat) : Prop :=
  (∃ base, name = some (base ++ ".csv".toList) ∧ fmt = .auto) ∨ fmt = .extension "csv".toList ∨ fmt = .extension ".csv".toList

/-- The name or format says DC. -/
def SaysDc (name : Option Str) (fmt : InputFormat) : Prop :=
  (∃ base, name = some (base ++ ".dc".toList) ∧ fmt = .auto) ∨ fmt = .extension "dc".toList ∨ fmt = .extension ".dc".toList

/-- **C83, stated in full.** A zip archive whose content does not have the stored checksum is not read like a complete input: it cannot be opened, or reading its
rows does not get to a normal end. (For CSV and DC that is not compressed again within the archive, and every csv crate that reports the errors of its reader.)
False: `C83_refuted`. -/
def C83_full : Prop :=
  ∀ (env : CsvEnv) (dec : Decoders) (zip : ZipLib) (w : World) (csv : Option (CsvInputConfig env.lib)) (s name : Str) (fmt : InputFormat) (content : List Byte)
    (sched : List ReadStep) (sum : BitVec 32), ReportsErrors env.csv → ZipAt zip w s name content sched sum → Spec.crc32 content ≠ sum →
    SaysCsv (some name) fmt ∨ SaysDc (some name) fmt →
    ∀ f, createFromInput (newInputs env dec zip w csv [] []) w ⟨.path s, fmt⟩ = .ok f → f.source.ending ≠ .eof

/-- **C83 (intact archives).** With the right checksum a zip archive is read exactly like the plain file it contains (a file of that name and content, read in the
same pieces), in any format. -/
theorem C83_intact (env : CsvEnv) (dec : Decoders) (zip : ZipLib) (w : World) (csv : Option (CsvInputConfig env.lib)) (s name : Str) (fmt : InputFormat)
    (content : List Byte) (sched : List ReadStep) (h : ZipAt zip w s name content sched (Spec.crc32 content))
    (w' : World) (s' : Str) (hp : FileAt w' s' ⟨content, sched, none⟩) (hname : lastComponent s' = some name) (hh : ¬ HttpAddress s')
    (hz : ¬ [0x50, 0x4b, 3, 4] <+: content) :
    createFromInput (newInputs env dec zip w csv [] []) w ⟨.path s, fmt⟩ = createFromInput (newInputs env dec zip w' csv [] []) w' ⟨.path s', fmt⟩ := by
  rw [zip_input h, if_pos rfl, C66_plain_file env dec zip w' csv s' fmt _ hp.notDir hp.here hp.opens hh hz, hname]

/-- **C83 (small archives, partial).** If the content is shorter than the preview (8192 bytes), a wrong checksum is always reported when the input is opened, whatever
the format. -/
theorem C83_small_partial (env : CsvEnv) (dec : Decoders) (zip : ZipLib) (w : World) (csv : Option (CsvInputConfig env.lib)) (s name : Str) (fmt : InputFormat)
    (content : List Byte) (sched : List ReadStep) (sum : BitVec 32) (h : ZipAt zip w s name content sched sum) (hbad : Spec.crc32 content ≠ sum)
    (hl : content.length < defaultBufSize) :
    createFromInput (newInputs env dec zip w csv [] []) w ⟨.path s, fmt⟩ = .err (.io .invalidData) := by
  rw [zip_input h, if_neg hbad]
  rcases previewer_spec defaultBufSize (by decide) ⟨content, sched, some .invalidData⟩ with ⟨p, _, _, _, _, _, _, _, h8⟩ | ⟨e, h1, h2⟩
  · have := h8 hl; simp at this
  · rw [h1]
    rcases h2 with h2 | h2
    · exact absurd h2 (h.noFail e)
    · simp only [Option.some.injEq] at h2
      subst h2
      rfl

/-- A source with a bad answer ahead does not end normally. -/
theorem csv_bad_ahead (env : CsvEnv) (tz : ChopperTz env.lib) : ∀ (fuel : Nat) (src : CsvSource), src.hasNext = true →
    (∃ x ∈ src.records, ∀ rec, x ≠ .ok rec) → (toSource (CsvSource.nextRow env tz) fuel src).ending ≠ .eof
  | 0, src, _, _ => by simp [toSource]
  | fuel + 1, src, hn, ⟨x, hx, hbad⟩ => by
    unfold toSource CsvSource.nextRow
    simp only [hn, Bool.not_true, Bool.false_eq_true, if_false]
    cases hr : src.records with
    | nil => rw [hr] at hx; simp at hx
    | cons r rest =>
      cases r with
      | ok rec =>
        have hx' : x ∈ rest := by
          rw [hr] at hx
          rcases List.mem_cons.1 hx with h | h
          · exact absurd h (hbad rec)
          · exact h
        simp only
        rcases updateRow env tz src.tsCol src.tsFmt src.row rec with ⟨_ | _ | _ | _, row⟩
        · exact csv_bad_ahead env tz fuel _ rfl ⟨x, hx', hbad⟩
        all_goals simp
      | err e => simp
      | panic => simp
      | diverge => simp

theorem csv_open_bad {env : CsvEnv} {cfg : CsvInputConfig env.lib} {p : Previewer} {src : CsvSource} (hr : ReportsErrors env.csv) {k : IoKind}
    (hk : p.reader.inner.ending = some k) (h : csvOpen env cfg p = .ok src) : src.hasNext = true ∧ ∃ x ∈ src.records, ∀ rec, x ≠ .ok rec := by
  unfold csvOpen at h
  simp only [Res.bind_eq_ok] at h
  obtain ⟨d, _, h⟩ := h
  obtain ⟨x, hx, hbad⟩ := hr d (csvHasHeader env.isF64 cfg.hasHeader (p.lines.bind (·[0]?)) (p.lines.bind (·[1]?)) d) p.reader k hk
  generalize env.csv.parse d (csvHasHeader env.isF64 cfg.hasHeader (p.lines.bind (·[0]?)) (p.lines.bind (·[1]?)) d) p.reader = data at h hx
  unfold csvStart at h
  cases hd : data.records with
  | nil => rw [hd] at hx; simp at hx
  | cons first rest =>
    rw [hd] at h hx
    simp only [Res.bind_eq_ok] at h
    obtain ⟨rec, h1, names, _, ⟨col, fmt⟩, _, u, _, h5⟩ := h
    have hx' : x ∈ rest := by
      rcases List.mem_cons.1 hx with h | h
      · exact absurd (h.trans h1) (hbad rec)
      · exact h
    simp only [Res.ok.injEq] at h5
    subst h5
    exact ⟨rfl, x, hx', hbad⟩

theorem says_csv {cfg : CsvInputConfig env.lib} {p : Previewer} {name : Option Str} {fmt : InputFormat} (h : SaysCsv name fmt) :
    createFromPreviewer dec (defaultFactories env (some cfg)) p name fmt = (csvFactory env cfg).create p := by
  have hdot : ∀ b : Str, NameSplits (b ++ ".csv".toList) none (b ++ ".csv".toList) := by
    intro b
    refine ⟨rfl, ?_⟩
    intro f b' h
    have hl := congrArg List.getLast? h
    rw [ext_last] at hl
    have : (b ++ ".csv".toList).getLast? = some 'v' := by simp [List.getLast?_append]
    rw [this] at hl
    cases f <;> simp [extLast] at hl
  have hfirst : ∀ b : Str, FirstOf (defaultFactories env (some cfg)) (·.canFormat (b ++ ".csv".toList)) (csvFactory env cfg) := fun b =>
    ⟨[], [dcFactory env.ov], rfl, (endsWith_iff _ _).2 ⟨b, rfl⟩, by simp⟩
  rcases h with ⟨base, rfl, rfl⟩ | rfl | rfl
  · exact C57_name_first dec _ p _ none _ (hdot base) _ (hfirst base)
  · exact (C57_explicit dec _ p _ "csv".toList ".csv".toList (.inr ⟨rfl, by intro r; simp⟩) none ".csv".toList (hdot [])).1 _ (hfirst [])
  · exact (C57_explicit dec _ p _ ".csv".toList ".csv".toList (.inl ⟨rfl, _, rfl⟩) none ".csv".toList (hdot [])).1 _ (hfirst [])

theorem says_dc {p : Previewer} {name : Option Str} {fmt : InputFormat} (h : SaysDc name fmt) :
    createFromPreviewer dec (defaultFactories env csv) p name fmt = (dcFactory env.ov).create p := by
  have hdot : ∀ b : Str, NameSplits (b ++ ".dc".toList) none (b ++ ".dc".toList) := by
    intro b
    refine ⟨rfl, ?_⟩
    intro f b' h
    have hl := congrArg List.getLast? h
    rw [ext_last] at hl
    have : (b ++ ".dc".toList).getLast? = some 'c' := by simp [List.getLast?_append]
    rw [this] at hl
    cases f <;> simp [extLast] at hl
  have hfirst : ∀ b : Str, FirstOf (defaultFactories env csv) (·.canFormat (b ++ ".dc".toList)) (dcFactory env.ov) := by
    intro b
    have hdc : (dcFactory env.ov).canFormat (b ++ ".dc".toList) = true := (endsWith_iff _ _).2 ⟨b, rfl⟩
    cases csv with
    | none => exact ⟨[], [], rfl, hdc, by simp⟩
    | some cfg =>
      refine ⟨[csvFactory env cfg], [], rfl, hdc, ?_⟩
      intro g hg
      simp only [List.mem_singleton] at hg
      subst hg
      show endsWith _ _ = false
      cases he : endsWith (b ++ ".dc".toList) ['.', 'c', 's', 'v'] with
      | false => rfl
      | true =>
        obtain ⟨b', hb'⟩ := (endsWith_iff _ _).1 he
        have hl := congrArg List.getLast? hb'
        simp [List.getLast?_append] at hl
  rcases h with ⟨base, rfl, rfl⟩ | rfl | rfl
  · exact C57_name_first dec _ p _ none _ (hdot base) _ (hfirst base)
  · exact (C57_explicit dec _ p _ "dc".toList ".dc".toList (.inr ⟨rfl, by intro r; simp⟩) none ".dc".toList (hdot [])).1 _ (hfirst [])
  · exact (C57_explicit dec _ p _ ".dc".toList ".dc".toList (.inl ⟨rfl, _, rfl⟩) none ".dc".toList (hdot [])).1 _ (hfirst [])

/-- **C83 (CSV, partial).** CSV in a zip archive with a wrong checksum never looks like a complete input, whatever its size. -/
theorem C83_csv_partial (env : CsvEnv) (dec : Decoders) (zip : ZipLib) (w : World) (cfg : CsvInputConfig env.lib) (s name : Str) (fmt : InputFormat)
    (content : List Byte) (sched : List ReadStep) (sum : BitVec 32) (hr : ReportsErrors env.csv) (h : ZipAt zip w s name content sched sum)
    (hbad : Spec.crc32 content ≠ sum) (hfmt : SaysCsv (some name) fmt) :
    ∀ f, createFromInput (newInputs env dec zip w (some cfg) [] []) w ⟨.path s, fmt⟩ = .ok f → f.source.ending ≠ .eof := by
  intro f hf
  rw [zip_input h, if_neg hbad] at hf
  rcases previewer_spec defaultBufSize (by decide) ⟨content, sched, some .invalidData⟩ with ⟨p, h1, _, _, _, _, _, h7, _⟩ | ⟨e, h1, _⟩
  · rw [h1, Res.bind_ok, says_csv hfmt] at hf
    have hf' : ((csvOpen env cfg p).bind fun src => .ok (src.toFile env cfg.tz)) = .ok f := hf
    rw [Res.bind_eq_ok] at hf'
    obtain ⟨src, h2, h3⟩ := hf'
    simp only [Res.ok.injEq] at h3
    subst h3
    obtain ⟨h4, h5⟩ := csv_open_bad hr h7 h2
    exact csv_bad_ahead env cfg.tz _ src h4 h5
  · rw [h1] at hf; simp [Res.bind] at hf

theorem delivers_take {src fin : DcSource} {rows : List Row} (h : Delivers src rows fin) : ∀ k, ∃ mid, Delivers src (rows.take k) mid := by
  induction h with
  | nil src => intro k; exact ⟨src, by simpa using .nil src⟩
  | cons h1 _ ih =>
    intro k
    cases k with
    | zero => exact ⟨_, .nil _⟩
    | succ k => obtain ⟨mid, hm⟩ := ih k; exact ⟨mid, .cons h1 hm⟩

theorem delivers_unique {src f1 f2 : DcSource} {rows : List Row} (h1 : Delivers src rows f1) (h2 : Delivers src rows f2) : f1 = f2 := by
  induction h1 with
  | nil src => cases h2; rfl
  | cons a _ ih =>
    cases h2 with
    | cons b h2 =>
      rw [a] at b
      injection b with b1 b2
      subst b2
      exact ih h2

/-- **C83 is false for every DC file of at least 8192 bytes**: with a wrong checksum it is read like an intact one - all rows and a normal end; the error at the
end of the data is taken for the end of the file (cf. C39). -/
theorem C83_dc_never (env : CsvEnv) (dec : Decoders) (zip : ZipLib) (w : World) (csv : Option (CsvInputConfig env.lib)) (s name : Str) (fmt : InputFormat)
    (content : List Byte) (sched : List ReadStep) (sum : BitVec 32) (h : ZipAt zip w s name content sched sum)
    (hbad : Spec.crc32 content ≠ sum) (hfmt : SaysDc (some name) fmt) (hl : defaultBufSize ≤ content.length)
    (src fin : DcSource) (rows : List Row) (ho : dcOpen env.ov (ofBytes content) = .ok src) (hd : Delivers src rows fin) (hfin : fin.stream = []) :
    createFromInput (newInputs env dec zip w csv [] []) w ⟨.path s, fmt⟩ = .ok ⟨src.header, ⟨rows, .eof⟩⟩ := by
  rw [zip_input h, if_neg hbad]
  obtain ⟨p, h1, h3, h7⟩ := previewer_large (capacity := defaultBufSize) (by decide) (inner := ⟨content, sched, some .invalidData⟩) hl h.noFail
  rw [h1, Res.bind_ok, says_dc hfmt]
  show (dcOpen env.ov (streamOf p.reader)).bind (fun src => .ok src.toFile) = _
  have hst : streamOf p.reader = ofBytes (content.take content.length) ++ Item.fail IoKind.invalidData :: [] := by
    rw [streamOf_eq _ (fun e he => h.noFail e (previewer_sched h1 _ he)), h3, h7, List.take_length]
    rfl
  rw [hst]
  obtain ⟨k, mid, cut, stop, hk, g0, g1, g2, _, g4, g5, g6, g7⟩ := C39_failure_partial env.ov content src fin rows content.length .invalidData [] ho hd (by omega) (by
    rw [hfin]; simp)
  have hmid : k = rows.length := by
    rcases Nat.lt_or_ge k rows.length with hlt | hge
    · obtain ⟨mid', hmid'⟩ := delivers_take hd (k + 1)
      have := g2 hlt mid' hmid'
      omega
    · omega
  subst hmid
  rw [List.take_length] at g0 g6
  have hmf : mid = fin := delivers_unique g0 hd
  rw [hmf, hfin] at g7
  have hr : RunsAs DcSource.nextRow cut ⟨rows, .eof⟩ := by
    refine ⟨stop, delivers_yields g6, ?_⟩
    rw [g7, if_pos (by simp)]
  have heq := runsAs_unique (dc_toFile_runs cut) hr
  rw [g4, Res.bind_ok]
  show Res.ok (⟨cut.header, (cut.toFile).source⟩ : FileSource) = _
  rw [heq, g5]

/-! ## Archives with one stored file -/

def oneLocal (nm : List Byte) : LocalHeader := ⟨List.replicate 22 0, nm, []⟩
def oneCentral (nm content : List Byte) (sum : BitVec 32) : CentralHeader :=
  ⟨[0, 0, 0, 0], 0, 0, [0, 0, 0, 0], sum, content.length, content.length, 0, [0, 0, 0, 0, 0, 0], 0, nm, [], []⟩
/-- A zip archive with one stored file with a name of four bytes, with any checksum. -/
def oneZip (nm content : List Byte) (sum : BitVec 32) : List Byte :=
  (oneLocal nm).bytes ++ content ++ (oneCentral nm content sum).bytes ++ eocdBytes 0 0 1 1 50 (34 + content.length) []
def oneLayout (nm content : List Byte) (sum : BitVec 32) : Layout :=
  ⟨0, oneLocal nm, 34 + content.length, oneCentral nm content sum, 84 + content.length, 50, 34 + content.length, []⟩

theorem at_of {l a b file : List Byte} {n : Nat} (h : file = a ++ l ++ b) (hn : n = a.length) : At file n l := by
  unfold At
  rw [h, hn, List.append_assoc, List.drop_left, List.take_left]

theorem four {l : List Byte} (h : l.length = 4) : ∃ a b c d, l = [a, b, c, d] := by
  match l, h with
  | [a, b, c, d], _ => exact ⟨a, b, c, d, rfl⟩

theorem oneZip_gap (nm content : List Byte) (sum : BitVec 32) (hnm : nm.length = 4) : ∃ a b, oneZip nm content sum = a ++ [0, 0, 0, 0] ++ b ∧ a.length = 64 + content.length := by
  refine ⟨(oneLocal nm).bytes ++ content ++ ([0x50, 0x4b, 1, 2] ++ [0, 0, 0, 0] ++ leBytes 2 0 ++ leBytes 2 0 ++ [0, 0, 0, 0] ++ leBytes 4 sum.toNat ++
    leBytes 4 content.length ++ leBytes 4 content.length ++ leBytes 2 nm.length), leBytes 2 0 ++ [0, 0, 0, 0, 0, 0] ++ leBytes 4 0 ++ nm ++
    eocdBytes 0 0 1 1 50 (34 + content.length) [], ?_, ?_⟩
  · have hb : [0, 0, 0, 0] = leBytes 2 0 ++ leBytes 2 0 := by decide
    unfold oneZip CentralHeader.bytes CentralHeader.fixedBytes
    simp only [oneCentral, CentralHeader.extraBytes, List.flatMap_nil, List.length_nil, List.append_nil]
    have hb' : ∀ b : List Byte, leBytes 2 0 ++ (leBytes 2 0 ++ b) = [0, 0, 0, 0] ++ b := fun b => by rw [← List.append_assoc, ← hb]
    simp only [List.append_assoc, hb']
  · simp only [List.length_append, LocalHeader.bytes, oneLocal, hnm, leBytes_length, List.length_cons, List.length_nil, List.length_replicate]; omega

theorem oneZip_single (nm content : List Byte) (sum : BitVec 32) (name : Str) (hnm : nm.length = 4) (hname : NameIs 0 nm name) (hl : content.length < 2 ^ 20) :
    SingleFile (oneZip nm content sum) (oneLayout nm content sum) name content.length content ∧
      LastEnd (oneZip nm content sum) (84 + content.length) ∧ [0x50, 0x4b, 3, 4] <+: oneZip nm content sum := by
  have hz : ∀ n, 0 < n → 0 < n := fun _ h => h
  have hok : (oneCentral nm content sum).Ok :=
    ⟨rfl, hz _ (by decide), hz _ (by decide), rfl, show content.length < _ by omega, show content.length < _ by omega, hz _ (by decide), rfl, hz _ (by decide),
      show nm.length < _ by omega, hz _ (by decide), by intro s hs; simp [oneCentral] at hs, hz _ (by decide)⟩
  have hloc : (oneLocal nm).bytes.length = 34 := by
    simp [LocalHeader.bytes, oneLocal, hnm, leBytes_length]
  have hcl : (oneCentral nm content sum).bytes.length = 50 := by
    rw [central_length _ hok]; simp [oneCentral, CentralHeader.extraBytes, hnm]
  have hel : (eocdBytes 0 0 1 1 50 (34 + content.length) []).length = 22 := by
    simp only [eocdBytes, List.length_append, leBytes_length, List.length_cons, List.length_nil]
  have hlen : (oneZip nm content sum).length = 34 + content.length + 50 + 22 := by
    simp only [oneZip, List.length_append, hloc, hel, hcl]
  have h1 : oneZip nm content sum = [] ++ ((oneLocal nm).bytes ++ content) ++
      ((oneCentral nm content sum).bytes ++ eocdBytes 0 0 1 1 50 (34 + content.length) []) := by
    simp [oneZip, List.append_assoc]
  have h2 : oneZip nm content sum = ((oneLocal nm).bytes ++ content) ++ (oneCentral nm content sum).bytes ++
      eocdBytes 0 0 1 1 50 (34 + content.length) [] := rfl
  have h3 : oneZip nm content sum = ((oneLocal nm).bytes ++ content ++ (oneCentral nm content sum).bytes) ++
      eocdBytes 0 0 1 1 50 (34 + content.length) [] ++ [] := by simp [oneZip]
  refine ⟨?_, ?_, ?_⟩
  · constructor
    · exact ⟨show (oneLocal nm).mid.length = 22 by simp [oneLocal], show nm.length < _ by omega, show (oneLocal nm).extra.length < 65536 by simp [oneLocal]⟩
    · exact at_of h1 rfl
    · simp only [oneLayout, hloc, hlen]; omega
    · exact hok
    · exact at_of h2 (by simp only [oneLayout, List.length_append, hloc])
    · show Nat.testBit 0 0 = false; decide
    · exact .inl rfl
    · refine ⟨?_, fun _ => ⟨rfl, rfl, rfl⟩, ?_, show content.length < _ by omega, show content.length < _ by omega, hz _ (by decide)⟩
      · intro pre s post he; simp [oneLayout, oneCentral] at he
      · intro s hs; simp [oneLayout, oneCentral] at hs
    · exact hname
    · show 50 < 2 ^ 32; decide
    · show 34 + content.length < _; omega
    · exact hz _ (by decide)
    · exact at_of h3 (by simp only [oneLayout, List.length_append, hloc, hcl]; omega)
    · show 84 + content.length + 22 + 0 = _; omega
    · show 34 + content.length + (oneCentral nm content sum).bytes.length ≤ 84 + content.length; rw [hcl]; omega
    · refine .inl ⟨?_, rfl⟩
      intro ha
      -- the four bytes there are the lengths of the extra field and of the comment
      obtain ⟨a, b, hab, hal⟩ := oneZip_gap nm content sum hnm
      have h0 := at_of hab rfl
      unfold At at ha h0
      simp only [List.length_cons, List.length_nil] at ha h0
      have he : (oneLayout nm content sum).eo - 20 = 64 + content.length := by simp only [oneLayout]; omega
      rw [he] at ha
      rw [hal] at h0
      simp only [Nat.reduceAdd] at ha h0
      rw [ha] at h0
      exact absurd h0 (by decide)
    · rw [hlen]; omega
  · intro p hp ha
    have hpl := at_len ha (by simp)
    rw [hlen] at hpl
    simp only [List.length_cons, List.length_nil] at hpl
    obtain ⟨j, rfl, hj⟩ : ∃ j, p = 84 + content.length + j ∧ 0 < j ∧ j ≤ 18 := ⟨p - (84 + content.length), by omega, by omega⟩
    have hd : (oneZip nm content sum).drop (84 + content.length + j) = (eocdBytes 0 0 1 1 50 (34 + content.length) []).drop j := by
      have hpre : 84 + content.length = ((oneLocal nm).bytes ++ content ++ (oneCentral nm content sum).bytes).length := by
        simp only [List.length_append, hloc, hcl]; omega
      rw [hpre, ← List.drop_drop]
      show (List.drop _ (((oneLocal nm).bytes ++ content ++ (oneCentral nm content sum).bytes) ++ _)).drop j = _
      rw [List.drop_left]
    unfold At at ha
    rw [hd] at ha
    obtain ⟨x0, x1, x2, x3, hx⟩ := four (leBytes_length 4 (34 + content.length))
    have he : eocdBytes 0 0 1 1 50 (34 + content.length) [] =
        [0x50, 0x4b, 5, 6, 0, 0, 0, 0, 1, 0, 1, 0, 50, 0, 0, 0, x0, x1, x2, x3, 0, 0] := by
      unfold eocdBytes
      rw [hx]
      have a0 : leBytes 2 0 = [0, 0] := by decide
      have a1 : leBytes 2 1 = [1, 0] := by decide
      have a2 : leBytes 4 50 = [50, 0, 0, 0] := by decide
      simp [a0, a1, a2]
    rw [he] at ha
    have hj' : j = 1 ∨ j = 2 ∨ j = 3 ∨ j = 4 ∨ j = 5 ∨ j = 6 ∨ j = 7 ∨ j = 8 ∨ j = 9 ∨ j = 10 ∨ j = 11 ∨ j = 12 ∨ j = 13 ∨ j = 14 ∨ j = 15 ∨ j = 16 ∨ j = 17 ∨ j = 18 := by omega
    rcases hj' with rfl | rfl | rfl | rfl | rfl | rfl | rfl | rfl | rfl | rfl | rfl | rfl | rfl | rfl | rfl | rfl | rfl | rfl <;>
      simp at ha
    -- the offset itself
    have h3 := congrArg (·[3]?) hx
    simp only [leBytes] at h3
    simp at h3
    rw [ha.2.2.2] at h3
    have := congrArg BitVec.toNat h3
    simp at this
    omega
  · exact ⟨_, by simp [oneZip, LocalHeader.bytes, List.append_assoc]; rfl⟩

def plainDecoders : Decoders := ⟨fun r => r.inner, fun r => r.inner, fun r => r.inner, fun _ => none, fun _ => none⟩
/-- A disk with one file. -/
def oneWorld (s : Str) (data : List Byte) : World :=
  ⟨fun p => p = utf8Encode s, fun _ => false, fun p => if p = utf8Encode s then some ⟨data, [], none⟩ else none, fun _ => none,
    fun _ => .err (.io .other), ⟨[], [], none⟩⟩

theorem oneZip_at (nm content : List Byte) (sum : BitVec 32) (name : Str) (hnm : nm.length = 4) (hname : NameIs 0 nm name) (hl : content.length < 2 ^ 20) :
    ZipAt exLib (oneWorld ['z'] (oneZip nm content sum)) ['z'] name content [] sum := by
  obtain ⟨h1, h2, h3⟩ := oneZip_single nm content sum name hnm hname hl
  refine ⟨⟨⟨oneZip nm content sum, [], none⟩, oneLayout nm content sum, content, ⟨rfl, ?_, ?_⟩, h3, h1, rfl, h2, rfl, .inl ⟨rfl, rfl, rfl⟩⟩, by simp⟩
  · simp [oneWorld]
  · simp [oneWorld]

/-- A csv crate that finds no records, and reports errors. -/
def strictCsv : CsvLib := ⟨fun _ _ r => ⟨.ok [], match r.inner.ending with | some k => [.err (.io k)] | none => []⟩⟩
def strictEnv : CsvEnv := ⟨.panics, noLib, strictCsv, fun _ => false, id⟩
theorem strict_reports : ReportsErrors strictEnv.csv := by
  intro d hh r k hk
  refine ⟨.err (.io k), ?_, by simp⟩
  simp [strictEnv, strictCsv, hk]

def bigUser : List Byte := List.replicate 9000 0x78
/-- A DC file without rows and with 9000 bytes of user data. -/
def bigDc : List Byte :=
  [0, 0, 0, 0, 0x44, 0x43, 0x41, 0x54] ++ [0, 2] ++ bigEndian 4 bigUser.length ++ bigUser ++ bigEndian 4 1 ++ (Column.bytes ⟨['a'], .int, "I", 0⟩)

theorem bigDc_length : bigDc.length = 9032 := by
  have : bigUser.length = 9000 := List.length_replicate
  have h2 : (Column.bytes ⟨['a'], .int, "I", 0⟩).length = 14 := by decide
  have h3 : ∀ n, (bigEndian 4 n).length = 4 := fun n => by simp [bigEndian]
  simp only [bigDc, List.length_append, this, h2, h3, List.length_cons, List.length_nil, Nat.reduceAdd]

theorem bigDc_opens : dcOpen strictEnv.ov (ofBytes bigDc) = .ok ⟨[], ⟨[['a']], [.int]⟩⟩ := by
  rw [dcOpen_iff]
  refine ⟨bigDc, by simp, bigUser, [⟨['a'], .int, "I", 0⟩], ?_, by simp, by simp, ?_, ?_, rfl, rfl⟩
  · have : bigUser.length = 9000 := List.length_replicate
    omega
  · intro c hc
    simp only [List.mem_singleton] at hc
    subst hc
    exact ⟨.int, by decide, by decide, by decide⟩
  · simp [bigDc]

/-- **C83 is false**: this archive is read like an intact one. -/
theorem C83_refuted : ¬ C83_full := by
  intro h
  have hz := oneZip_at (asciiBytes "a.dc") bigDc (Spec.crc32 bigDc + 1#32) "a.dc".toList (by decide) (by unfold NameIs; decide) (by rw [bigDc_length]; decide)
  have hne : Spec.crc32 bigDc ≠ Spec.crc32 bigDc + 1#32 := by
    generalize Spec.crc32 bigDc = x
    intro he
    have := congrArg BitVec.toNat he
    rw [BitVec.toNat_add] at this
    have := x.isLt
    simp at *
  have hs : SaysDc (some "a.dc".toList) .auto := .inl ⟨['a'], rfl, rfl⟩
  have hr := C83_dc_never strictEnv plainDecoders exLib _ none ['z'] _ .auto bigDc [] _ hz hne hs
    (by rw [bigDc_length]; decide) _ _ [] bigDc_opens (.nil _) rfl
  exact h strictEnv plainDecoders exLib _ none ['z'] _ .auto bigDc [] _ strict_reports hz hne (.inr hs) _ hr rfl

/-- The hypotheses of the other theorems are met: nine bytes of CSV with a wrong checksum, with the right one, and the same bytes in a plain file. -/
example : ∃ sum, ZipAt exLib (oneWorld ['z'] (oneZip (asciiBytes ".csv") exZipContent sum)) ['z'] ".csv".toList exZipContent [] sum ∧
    Spec.crc32 exZipContent ≠ sum ∧ exZipContent.length < defaultBufSize ∧ SaysCsv (some ".csv".toList) .auto ∧ ReportsErrors strictEnv.csv :=
  ⟨0, oneZip_at _ _ _ _ (by decide) (by unfold NameIs; decide) (by decide), by decide +kernel, by decide, .inl ⟨[], rfl, rfl⟩, strict_reports⟩
example : ZipAt exLib (oneWorld ['z'] (oneZip (asciiBytes ".csv") exZipContent (Spec.crc32 exZipContent))) ['z'] ".csv".toList exZipContent []
      (Spec.crc32 exZipContent) ∧
    FileAt (oneWorld ".csv".toList exZipContent) ".csv".toList ⟨exZipContent, [], none⟩ ∧ lastComponent ".csv".toList = some ".csv".toList ∧
    ¬ HttpAddress ".csv".toList ∧ ¬ [0x50, 0x4b, 3, 4] <+: exZipContent :=
  ⟨oneZip_at _ _ _ _ (by decide) (by unfold NameIs; decide) (by decide), ⟨rfl, by simp [oneWorld], by simp [oneWorld]⟩, by decide +kernel,
    by decide +kernel, by decide +kernel⟩
/-- ... and a DC file of more than 8192 bytes (`C83_dc_never`): see `C83_refuted`. -/
example : defaultBufSize ≤ bigDc.length := by rw [bigDc_length]; decide

end Chopper.Props
