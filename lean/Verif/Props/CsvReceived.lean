import Verif.Proofs.CsvReceived
import Verif.Props.Delivery

/-!
# C143: CSV data that arrive only in part
-/
namespace Chopper.Props
open Chopper Chopper.Spec

variable {env : CsvEnv} {dec : Decoders} {zip : ZipLib} {w w' : World}

theorem chunks_ending (size : Nat) (k : IoKind) : ∀ (s : List ReadStep) (data : List Byte), Item.fail k ∈ chunks size s data (some k)
  | [], data => by simp [chunks, endItems]
  | .fail e :: s, data => by simp only [chunks, List.mem_cons]; exact .inr (chunks_ending size k s data)
  | .bytes m :: s, data => by
    rw [chunks]
    split
    · simp [endItems]
    · exact List.mem_append_right _ (chunks_ending size k s _)

theorem stream_ending {inner : Inner} {p : Previewer} (hp : Previewer.new defaultBufSize inner = .ok p) (h : inner.ending ≠ none) : ∃ k, Item.fail k ∈ streamOf p.reader := by
  rcases previewer_spec defaultBufSize (by decide) inner with ⟨q, h1, _, _, _, _, _, h7, _⟩ | ⟨e, h1, _⟩
  · obtain rfl : q = p := Res.ok.inj (h1.symm.trans hp)
    cases he : inner.ending with
    | none => exact absurd he h
    | some k =>
      refine ⟨k, ?_⟩
      unfold streamOf
      rw [h7, he]
      exact List.mem_append_right _ (chunks_ending _ k _ _)
  · rw [h1] at hp; cases hp

/-- How a CSV input is opened. -/
theorem csv_opened {cfg : CsvInputConfig env.lib} {b : Byte} {header : Bool} {u : TimestampUnits} (hc : Explicit cfg b header u) {i : Input} {r : Inner} {n : Option Str}
    (hi : Delivered zip w i r n) (hn : SaysCsv n i.format) (h : Header) (out : Source) :
    createFromInput (newInputs env dec zip w (some cfg) [] []) w i = .ok ⟨h, out⟩ ↔
      ∃ p, Previewer.new defaultBufSize r = .ok p ∧ IsCsvInput env.ov env.lib cfg.tz header cfg.tsCol u (env.csv.parse b header p.reader) h out := by
  rw [hi.opens (some cfg)]
  constructor
  · intro h1
    obtain ⟨p, hp, h2⟩ := Res.bind_eq_ok.1 h1
    rw [says_csv hn] at h2
    exact ⟨p, hp, (C97_open env cfg b header u hc p h out).1 h2⟩
  · rintro ⟨p, hp, h2⟩
    rw [hp, Res.bind_ok, says_csv hn]
    exact (C97_open env cfg b header u hc p h out).2 h2

/-- What is read of a part of the data, and of all of them. -/
theorem csv_parts {cfg : CsvInputConfig env.lib} (hcrate : env.csv = csvCrate) {b : Byte} {header : Bool} {u : TimestampUnits} (hc : Explicit cfg b header u) (hb : b.toNat < 128)
    {r r' : Inner} {p p' : Previewer} (hp : Previewer.new defaultBufSize r = .ok p) (hp' : Previewer.new defaultBufSize r' = .ok p') (hr : r.data <+: r'.data) (hnf : NoFail r')
    {h : Header} {out : Source} (ho : IsCsvInput env.ov env.lib cfg.tz header cfg.tsCol u (env.csv.parse b header p.reader) h out) :
    (r.ending ≠ none ∨ 2 ≤ out.rows.length → ∃ out', IsCsvInput env.ov env.lib cfg.tz header cfg.tsCol u (env.csv.parse b header p'.reader) h out' ∧
      (r.ending ≠ none → out.rows <+: out'.rows ∧ out.ending ≠ .eof) ∧ out.rows.dropLast.dropLast <+: out'.rows ∧ (out'.ending = .eof → out.rows.dropLast <+: out'.rows)) := by
  obtain ⟨first, rest, names, col, hint, o1, o2, o3, rfl, o5⟩ := ho
  rw [hcrate] at o1 o2 o5 ⊢
  obtain ⟨done, tail, more, c1, c2, c3, c4⟩ := crate_part hb hp hp' hnf hr o1
  obtain ⟨A, T, M, p1, p2, p3, p4, p5⟩ := parse_part c1 c2 c3 o1
  intro hlong
  have hT : r.ending ≠ none → ∃ k, T = [.err (.io k)] := fun he => p5 (c4 (stream_ending hp he))
  have hA : ∃ A', A = .ok first :: A' := by
    rw [p1] at o1
    cases A with
    | nil =>
      exfalso
      rcases hlong with he | hl
      · obtain ⟨k, hk⟩ := hT he
        rw [hk] at o1
        cases o1
      · have := (meaning_length o5).1
        rw [p1] at this
        simp at this
        omega
    | cons x A' => exact ⟨A', by rw [(List.cons.inj o1).1]⟩
  obtain ⟨A', rfl⟩ := hA
  rw [p1] at o5
  obtain ⟨out', m1, m2, m3⟩ := meaning_part (M := M) o5
  refine ⟨out', ⟨first, A' ++ M, names, col, hint, p2, ?_, o3, rfl, ?_⟩, fun he => m2 (hT he), (m3 p4).1, (m3 p4).2⟩
  · unfold CsvNames at o2 ⊢
    cases header with
    | false => exact o2
    | true => rw [if_pos rfl] at o2 ⊢; rw [p3 rfl]; exact o2
  · rw [p2]; exact m1

/-- **C143 (failing reads).** A CSV input - a file, a page, standard input - whose reading fails at some point: if it is opened at all, the input that arrives completely is opened too, with the same
header, and begins with all the rows read before the failure; and the failure is never taken for the end. -/
theorem C143_failed (env : CsvEnv) (hcrate : env.csv = csvCrate) (dec : Decoders) (zip : ZipLib) (w w' : World) (cfg : CsvInputConfig env.lib) (b : Byte) (header : Bool)
    (u : TimestampUnits) (hc : Explicit cfg b header u) (hb : b.toNat < 128) (i i' : Input) (r r' : Inner) (n n' : Option Str) (hi : Delivered zip w i r n) (hi' : Delivered zip w' i' r' n')
    (hn : SaysCsv n i.format) (hn' : SaysCsv n' i'.format) (hr : r.data <+: r'.data) (hnf : NoFail r') (hfail : r.ending ≠ none) (f : FileSource)
    (ho : createFromInput (newInputs env dec zip w (some cfg) [] []) w i = .ok f) :
    ∃ f', createFromInput (newInputs env dec zip w' (some cfg) [] []) w' i' = .ok f' ∧ f'.header = f.header ∧ f.source.rows <+: f'.source.rows ∧ f.source.ending ≠ .eof := by
  obtain ⟨h, out⟩ := f
  obtain ⟨p, hp, h1⟩ := (csv_opened hc hi hn h out).1 ho
  obtain ⟨p', hp', _⟩ := preview_ok hnf
  obtain ⟨out', m1, m2, _⟩ := csv_parts hcrate hc hb hp hp' hr hnf h1 (.inl hfail)
  exact ⟨⟨h, out'⟩, (csv_opened hc hi' hn' h out').2 ⟨p', hp', m1⟩, rfl, (m2 hfail).1, (m2 hfail).2⟩

/-- **C143 (data cut short), partial.** A CSV input whose data end too early, for whatever reason and in whatever pieces they come (or fail): if at least two rows are read, the complete input is opened
with the same header; all rows read but the last are its first rows if it has no error, and all but the last two in any case.
Missing, since false (`C143_counterexample`): the last row read. -/
theorem C143_cut_partial (env : CsvEnv) (hcrate : env.csv = csvCrate) (dec : Decoders) (zip : ZipLib) (w w' : World) (cfg : CsvInputConfig env.lib) (b : Byte) (header : Bool)
    (u : TimestampUnits) (hc : Explicit cfg b header u) (hb : b.toNat < 128) (i i' : Input) (r r' : Inner) (n n' : Option Str) (hi : Delivered zip w i r n) (hi' : Delivered zip w' i' r' n')
    (hn : SaysCsv n i.format) (hn' : SaysCsv n' i'.format) (hr : r.data <+: r'.data) (hnf : NoFail r') (f : FileSource)
    (ho : createFromInput (newInputs env dec zip w (some cfg) [] []) w i = .ok f) (hlen : 2 ≤ f.source.rows.length) :
    ∃ f', createFromInput (newInputs env dec zip w' (some cfg) [] []) w' i' = .ok f' ∧ f'.header = f.header ∧ f.source.rows.dropLast.dropLast <+: f'.source.rows ∧
      (f'.source.ending = .eof → f.source.rows.dropLast <+: f'.source.rows) := by
  obtain ⟨h, out⟩ := f
  obtain ⟨p, hp, h1⟩ := (csv_opened hc hi hn h out).1 ho
  obtain ⟨p', hp', _⟩ := preview_ok hnf
  obtain ⟨out', m1, _, m3, m4⟩ := csv_parts hcrate hc hb hp hp' hr hnf h1 (.inr hlen)
  exact ⟨⟨h, out'⟩, (csv_opened hc hi' hn' h out').2 ⟨p', hp', m1⟩, rfl, m3, m4⟩

/-- **C143, stated in full**: whatever part of a CSV file (with explicit settings) arrives, the rows read are the first rows of the complete file. -/
def C143_full : Prop :=
  ∀ (env : CsvEnv) (dec : Decoders) (zip : ZipLib) (w w' : World) (cfg : CsvInputConfig env.lib) (b : Byte) (header : Bool) (u : TimestampUnits) (i i' : Input) (r r' : Inner) (n n' : Option Str),
    env.csv = csvCrate → Explicit cfg b header u → b.toNat < 128 → Delivered zip w i r n → Delivered zip w' i' r' n' → SaysCsv n i.format → SaysCsv n' i'.format → r.data <+: r'.data → NoFail r' →
    ∀ f, createFromInput (newInputs env dec zip w (some cfg) [] []) w i = .ok f →
      ∃ f', createFromInput (newInputs env dec zip w' (some cfg) [] []) w' i' = .ok f' ∧ f'.header = f.header ∧ f.source.rows <+: f'.source.rows

end Chopper.Props
