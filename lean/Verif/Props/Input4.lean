import Verif.Props.Input3
import Verif.Props.Dc

/-! # DC files on failing media (C39) -/
namespace Chopper.Props
open Chopper Chopper.Spec

/-- **C39 (a DC file as input).** Whatever calls of the underlying reader fail, and wherever: opening the input reports one of these failures, or the input is
the DC source reading some stream with the bytes of the file, in order, and failures of the underlying reader in between. (What the DC source makes of such
a stream is the subject of `C39_failure_partial`, `C39_failure_header`.) -/
theorem C39_dc_input (env : CsvEnv) (dec : Decoders) (zip : ZipLib) (w : World) (csv : Option (CsvInputConfig env.lib)) (s : Str) (fmt : InputFormat) (inner : Inner)
    (hd : w.isDir (utf8Encode s) = false) (he : w.pathExists (utf8Encode s) = true) (hf : w.file (utf8Encode s) = some inner)
    (hh : ¬ HttpAddress s) (hz : ¬ [0x50, 0x4b, 3, 4] <+: inner.data)
    (hfmt : (∃ base, lastComponent s = some (base ++ ".dc".toList) ∧ fmt = .auto) ∨ fmt = .extension "dc".toList ∨ fmt = .extension ".dc".toList) :
    (∃ e, CanFail inner e ∧ createFromInput (newInputs env dec zip w csv [] []) w ⟨.path s, fmt⟩ = .err (.io e)) ∨
    ∃ st : Stream, bytesIn st = inner.data ∧ (∀ e, Item.fail e ∈ st → CanFail inner e) ∧
      createFromInput (newInputs env dec zip w csv [] []) w ⟨.path s, fmt⟩ = (dcOpen env.ov st).bind fun src => .ok src.toFile := by
  rw [dc_input_opens env dec zip w csv s fmt inner hd he hf hh hz hfmt]
  rcases previewer_spec defaultBufSize (by decide) inner with ⟨p, h1, _, h3, _, _, h6, h7, _⟩ | ⟨e, h1, h2⟩
  · right
    rw [h1, Res.bind_ok]
    refine ⟨streamOf p.reader, ?_, ?_, rfl⟩
    · rw [← h3, streamOf_bytes]
    · exact fun e he => previewer_canFail h1 e (streamOf_fails p.reader e he)
  · left
    exact ⟨e, h2, by rw [h1]; rfl⟩

theorem delivers_yields {src fin : DcSource} {rows : List Row} (h : Delivers src rows fin) : Yields DcSource.nextRow src rows fin := by
  induction h with
  | nil => exact .nil _
  | cons h _ ih => exact .cons h ih

/-- A stream is failure free, or splits at its first failure. -/
theorem stream_split : ∀ st : Stream, st = ofBytes (bytesIn st) ∨ ∃ (n : Nat) (e : IoKind) (t : Stream), n ≤ (bytesIn st).length ∧
    st = ofBytes ((bytesIn st).take n) ++ .fail e :: t
  | [] => .inl rfl
  | .fail e :: t => .inr ⟨0, e, t, by omega, rfl⟩
  | .byte b :: st => by
    have hb : bytesIn (.byte b :: st) = b :: bytesIn st := rfl
    rw [hb]
    rcases stream_split st with h | ⟨n, e, t, hn, h⟩
    · left; rw [ofBytes_cons, ← h]
    · right
      refine ⟨n + 1, e, t, by simp; omega, ?_⟩
      rw [List.take_succ_cons, ofBytes_cons, List.cons_append, ← h]

/-- **C39 (rows of a DC file on a failing medium, partial).** Let a file hold a DC header and the rows `rows`, nothing else. Whatever calls of the underlying reader
fail: opening it fails with one of these failures, or the input has the header of the file, its rows are the first rows of the file, unchanged, and it ends with
one of the failures or like a complete file. Missing, since it is false (`C39_silent_failure`): that it ends like a complete file only if all rows were read. -/
theorem C39_dc_rows_partial (env : CsvEnv) (dec : Decoders) (zip : ZipLib) (w : World) (csv : Option (CsvInputConfig env.lib)) (s : Str) (fmt : InputFormat) (inner : Inner)
    (hd : w.isDir (utf8Encode s) = false) (he : w.pathExists (utf8Encode s) = true) (hf : w.file (utf8Encode s) = some inner)
    (hh : ¬ HttpAddress s) (hz : ¬ [0x50, 0x4b, 3, 4] <+: inner.data)
    (hfmt : (∃ base, lastComponent s = some (base ++ ".dc".toList) ∧ fmt = .auto) ∨ fmt = .extension "dc".toList ∨ fmt = .extension ".dc".toList) :
    ∀ (src fin : DcSource) (rows : List Row), dcOpen env.ov (ofBytes inner.data) = .ok src → Delivers src rows fin → fin.stream = [] →
    (∃ e, CanFail inner e ∧ createFromInput (newInputs env dec zip w csv [] []) w ⟨.path s, fmt⟩ = .err (.io e)) ∨
    ∃ (f : FileSource) (k : Nat), createFromInput (newInputs env dec zip w csv [] []) w ⟨.path s, fmt⟩ = .ok f ∧ f.header = src.header ∧
      f.source.rows = rows.take k ∧ (f.source.ending = .eof ∨ ∃ e, CanFail inner e ∧ f.source.ending = .fail (.io e)) := by
  intro src fin rows ho hdel hfin
  rcases C39_dc_input env dec zip w csv s fmt inner hd he hf hh hz hfmt with h | ⟨st, h1, h2, h3⟩
  · exact .inl h
  rw [h3]
  rcases stream_split st with hs | ⟨n, e, t, hn, hs⟩
  · right
    rw [hs, h1, ho, Res.bind_ok]
    have hr : RunsAs DcSource.nextRow src ⟨rows, .eof⟩ := by
      refine ⟨fin, delivers_yields hdel, ?_⟩
      have hnone : fin.nextRow.1 = .ok none := by
        obtain ⟨fs, fh⟩ := fin
        simp only at hfin
        subst hfin
        rw [show ([] : Stream) = ofBytes [] from rfl, (nextRow_short [] (by decide) _).1]
      rw [hnone]
    have heq := runsAs_unique (dc_toFile_runs src) hr
    exact ⟨src.toFile, rows.length, rfl, rfl, by rw [heq, List.take_length], .inl (by rw [heq])⟩
  · rw [h1] at hs hn
    have hc : CanFail inner e := h2 e (by rw [hs]; simp)
    by_cases hlt : n < inner.data.length - src.stream.length
    · left
      refine ⟨e, hc, ?_⟩
      rw [hs, C39_failure_header env.ov inner.data src n e t ho hlt]
      rfl
    · right
      obtain ⟨k, mid, cut, stop, hk, _, _, _, _, g1, g2, g3, g4⟩ := C39_failure_partial env.ov inner.data src fin rows n e t ho hdel (by omega) (by
        rw [hfin]; simpa using hn)
      have hr : RunsAs DcSource.nextRow cut ⟨rows.take k, if n - (inner.data.length - mid.stream.length) < 8 then .eof else .fail (.io e)⟩ := by
        refine ⟨stop, delivers_yields g3, ?_⟩
        rw [g4]
        by_cases h8 : n - (inner.data.length - mid.stream.length) < 8
        · simp only [if_pos h8]
        · simp only [if_neg h8]
      have heq := runsAs_unique (dc_toFile_runs cut) hr
      rw [hs, g1, Res.bind_ok]
      refine ⟨cut.toFile, k, rfl, g2, by rw [heq], ?_⟩
      rw [heq]
      simp only
      split
      · exact .inl rfl
      · exact .inr ⟨e, hc, rfl⟩

/-- The hypotheses are met: the DC file `exDc` on a medium of which the second read fails (while the file is previewed, so that it cannot be opened). -/
def exBadWorld : World := { exDcWorld with file := fun p => if p = utf8Encode "d/x.dc".toList then some ⟨exDc, [.bytes 3, .fail .brokenPipe], none⟩ else none }

example : (∃ e, CanFail ⟨exDc, [.bytes 3, .fail .brokenPipe], none⟩ e ∧
      createFromInput (newInputs (recordsEnv []) ⟨fun r => r.inner, fun r => r.inner, fun r => r.inner, fun _ => none, fun _ => none⟩ exLib exBadWorld none [] [])
        exBadWorld ⟨.path "d/x.dc".toList, .auto⟩ = .err (.io e)) ∨
    ∃ (f : FileSource) (k : Nat),
      createFromInput (newInputs (recordsEnv []) ⟨fun r => r.inner, fun r => r.inner, fun r => r.inner, fun _ => none, fun _ => none⟩ exLib exBadWorld none [] [])
        exBadWorld ⟨.path "d/x.dc".toList, .auto⟩ = .ok f ∧ f.header = ⟨[['a']], [.int]⟩ ∧
      f.source.rows = ([] : List Row).take k ∧ (f.source.ending = .eof ∨ ∃ e, CanFail ⟨exDc, [.bytes 3, .fail .brokenPipe], none⟩ e ∧ f.source.ending = .fail (.io e)) :=
  C39_dc_rows_partial (recordsEnv []) _ exLib exBadWorld none "d/x.dc".toList .auto ⟨exDc, [.bytes 3, .fail .brokenPipe], none⟩ (by decide +kernel) (by decide +kernel)
    (by decide +kernel) (by decide +kernel) (by decide +kernel) (.inl ⟨"x".toList, by decide +kernel, rfl⟩) ⟨[], ⟨[['a']], [.int]⟩⟩ ⟨[], ⟨[['a']], [.int]⟩⟩ []
    (by decide +kernel) (.nil _) rfl

end Chopper.Props
