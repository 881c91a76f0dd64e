import Verif.Props.CsvExact
import Verif.Props.Streaming
import Verif.Spec.Infistream

/-!
# The endless CSV streams (C99)
-/
namespace Chopper.Props
open Chopper Chopper.Spec

theorem decimal_nat (n : Nat) : natToStr n = decimal n := natToStr_repr n

theorem decimal_digits (n : Nat) : Digits (decimal n) ∧ decimalValue (decimal n) = n := by
  rw [← decimal_nat]; exact natToStr_spec n

theorem infiRow_line (v : BitVec 64) : infiRow v = csvText ',' [counterLine v.toNat] := by
  simp [infiRow, csvText, counterLine, joinChar, decimal_nat]

theorem incU64_ok {ov : Overflow} {n : BitVec 64} (h : n.toNat + 1 < 2 ^ 64) : incU64 ov n = .ok (n + 1) := by
  cases ov with
  | panics => simp only [incU64]; rw [if_pos h]
  | wraps => rfl

theorem inc_toNat {n : BitVec 64} (h : n.toNat + 1 < 2 ^ 64) : (n + 1).toNat = n.toNat + 1 := by
  rw [BitVec.toNat_add]; simp; omega

theorem infi_chunks (ov : Overflow) : ∀ (n : Nat) (s : InfiCsv), s.timestamp.toNat + n < 2 ^ 64 →
    ∃ s', pollTimes (InfiCsv.poll ov) n s = .ok ((List.range' s.timestamp.toNat n).map (fun i => utf8Encode (csvText ',' [counterLine i])), s') ∧
      s'.timestamp.toNat = s.timestamp.toNat + n
  | 0, s, _ => ⟨s, rfl, rfl⟩
  | n + 1, s, h => by
    have h1 : s.timestamp.toNat + 1 < 2 ^ 64 := by omega
    obtain ⟨s', h2, h3⟩ := infi_chunks ov n ⟨s.timestamp + 1⟩ (by simp only [inc_toNat h1]; omega)
    refine ⟨s', ?_, ?_⟩
    · have e : InfiCsv.poll ov s = .ok (utf8Encode (infiRow s.timestamp), ⟨s.timestamp + 1⟩) := by
        unfold InfiCsv.poll; rw [incU64_ok h1]; rfl
      unfold pollTimes
      rw [e, Res.bind_ok]
      simp only
      rw [h2, Res.bind_ok]
      simp only [inc_toNat h1, infiRow_line, List.range'_succ, List.map_cons]
    · rw [h3]; simp only [inc_toNat h1]; omega

/-- **C99 (the stream).** Asked `n` times, the stream gives `n` chunks, one for each of the lines 0, 1, …; it never ends by itself. -/
theorem C99_stream (ov : Overflow) (n : Nat) (h : n < 2 ^ 64) :
    ∃ cs s, pollTimes (InfiCsv.poll ov) n InfiCsv.new = .ok (cs, s) ∧ cs.length = n ∧ (∀ i, i < n → cs[i]? = some (utf8Encode (csvText ',' [counterLine i]))) ∧
      cs.flatten = utf8Encode (csvText ',' (counterLines n)) := by
  obtain ⟨s', h1, _⟩ := infi_chunks ov n InfiCsv.new (by simpa [InfiCsv.new] using h)
  refine ⟨_, s', h1, by simp, ?_, ?_⟩
  · intro i hi
    simp [InfiCsv.new, hi]
  · have : ∀ l : List Nat, (l.map (fun i => utf8Encode (csvText ',' [counterLine i]))).flatten = utf8Encode (csvText ',' (l.map counterLine)) := by
      intro l
      induction l with
      | nil => rfl
      | cons x l ih =>
        rw [List.map_cons, List.flatten_cons, ih, ← utf8Encode_append]
        congr 1
        simp [csvText]
    rw [this]
    simp [counterLines, InfiCsv.new, List.range_eq_range']

/-- **C99 (the end of the numbers).** After 2^64 - 1 lines a build with overflow checks crashes instead of giving line 2^64 - 1; without these checks that line is given and the next is line 0 again. -/
theorem C99_overflow (s : InfiCsv) (h : s.timestamp.toNat = 2 ^ 64 - 1) :
    InfiCsv.poll .panics s = .panic ∧ ∃ c s', InfiCsv.poll .wraps s = .ok (c, s') ∧ c = utf8Encode (csvText ',' [counterLine (2 ^ 64 - 1)]) ∧ s'.timestamp = 0 := by
  constructor
  · unfold InfiCsv.poll incU64
    simp only
    rw [if_neg (by omega)]
    rfl
  · refine ⟨_, _, rfl, by rw [infiRow_line, h], ?_⟩
    apply BitVec.eq_of_toNat_eq
    simp only
    rw [BitVec.toNat_add, h]
    rfl

theorem counterLine_plain (i : Nat) : ∀ t ∈ counterLine i, PlainField ',' t := by
  intro t ht
  have hd := (decimal_digits i).1
  simp only [counterLine, List.map_cons, List.map_nil, List.mem_cons, List.not_mem_nil, or_false] at ht
  have dig : ∀ c ∈ decimal i, c ≠ ',' ∧ c ≠ '"' ∧ c ≠ '\n' ∧ c ≠ '\r' ∧ isWhite c = false := by
    intro c hc
    have h2 := hd.2 c hc
    refine ⟨?_, ?_, ?_, ?_, digit_notWhite h2⟩ <;> rintro rfl <;> revert h2 <;> decide
  have pre : ∀ x : Char, x ∈ ['a', 'b', 'c', 'd', 'e', 'f'] → PlainField ',' (x :: decimal i) := by
    intro x hx
    refine plain_text _ ?_
    rw [List.all_eq_true]
    intro c hc
    rcases List.mem_cons.1 hc with rfl | hc
    · have : ∀ c ∈ ['a', 'b', 'c', 'd', 'e', 'f'], decide (c ≠ ',' ∧ c ≠ '"' ∧ c ≠ '\n' ∧ c ≠ '\r' ∧ isWhite c = false) = true := by decide
      exact this _ hx
    · simpa using dig c hc
  rcases ht with rfl | rfl | rfl | rfl | rfl | rfl | rfl
  · exact digits_plain hd
  all_goals exact pre _ (by simp)

theorem counterLines_plain (n : Nat) : PlainTable ',' (counterLines n) := by
  have hne : ∀ i, decimal i ≠ [] := fun i => (decimal_digits i).1.1
  refine ⟨?_, ?_, ?_⟩
  · intro l hl
    obtain ⟨i, _, rfl⟩ := List.mem_map.1 hl
    exact counterLine_plain i
  · intro l hl
    obtain ⟨i, _, rfl⟩ := List.mem_map.1 hl
    exact (joinChar_head (hne i) _).1
  · cases n with
    | zero => simp [counterLines, csvText]
    | succ n =>
      have e : csvText ',' (counterLines (n + 1)) = joinChar ',' (counterLine 0) ++ ('\n' :: csvText ',' ((List.range n).map (fun i => counterLine (i + 1)))) := by
        simp [counterLines, csvText, List.range_succ_eq_map, Function.comp_def]
      have h0 : (joinChar ',' (counterLine 0)).head? = some '0' := by decide +kernel
      rw [e, List.head?_append, h0]
      simp

theorem latest_last {recs : List (List Str)} {rec : List Str} {i : Nat} {f : Str} (hr : recs.getLast? = some rec) (h : rec[i]? = some f) : latest recs i = some f := by
  obtain ⟨pre, rfl⟩ := List.getLast?_eq_some_iff.1 hr
  simp [latest, h]

theorem counter_time (ov : Overflow) (lib : DateLib) (tz : ChopperTz lib) (u : TimestampUnits) (i : Nat) (h : i * nanosPer u < 2 ^ 64) :
    TimeOf ov lib tz (.index 0) (.units u) (counterLine i) (.ok (BitVec.ofNat 64 (i * nanosPer u))) := by
  have hu : 1 ≤ nanosPer u := by cases u <;> decide
  have hi : i < 2 ^ 64 := Nat.lt_of_le_of_lt (Nat.le_mul_of_pos_right i hu) h
  refine .number (text := decimal i) (u := u) (n := i) (.one rfl) rfl ⟨decimal i, .inl rfl, (decimal_digits i).1, (decimal_digits i).2, hi⟩ (fun _ => h) ?_
  simp

/-- The lines, read with the time in the first column: one row per line, with the line's fields. -/
theorem counter_meaning (ov : Overflow) (lib : DateLib) (tz : ChopperTz lib) (u : TimestampUnits) (n : Nat) (hn : 0 < n) (h : (n - 1) * nanosPer u < 2 ^ 64) :
    IsCsvInput ov lib tz false (.index 0) u (plainData false (counterLines n)) ⟨(List.range 7).map fun i => "col_".toList ++ decimal i, List.replicate 7 .string⟩
      ⟨firstRows (counterRow u) n, .eof⟩ := by
  obtain ⟨m, rfl⟩ : ∃ m, n = m + 1 := ⟨n - 1, by omega⟩
  have hb : ∀ i, i < m + 1 → i * nanosPer u < 2 ^ 64 := fun i hi => Nat.lt_of_le_of_lt (Nat.mul_le_mul_right _ (by omega)) h
  have hlines : counterLines (m + 1) = counterLine 0 :: (List.range m).map (fun i => counterLine (i + 1)) := by
    simp [counterLines, List.range_succ_eq_map, Function.comp_def]
  have hlen : ∀ i, (counterLine i).length = 7 := fun i => rfl
  refine ⟨counterLine 0, ((List.range m).map (fun i => counterLine (i + 1))).map .ok, _, .index 0, none, ?_, ?_, .index (n := "col_".toList ++ decimal 0) rfl ?_, rfl, ?_⟩
  · simp [plainData, hlines]
  · simp [CsvNames, hlen, decimal_nat]
  · intro u; cases u <;> decide +kernel
  · refine ⟨counterLine 0, (List.range m).map (fun i => counterLine (i + 1)), [], by simp [plainData, hlines], ?_, ?_, .inl ⟨rfl, by simp [firstRows], rfl⟩⟩
    · rw [← hlines]
      intro rec hr
      obtain ⟨i, hi, rfl⟩ := List.mem_map.1 hr
      exact ⟨by simp [hlen], _, counter_time ov lib tz u i (hb i (by simpa using hi))⟩
    · rw [← hlines]
      intro k row hk
      have hkm : k < m + 1 := by
        have := (List.getElem?_eq_some_iff.1 hk).1
        simpa [firstRows] using this
      have hrow : row = counterRow u k := by
        simp [firstRows, List.getElem?_range hkm] at hk
        exact hk.symm
      have hline : (counterLines (m + 1))[k]? = some (counterLine k) := by simp [counterLines, List.getElem?_range hkm]
      subst hrow
      refine ⟨rfl, ⟨counterLine k, hline, counter_time ov lib tz u k (hb k hkm)⟩, ?_⟩
      intro i hi
      have hik : i < (counterLine k).length := by simpa [hlen] using hi
      refine ⟨(counterLine k)[i], latest_last (rec := counterLine k) ?_ (List.getElem?_eq_getElem hik), ?_⟩
      · rw [List.take_add_one, hline]
        simp
      · simp [counterRow, List.getElem?_eq_getElem hik]

/-- **C99 (reading the stream).** When the server has sent `n` lines and ended, an input that reads the address (comma, no header, the time in the first column, in any units in which the
times fit) has seven columns and exactly the `n` rows, in order, whatever pieces the bytes come in. -/
theorem C99_read (env : CsvEnv) (hp : ReadsPlain env.csv) (dec : Decoders) (zip : ZipLib) (w : World) (cfg : CsvInputConfig env.lib) (u : TimestampUnits)
    (hc : Explicit cfg 44 false u) (hcol : cfg.tsCol = .index 0) (n : Nat) (hn : 0 < n) (hfit : (n - 1) * nanosPer u < 2 ^ 64) (hmax : n < 2 ^ 64)
    (cs : List (List Byte)) (st : InfiCsv) (hcs : pollTimes (InfiCsv.poll env.ov) n InfiCsv.new = .ok (cs, st))
    (s : Str) (fmt : InputFormat) (sched : List ReadStep) (hs : ∀ k, ReadStep.fail k ∉ sched)
    (hdir : w.isDir (utf8Encode s) = false) (he : w.pathExists (utf8Encode s) = false) (hh : HttpAddress s) (hf : w.http s = .ok ⟨cs.flatten, sched, none⟩)
    (hfmt : (∃ base, lastComponent s = some (base ++ ".csv".toList) ∧ fmt = .auto) ∨ fmt = .extension "csv".toList ∨ fmt = .extension ".csv".toList) :
    createFromInput (newInputs env dec zip w (some cfg) [] []) w ⟨.path s, fmt⟩ =
      .ok ⟨⟨(List.range 7).map fun i => "col_".toList ++ decimal i, List.replicate 7 .string⟩, ⟨firstRows (counterRow u) n, .eof⟩⟩ := by
  obtain ⟨cs', s', h1, _, _, h2⟩ := C99_stream env.ov n hmax
  rw [hcs] at h1
  cases h1
  refine (C97_plain_http env hp dec zip w cfg ',' 44 false u hc (by decide) (by decide) (by decide) (by decide) (by decide) (counterLines n) (counterLines_plain n) (by simp) s fmt
    ⟨cs.flatten, sched, none⟩ h2 ?_ hdir he hh hf hfmt _ _).2 ?_
  · intro e hce
    rcases hce with hce | hce
    · exact hs e hce
    · cases hce
  · rw [hcol]
    exact counter_meaning env.ov env.lib cfg.tz u n hn hfit

theorem takeWhile_all {α : Type} {p : α → Bool} : ∀ {l : List α}, (∀ x ∈ l, p x = true) → l.takeWhile p = l
  | [], _ => rfl
  | x :: l, h => by rw [List.takeWhile_cons, if_pos (h x (by simp)), takeWhile_all fun y hy => h y (by simp [hy])]

/-- **C99 (a part of the stream).** However long the stream is, a run over it with times in nanoseconds and an end time `e` processes exactly the lines from the beginning of the range up to
before `e`, and ends normally. -/
theorem C99_range (b e n : Nat) (hbe : b < e) (hen : e < n) (hmax : n ≤ 2 ^ 64) (ending : Ending) (fuel : Nat) (hf : e + 2 ≤ fuel) :
    (calls ⟨some (BitVec.ofNat 64 b), some (BitVec.ofNat 64 e)⟩ fuel [⟨firstRows (counterRow .nanos) n, ending⟩]).2 = .ok () ∧
    fedTo 0 (calls ⟨some (BitVec.ofNat 64 b), some (BitVec.ofNat 64 e)⟩ fuel [⟨firstRows (counterRow .nanos) n, ending⟩]).1 = (List.range' b (e - b)).map (counterRow .nanos) := by
  have ht : ∀ i, i < n → (counterRow .nanos i).timestamp.toNat = i := by
    intro i hi
    simp [counterRow, nanosPer]
    omega
  have hb64 : b % 2 ^ 64 = b := Nat.mod_eq_of_lt (by omega)
  have he64 : e % 2 ^ 64 = e := Nat.mod_eq_of_lt (by omega)
  have hend : ∀ i, i < n → beforeEnd ⟨some (BitVec.ofNat 64 b), some (BitVec.ofNat 64 e)⟩ (counterRow .nanos i).timestamp = decide (i < e) := by
    intro i hi
    simp only [beforeEnd, BitVec.lt_def, ht i hi, BitVec.toNat_ofNat, he64]
  have hbeg : ∀ i, i < n → notBefore ⟨some (BitVec.ofNat 64 b), some (BitVec.ofNat 64 e)⟩ (counterRow .nanos i).timestamp = decide (b ≤ i) := by
    intro i hi
    simp only [notBefore, BitVec.le_def, ht i hi, BitVec.toNat_ofNat, hb64]
  have hsel : selected ⟨some (BitVec.ofNat 64 b), some (BitVec.ofNat 64 e)⟩ (firstRows (counterRow .nanos) e) = (List.range' b (e - b)).map (counterRow .nanos) := by
    have h1 : (firstRows (counterRow .nanos) e).takeWhile (fun r => beforeEnd ⟨some (BitVec.ofNat 64 b), some (BitVec.ofNat 64 e)⟩ r.timestamp) = firstRows (counterRow .nanos) e := by
      refine takeWhile_all ?_
      intro r hr
      obtain ⟨i, hi, rfl⟩ := List.mem_map.1 hr
      have : i < e := by simpa using hi
      rw [hend i (by omega)]; simpa using this
    unfold selected
    rw [h1]
    have h2 : firstRows (counterRow .nanos) e = (List.range b).map (counterRow .nanos) ++ (List.range' b (e - b)).map (counterRow .nanos) := by
      rw [← List.map_append]
      unfold firstRows
      congr 1
      rw [List.range_eq_range', List.range_eq_range']
      have := List.range'_append_1 (s := 0) (m := b) (n := e - b)
      rw [Nat.zero_add] at this
      rw [this]
      congr 1
      omega
    rw [h2, List.filter_append]
    rw [List.filter_eq_nil_iff.2, List.filter_eq_self.2, List.nil_append]
    · intro r hr
      obtain ⟨i, hi, rfl⟩ := List.mem_map.1 hr
      have := List.mem_range'_1.1 hi
      rw [hbeg i (by omega)]
      simpa using this.1
    · intro r hr
      obtain ⟨i, hi, rfl⟩ := List.mem_map.1 hr
      have : i < b := by simpa using hi
      rw [hbeg i (by omega)]
      simpa using this
  have := C82_endless_ends ⟨some (BitVec.ofNat 64 b), some (BitVec.ofNat 64 e)⟩ (counterRow .nanos) e n hen (by rw [hend e hen]; simp) (by
    rw [hsel]
    intro h0
    have := congrArg List.length h0
    simp at this
    omega) ending fuel hf
  rw [hsel] at this
  exact this

theorem infiGz_pollTimes {σ : Type} (gz : GzLib σ) (ov : Overflow) : ∀ (n : Nat) (s : InfiCsvGz σ) (outs : List (List Byte)), s.vec = [] → s.timestamp.toNat + n < 2 ^ 64 →
    ((∃ s', pollTimes (InfiCsvGz.poll gz ov) n s = .ok (outs, s')) ↔
      Encodes gz s.encoder ((List.range' s.timestamp.toNat n).map (fun i => utf8Encode (csvText ',' [counterLine i]))) outs)
  | 0, s, outs, _, _ => by
    constructor
    · rintro ⟨s', h⟩
      cases h
      rfl
    · intro h
      cases h
      exact ⟨s, rfl⟩
  | n + 1, s, outs, hv, h => by
    have h1 : s.timestamp.toNat + 1 < 2 ^ 64 := by omega
    have e : InfiCsvGz.poll gz ov s = match gz.write s.encoder (utf8Encode (infiRow s.timestamp)) with
        | none => .panic
        | some (_, enc, out) => .ok (s.vec ++ out, ⟨s.timestamp + 1, enc, []⟩) := by
      unfold InfiCsvGz.poll; rw [incU64_ok h1]; rfl
    rw [List.range'_succ, List.map_cons]
    unfold pollTimes Encodes
    rw [e, ← infiRow_line]
    rcases hw : gz.write s.encoder (utf8Encode (infiRow s.timestamp)) with _ | ⟨k, enc, out⟩
    · simp only
      constructor
      · rintro ⟨s', h⟩; cases h
      · rintro ⟨n', s', o, more, h, _⟩; cases h
    · simp only [Res.bind_ok, hv, List.nil_append]
      have ih := fun outs => infiGz_pollTimes gz ov n ⟨s.timestamp + 1, enc, []⟩ outs rfl (by simp only [inc_toNat h1]; omega)
      simp only [inc_toNat h1] at ih
      constructor
      · rintro ⟨s', h⟩
        obtain ⟨⟨cs, s2⟩, hc, h⟩ := Res.bind_eq_ok.1 h
        cases h
        exact ⟨k, enc, out, cs, rfl, rfl, (ih cs).1 ⟨_, hc⟩⟩
      · rintro ⟨n', s', o, more, h, rfl, hm⟩
        cases h
        obtain ⟨s2, hc⟩ := (ih more).2 hm
        exact ⟨s2, by rw [hc]; rfl⟩

/-- **C99 (the compressed stream).** The chunks of the compressed stream are exactly what the gzip encoder puts out when it is given the lines 0, 1, … in order, one call each: nothing that the
encoder puts out is lost or sent twice. (How many bytes the encoder takes at each call is not looked at.) -/
theorem C99_gz {σ : Type} (gz : GzLib σ) (ov : Overflow) (n : Nat) (h : n < 2 ^ 64) (outs : List (List Byte)) :
    (∃ s, pollTimes (InfiCsvGz.poll gz ov) n (InfiCsvGz.new gz) = .ok (outs, s)) ↔ Encodes gz gz.init ((counterLines n).map fun l => utf8Encode (csvText ',' [l])) outs := by
  have := infiGz_pollTimes gz ov n (InfiCsvGz.new gz) outs rfl (by simpa [InfiCsvGz.new] using h)
  rw [this]
  simp [InfiCsvGz.new, counterLines, List.range_eq_range', Function.comp_def]

/-! ### Examples -/

example : csvText ',' (counterLines 11) =
    "0,a0,b0,c0,d0,e0,f0\n1,a1,b1,c1,d1,e1,f1\n2,a2,b2,c2,d2,e2,f2\n3,a3,b3,c3,d3,e3,f3\n4,a4,b4,c4,d4,e4,f4\n5,a5,b5,c5,d5,e5,f5\n6,a6,b6,c6,d6,e6,f6\n7,a7,b7,c7,d7,e7,f7\n8,a8,b8,c8,d8,e8,f8\n9,a9,b9,c9,d9,e9,f9\n10,a10,b10,c10,d10,e10,f10\n".toList := by
  decide +kernel

def infiAddress : Str := "http://127.0.0.1:8182/infinite.csv".toList

/-- The server has sent three lines. -/
def infiWorld : World :=
  ⟨fun _ => false, fun _ => false, fun _ => none, fun _ => none,
   fun s => if s = infiAddress then .ok ⟨utf8Encode (csvText ',' (counterLines 3)), [.bytes 5], none⟩ else .err (.io .other), ⟨[], [], none⟩⟩

/-- The hypotheses of `C99_read` are met: three lines of the stream are read as three rows. -/
example : createFromInput (newInputs plainEnv anyDec exLib infiWorld (some nanosCfg) [] []) infiWorld ⟨.path infiAddress, .auto⟩ =
    .ok ⟨⟨(List.range 7).map fun i => "col_".toList ++ decimal i, List.replicate 7 .string⟩, ⟨firstRows (counterRow .nanos) 3, .eof⟩⟩ := by
  obtain ⟨cs, st, h1, _, _, h2⟩ := C99_stream .panics 3 (by decide)
  exact C99_read plainEnv plainCsv_reads anyDec exLib infiWorld nanosCfg .nanos nanos_explicit rfl 3 (by decide) (by decide) (by decide) cs st h1 infiAddress .auto [.bytes 5] (by simp) rfl rfl
    (by decide +kernel) (by rw [h2]; simp [infiWorld]) (.inl ⟨"infinite".toList, by decide +kernel, rfl⟩)

/-- An encoder that puts out what it gets, one byte late. -/
def lateGz : GzLib (List Byte) := ⟨[], fun s t => some (t.length, t.drop (t.length - 1), s ++ t.take (t.length - 1))⟩

example : (pollTimes (InfiCsvGz.poll lateGz .panics) 2 (InfiCsvGz.new lateGz)).bind (fun x => .ok x.1) =
    .ok [utf8Encode "0,a0,b0,c0,d0,e0,f0".toList, utf8Encode "\n1,a1,b1,c1,d1,e1,f1".toList] := by decide +kernel

end Chopper.Props
