import Verif.Proofs.CsvBare

/-! # C113: CSV files with quotes, read with the csv crate -/
namespace Chopper.Props
open Chopper Chopper.Spec

theorem bom_decode (rest : List Byte) : decodeOne (0xEF :: 0xBB :: 0xBF :: rest) = some ('\uFEFF', rest) := by
  have h := decodeOne_encode '\uFEFF' rest
  rwa [show encodeChar '\uFEFF' = [0xEF, 0xBB, 0xBF] from by decide +kernel] at h

/-- Only a text that begins with U+FEFF begins with a byte order mark. -/
theorem bom_head {text : Str} {more rest : List Byte} (h : utf8Encode text ++ more = 0xEF :: 0xBB :: 0xBF :: rest) (hne : text ≠ []) : ∃ t, text = '\uFEFF' :: t ∧ rest = utf8Encode t ++ more := by
  cases text with
  | nil => exact absurd rfl hne
  | cons c t =>
    have e : utf8Encode (c :: t) ++ more = encodeChar c ++ (utf8Encode t ++ more) := by simp [utf8Encode]
    have h1 := decodeOne_encode c (utf8Encode t ++ more)
    rw [← e, h, bom_decode] at h1
    cases h1
    exact ⟨t, rfl, rfl⟩

theorem dropBom_ne {r : BufReader} {s : Stream} (h : ∀ rest, s ≠ .byte 0xEF :: .byte 0xBB :: .byte 0xBF :: rest) : dropBom r s = s := by
  unfold dropBom
  split
  · exact absurd rfl (h _)
  · rfl

theorem ofBytes_three {bs : List Byte} {a b c : Byte} {s t : Stream} (hs : ∀ x y, s ≠ .byte x :: y) (h : ofBytes bs ++ s = .byte a :: .byte b :: .byte c :: t) :
    ∃ rest, bs = a :: b :: c :: rest ∧ t = ofBytes rest ++ s := by
  match bs, h with
  | [], h => exact absurd h (hs _ _)
  | [x], h =>
    simp only [ofBytes, List.map_cons, List.map_nil, List.cons_append, List.nil_append, List.cons.injEq] at h
    exact absurd h.2 (hs _ _)
  | [x, y], h =>
    simp only [ofBytes, List.map_cons, List.map_nil, List.cons_append, List.nil_append, List.cons.injEq] at h
    exact absurd h.2.2 (hs _ _)
  | x :: y :: z :: rest, h =>
    simp only [ofBytes, List.map_cons, List.cons_append, List.cons.injEq, Item.byte.injEq] at h
    obtain ⟨rfl, rfl, rfl, h'⟩ := h
    exact ⟨rest, rfl, h'.symm⟩

theorem no_sched {r : Inner} (h : NoFail r) : (∀ e, ReadStep.fail e ∉ r.sched) ∧ r.ending = none := by
  refine ⟨fun e he => h e (.inl he), ?_⟩
  cases he : r.ending with
  | none => rfl
  | some e => exact absurd (.inr he) (h e)

/-- The records of a reader that holds a text without byte order mark, whatever comes after it. -/
theorem crate_stream {r : BufReader} (hs : ∀ e, ReadStep.fail e ∉ r.inner.sched) {text : Str} {more : List Byte} (h : stillToCome r = utf8Encode text ++ more) (hne : text ≠ [])
    (hbom : text.head? ≠ some '\uFEFF') (b : Byte) : crateRecords b r = csvScan b .startRecord [] [] (ofBytes (utf8Encode text ++ more) ++ endItems r.inner.ending) := by
  unfold crateRecords
  have : streamOf r = ofBytes (utf8Encode text ++ more) ++ endItems r.inner.ending := by
    rw [streamOf_eq r hs, ← h]
    rfl
  rw [this, dropBom_ne]
  intro rest he
  obtain ⟨rest', h1, _⟩ := ofBytes_three (by intro x y; cases r.inner.ending <;> simp [endItems]) he
  obtain ⟨t, rfl, _⟩ := bom_head h1 hne
  exact hbom rfl

/-- The record with white space removed. -/
theorem trimmed_map (recs : List (List Str)) : Trimmed recs (recs.map fun r => r.map trim) := by
  refine ⟨by simp, fun i r r' h1 h2 => ?_⟩
  rw [List.getElem?_map, h1] at h2
  obtain rfl := Option.some.inj h2
  refine ⟨by simp, fun j v v' g1 g2 => ?_⟩
  rw [List.getElem?_map, g1] at g2
  obtain rfl := Option.some.inj g2
  exact trim_spec v

theorem trimmed_unique {recs a b : List (List Str)} (ha : Trimmed recs a) (hb : Trimmed recs b) : a = b := by
  refine List.ext_getElem (by rw [ha.1, hb.1]) fun i h1 h2 => ?_
  have hi : i < recs.length := by rw [← ha.1]; exact h1
  obtain ⟨l1, e1⟩ := ha.2 i recs[i] a[i] (by simp [hi]) (by simp [h1])
  obtain ⟨l2, e2⟩ := hb.2 i recs[i] b[i] (by simp [hi]) (by simp [h2])
  refine List.ext_getElem (by rw [l1, l2]) fun j g1 g2 => ?_
  have hj : j < recs[i].length := by rw [← l1]; exact g1
  exact isTrimmed_unique (e1 j recs[i][j] _ (by simp [hj]) (by simp [g1])) (e2 j recs[i][j] _ (by simp [hj]) (by simp [g2]))

theorem crate_parse {b : Byte} {r : BufReader} {recs : List (List Str)} (h : crateRecords b r = recs.map (fun r => .ok (r.map utf8Encode))) {recs' : List (List Str)} (ht : Trimmed recs recs') :
    (csvCrate.parse b false r).records = recs'.map .ok ∧ ∀ head rest, recs' = head :: rest → csvCrate.parse b true r = ⟨.ok head, rest.map .ok⟩ := by
  have : recs' = recs.map fun r => r.map trim := trimmed_unique ht (trimmed_map recs)
  subst this
  constructor
  · simp only [csvCrate, h, Bool.false_eq_true, if_false, List.map_map]
    apply List.map_congr_left
    intro x _
    simp only [Function.comp_apply, Res.bind_ok, stringRecord_encode]
  · intro head rest he
    cases recs with
    | nil => simp at he
    | cons r1 recs =>
      simp only [List.map_cons, List.cons.injEq] at he
      obtain ⟨rfl, rfl⟩ := he
      simp only [csvCrate, h, if_true, List.map_cons, stringRecord_encode, List.map_map]
      congr 1
      apply List.map_congr_left
      intro x _
      simp only [Function.comp_apply, Res.bind_ok, stringRecord_encode]

theorem crate_empty {r : BufReader} (h : NoFail r.inner) (he : stillToCome r = []) (b : Byte) : crateRecords b r = [] := by
  unfold crateRecords
  obtain ⟨h1, h2⟩ := no_sched h
  have : streamOf r = [] := by
    rw [streamOf_eq r h1, h2]
    have : r.pending = [] := he
    rw [this]
    rfl
  rw [this]
  rfl

theorem crate_text {d : Char} {b : Byte} (hd : d.toNat < 128) (hb : b.toNat = d.toNat) (hq : d ≠ '"') (hn : d ≠ '\n') (hr : d ≠ '\r') {recs : List (List Str)} {text : Str}
    (h : FileText d recs text) (hbom : text.head? ≠ some '\uFEFF') {r : BufReader} (hnf : NoFail r.inner) (hs : stillToCome r = utf8Encode text) :
    crateRecords b r = recs.map (fun r => .ok (r.map utf8Encode)) := by
  have key := file_run hd hb hq hn hr h
  by_cases hne : text = []
  · subst hne
    rw [crate_empty hnf (by rw [hs]; rfl)]
    rw [← key]
    rfl
  · rw [crate_stream (no_sched hnf).1 (more := []) (by simpa using hs) hne hbom, (no_sched hnf).2, List.append_nil]
    simpa [endItems] using key

/-- **C113 (quotes).** From a reader that does not fail and holds a CSV file (fields plain or quoted, quotes doubled, lines ended in any way, empty lines anywhere), the crate delivers its records, the values
trimmed; with a header line the first one is the header. -/
theorem C113_quoted (d : Char) (b : Byte) (hd : d.toNat < 128) (hb : b.toNat = d.toNat) (hq : d ≠ '"') (hn : d ≠ '\n') (hr : d ≠ '\r') (recs recs' : List (List Str)) (text : Str)
    (h : FileText d recs text) (hbom : text.head? ≠ some '\uFEFF') (ht : Trimmed recs recs') (r : BufReader) (hnf : NoFail r.inner) (hs : stillToCome r = utf8Encode text) :
    (csvCrate.parse b false r).records = recs'.map .ok ∧ ∀ head rest, recs' = head :: rest → csvCrate.parse b true r = ⟨.ok head, rest.map .ok⟩ :=
  crate_parse (crate_text hd hb hq hn hr h hbom hnf hs) ht

/-- **C113 (byte order mark).** A byte order mark before the text changes nothing, unless just its first one or two bytes are buffered. -/
theorem C113_bom (d : Char) (b : Byte) (hd : d.toNat < 128) (hb : b.toNat = d.toNat) (hq : d ≠ '"') (hn : d ≠ '\n') (hr : d ≠ '\r') (recs recs' : List (List Str)) (text : Str)
    (h : FileText d recs text) (ht : Trimmed recs recs') (r : BufReader) (hnf : NoFail r.inner) (hs : stillToCome r = utf8Encode ('\uFEFF' :: text))
    (hbuf : r.cap - r.pos ≠ 1 ∧ r.cap - r.pos ≠ 2) :
    (csvCrate.parse b false r).records = recs'.map .ok ∧ ∀ head rest, recs' = head :: rest → csvCrate.parse b true r = ⟨.ok head, rest.map .ok⟩ := by
  refine crate_parse ?_ ht
  unfold crateRecords
  obtain ⟨h1, h2⟩ := no_sched hnf
  have e : streamOf r = .byte 0xEF :: .byte 0xBB :: .byte 0xBF :: ofBytes (utf8Encode text) := by
    rw [streamOf_eq r h1, h2]
    have : r.pending = utf8Encode ('\uFEFF' :: text) := hs
    rw [this]
    have : utf8Encode ('\uFEFF' :: text) = 0xEF :: 0xBB :: 0xBF :: utf8Encode text := by
      simp [utf8Encode, show encodeChar '\uFEFF' = [0xEF, 0xBB, 0xBF] from by decide +kernel]
    rw [this]
    simp [ofBytes, endItems]
  rw [e]
  have : dropBom r (.byte 0xEF :: .byte 0xBB :: .byte 0xBF :: ofBytes (utf8Encode text)) = ofBytes (utf8Encode text) := by
    show (if r.cap - r.pos = 1 ∨ r.cap - r.pos = 2 then _ else _) = _
    rw [if_neg (by omega)]
  rw [this, file_run hd hb hq hn hr h]

theorem encode_injective {s t : Str} (h : utf8Encode s = utf8Encode t) : s = t := by
  have := utf8Decode_encode s
  rw [h, utf8Decode_encode] at this
  exact (Option.some.inj this).symm

theorem map_injective {α β : Type} {f : α → β} (hf : ∀ a b, f a = f b → a = b) : ∀ {l m : List α}, l.map f = m.map f → l = m
  | [], [], _ => rfl
  | [], _ :: _, h => by simp at h
  | _ :: _, [], h => by simp at h
  | a :: l, b :: m, h => by
    rw [List.map_cons, List.map_cons, List.cons.injEq] at h
    rw [hf _ _ h.1, map_injective hf h.2]

/-- **C113 (unambiguous).** A text is a file of at most one list of records. -/
theorem C113_unambiguous (d : Char) (hd : d.toNat < 128) (hq : d ≠ '"') (hn : d ≠ '\n') (hr : d ≠ '\r') (recs recs' : List (List Str)) (text : Str)
    (h : FileText d recs text) (h' : FileText d recs' text) : recs = recs' := by
  have hb : (BitVec.ofNat 8 d.toNat).toNat = d.toNat := ofNat8 (by omega)
  have e := (file_run hd hb hq hn hr h).symm.trans (file_run hd hb hq hn hr h')
  refine map_injective (fun a b hab => ?_) e
  have := Res.ok.inj hab
  exact map_injective (fun s t hst => encode_injective hst) this

/-- All values in quotes. -/
def quoteAll (d : Char) (recs : List (List Str)) : Str := csvText d (recs.map fun r => r.map fun v => '"' :: doubled v ++ ['"'])

/-- **C113 (expressible).** Every list of records that have a value can be written: with all values in quotes. -/
theorem C113_expressible (d : Char) (recs : List (List Str)) (h : ∀ r ∈ recs, r ≠ []) : FileText d recs (quoteAll d recs) := by
  induction recs with
  | nil => exact .done
  | cons r recs ih =>
    have e : quoteAll d (r :: recs) = joinChar d (r.map fun v => '"' :: doubled v ++ ['"']) ++ '\n' :: quoteAll d recs := by simp [quoteAll, csvText]
    rw [e]
    refine .line ⟨?_, _, h r (by simp), by simp, ?_, rfl⟩ (.inl rfl) (ih fun x hx => h x (by simp [hx]))
    · have := h r (by simp)
      match r, this with
      | [v], _ => simp [joinChar]
      | v :: w :: r, _ => simp [joinChar]
    · intro i v t h1 h2
      rw [List.getElem?_map, h1] at h2
      obtain rfl := Option.some.inj h2
      exact .quoted

theorem plain_file' {d : Char} {lines : List (List Str)} (h : ∀ l ∈ lines, ∀ t ∈ l, d ∉ t ∧ '"' ∉ t ∧ '\n' ∉ t ∧ '\r' ∉ t) (hne : ∀ l ∈ lines, joinChar d l ≠ []) :
    FileText d lines (csvText d lines) := by
  induction lines with
  | nil => exact .done
  | cons l lines ih =>
    have e : csvText d (l :: lines) = joinChar d l ++ '\n' :: csvText d lines := by simp [csvText]
    rw [e]
    have hl := hne l (by simp)
    refine .line ⟨hl, l, by rintro rfl; exact hl rfl, rfl, ?_, rfl⟩ (.inl rfl) (ih (fun x hx => h x (by simp [hx])) fun x hx => hne x (by simp [hx]))
    intro i v t h1 h2
    rw [h1] at h2
    obtain rfl := Option.some.inj h2
    obtain ⟨g1, g2, g3, g4⟩ := h l (by simp) v (List.mem_of_getElem? h1)
    exact .plain g1 g3 g4 fun hh => g2 (List.mem_of_mem_head? hh)

theorem plain_file {d : Char} {lines : List (List Str)} (h : ∀ l ∈ lines, ∀ t ∈ l, PlainField d t) (hne : ∀ l ∈ lines, joinChar d l ≠ []) : FileText d lines (csvText d lines) :=
  plain_file' (fun l hl t ht => ⟨(h l hl t ht).noDelim, (h l hl t ht).noQuote, (h l hl t ht).noLf, (h l hl t ht).noCr⟩) hne

theorem trimmed_plain {d : Char} {lines : List (List Str)} (h : ∀ l ∈ lines, ∀ t ∈ l, PlainField d t) : Trimmed lines lines := by
  refine ⟨rfl, fun i r r' h1 h2 => ?_⟩
  rw [h1] at h2
  obtain rfl := Option.some.inj h2
  refine ⟨rfl, fun j v v' g1 g2 => ?_⟩
  rw [g1] at g2
  obtain rfl := Option.some.inj g2
  exact (h _ (List.mem_of_getElem? h1) _ (List.mem_of_getElem? g1)).trimmed

/-- **C113 (contract).** The crate keeps the contract assumed of a CSV library elsewhere: plain tables are read as they are. -/
theorem C113_plain : ReadsPlain csvCrate := by
  intro d b lines r hd hb hq hn hr hp _ _ hnf hs
  exact C113_quoted d b hd hb hq hn hr lines lines _ (plain_file hp.plain hp.nonempty) hp.noBom (trimmed_plain hp.plain) r hnf hs

theorem mem_encode {c : Char} {b : Byte} (h : encodeChar c = [b]) {t : Str} (hm : c ∈ t) : b ∈ utf8Encode t := List.mem_flatMap.2 ⟨c, hm, by simp [h]⟩

theorem unquoted_file {d : Char} {lines : List (List Str)} (h : ∀ l ∈ lines, ∀ t ∈ l, NeedsNoQuotes d t) (hn : ∀ l ∈ lines, l ≠ []) :
    FileText d (lines.filter fun l => l ≠ [[]]) (csvText d lines) := by
  induction lines with
  | nil => exact .done
  | cons l lines ih =>
    have e : csvText d (l :: lines) = joinChar d l ++ '\n' :: csvText d lines := by simp [csvText]
    have ih' := ih (fun x hx => h x (by simp [hx])) (fun x hx => hn x (by simp [hx]))
    rw [e]
    by_cases he : l = [[]]
    · subst he
      rw [List.filter_cons_of_neg (by simp)]
      exact .empty (.inl rfl) ih'
    · rw [List.filter_cons_of_pos (by simpa using he)]
      have hl := hn l (by simp)
      refine .line ⟨?_, l, hl, rfl, ?_, rfl⟩ (.inl rfl) ih'
      · match l, hl, he with
        | [t], _, he => simpa [joinChar] using he
        | t :: u :: ts, _, _ => simp [joinChar]
      · intro i v t h1 h2
        rw [h1] at h2
        obtain rfl := Option.some.inj h2
        obtain ⟨g1, g2, g3, g4⟩ := h l (by simp) v (List.mem_of_getElem? h1)
        exact .plain g1 g2 g3 g4

theorem fileText_nonempty {d : Char} {recs : List (List Str)} {text : Str} (h : FileText d recs text) : ∀ r ∈ recs, r ≠ [] := by
  induction h with
  | done => simp
  | empty _ _ ih => exact ih
  | line hl _ _ ih =>
    intro r hr
    rcases List.mem_cons.1 hr with rfl | hr
    · exact hl.2.choose_spec.1
    · exact ih r hr
  | last hl =>
    intro r hr
    rw [List.mem_singleton.1 hr]
    exact hl.2.choose_spec.1

/-- **C113 (when quotes are needed).** Lines written without quotes are a CSV file of these lines exactly if no value has the delimiter or a line end or begins with a quote, and no line is without values
or has just one, empty value. -/
theorem C113_quotes_needed (d : Char) (hd : d.toNat < 128) (hq : d ≠ '"') (hn : d ≠ '\n') (hr : d ≠ '\r') (lines : List (List Str)) :
    FileText d lines (csvText d lines) ↔ (∀ l ∈ lines, l ≠ [] ∧ l ≠ [[]]) ∧ ∀ l ∈ lines, ∀ v ∈ l, NeedsNoQuotes d v := by
  constructor
  · intro h
    have hb : (BitVec.ofNat 8 d.toNat).toNat = d.toNat := ofNat8 (by omega)
    have henc : encodeChar d = [BitVec.ofNat 8 d.toNat] := encode_ascii hd
    have hb34 : BitVec.ofNat 8 d.toNat ≠ 34 := by
      intro h34
      rw [h34] at hb
      exact hq (Char.ext (UInt32.toNat_inj.1 hb.symm))
    have hrun := file_run hd hb hq hn hr h
    have hvals : ∀ l ∈ lines, ∀ v ∈ l, NeedsNoQuotes d v := by
      rcases scan_bare hb34 (utf8Encode (csvText d lines)) .startRecord [] [] (.inl ⟨rfl, rfl, rfl⟩) ⟨by simp, by simp, by simp, by simp⟩ (by simp) with hlt | hall
      · exfalso
        rw [hrun, count_text henc hb34] at hlt
        simp at hlt
      · intro l hl v hv
        rw [hrun] at hall
        obtain ⟨g1, g2, g3, g4⟩ := hall (l.map utf8Encode) (List.mem_map.2 ⟨l, hl, rfl⟩) (utf8Encode v) (List.mem_map.2 ⟨v, hv, rfl⟩)
        refine ⟨fun hm => g2 (mem_encode henc hm), fun hm => g3 (mem_encode (by decide +kernel) hm), fun hm => g4 (mem_encode (by decide +kernel) hm), fun hm => g1 ?_⟩
        cases v with
        | nil => simp at hm
        | cons c v =>
          simp only [List.head?_cons, Option.some.injEq] at hm
          subst hm
          simp [utf8Encode, show encodeChar '"' = [34] by decide +kernel]
    refine ⟨fun l hl => ⟨fileText_nonempty h l hl, ?_⟩, hvals⟩
    have h' := unquoted_file hvals (fileText_nonempty h)
    have := C113_unambiguous d hd hq hn hr _ _ _ h h'
    have := List.filter_eq_self.1 this.symm l hl
    simpa using this
  · rintro ⟨h1, h2⟩
    have := unquoted_file h2 fun l hl => (h1 l hl).1
    rwa [List.filter_eq_self.2 (fun l hl => by simpa using (h1 l hl).2)] at this

theorem scan_fail {d : Byte} {e : IoKind} : ∀ (bs : List Byte) (st : CsvState) (cur : List Byte) (fields : List (List Byte)),
    ∃ more : List (List (List Byte)), csvScan d st cur fields (ofBytes bs ++ [.fail e]) = more.map .ok ++ [.err (.io e)]
  | [], st, cur, fields => ⟨[], by cases st <;> rfl⟩
  | c :: bs, st, cur, fields => by
    have key : ∀ st' act, csvStep d c st = (st', act) → ∃ more : List (List (List Byte)), csvScan d st cur fields (.byte c :: (ofBytes bs ++ [.fail e])) = more.map .ok ++ [.err (.io e)] := by
      intro st' act ha
      cases act with
      | drop =>
        obtain ⟨more, hm⟩ := scan_fail (d := d) (e := e) bs st' cur fields
        refine ⟨more, ?_⟩
        cases st <;> (conv => lhs; unfold csvScan) <;> rw [ha] <;> exact hm
      | copy =>
        obtain ⟨more, hm⟩ := scan_fail (d := d) (e := e) bs st' (cur ++ [c]) fields
        refine ⟨more, ?_⟩
        cases st <;> (conv => lhs; unfold csvScan) <;> rw [ha] <;> exact hm
      | endField =>
        obtain ⟨more, hm⟩ := scan_fail (d := d) (e := e) bs st' [] (fields ++ [cur])
        refine ⟨more, ?_⟩
        cases st <;> (conv => lhs; unfold csvScan) <;> rw [ha] <;> exact hm
      | endRecord =>
        obtain ⟨more, hm⟩ := scan_fail (d := d) (e := e) bs st' [] []
        refine ⟨(fields ++ [cur]) :: more, ?_⟩
        cases st <;> (conv => lhs; unfold csvScan) <;> rw [ha] <;> simp only [hm, List.map_cons, List.cons_append]
    exact key _ _ rfl

/-- **C113 (failure).** If the reader fails at its end, the records of the whole lines before are delivered, and the last answer is the failure. -/
theorem C113_failure (d : Char) (b : Byte) (hd : d.toNat < 128) (hb : b.toNat = d.toNat) (hq : d ≠ '"') (hn : d ≠ '\n') (hr : d ≠ '\r') (recs recs' : List (List Str)) (text : Str)
    (h : FileText d recs text) (hbom : text.head? ≠ some '\uFEFF') (ht : Trimmed recs recs') (r : BufReader) (hnf : ∀ e, ReadStep.fail e ∉ r.inner.sched) (e : IoKind) (hend : r.inner.ending = some e)
    (more : List Byte) (hs : stillToCome r = utf8Encode (text ++ ['\n']) ++ more) :
    ∃ others, (csvCrate.parse b false r).records = recs'.map .ok ++ others ++ [.err (.io e)] := by
  have hb' : (text ++ ['\n']).head? ≠ some '\uFEFF' := by
    cases text with
    | nil => decide
    | cons c t => simpa using hbom
  have hrun : crateRecords b r = recs.map (fun r => .ok (r.map utf8Encode)) ++ csvScan b .startRecord [] [] (ofBytes more ++ [.fail e]) := by
    rw [crate_stream hnf hs (by simp) hb', hend, utf8Encode_append]
    have : utf8Encode ['\n'] = [10] := by decide +kernel
    rw [this, ofBytes_append, ofBytes_append, List.append_assoc, List.append_assoc]
    exact file_run_tail hd hb hq hn hr h _
  obtain ⟨m, hm⟩ := scan_fail (d := b) (e := e) more .startRecord [] []
  rw [hm] at hrun
  have : recs' = recs.map fun r => r.map trim := trimmed_unique ht (trimmed_map recs)
  subst this
  refine ⟨m.map stringRecord, ?_⟩
  simp only [csvCrate, hrun, Bool.false_eq_true, if_false, List.map_append, List.map_map, List.append_assoc]
  congr 1
  · apply List.map_congr_left
    intro x _
    simp only [Function.comp_apply, Res.bind_ok, stringRecord_encode]

/-- **C113 (failure, always reported).** Whatever bytes a reader holds that fails at its end: the last answer is the failure, with or without a header line. -/
theorem C113_failure_last (b : Byte) (hasHeaders : Bool) (r : BufReader) (hnf : ∀ e, ReadStep.fail e ∉ r.inner.sched) (e : IoKind) (hend : r.inner.ending = some e) :
    (csvCrate.parse b hasHeaders r).records.getLast? = some (.err (.io e)) := by
  obtain ⟨m, hm⟩ : ∃ m : List (List (List Byte)), crateRecords b r = m.map .ok ++ [.err (.io e)] := by
    unfold crateRecords
    rw [streamOf_eq r hnf, hend]
    show ∃ m : List (List (List Byte)), csvScan b .startRecord [] [] (dropBom r (ofBytes r.pending ++ [.fail e])) = m.map .ok ++ [.err (.io e)]
    have : ∃ bs, dropBom r (ofBytes r.pending ++ [.fail e]) = ofBytes bs ++ [.fail e] := by
      unfold dropBom
      split
      · rename_i rest heq
        obtain ⟨rest', _, h2⟩ := ofBytes_three (by intro x y; simp) heq
        split
        · exact ⟨_, rfl⟩
        · exact ⟨rest', h2⟩
      · exact ⟨_, rfl⟩
    obtain ⟨bs, hbs⟩ := this
    rw [hbs]
    exact scan_fail bs _ _ _
  cases hasHeaders with
  | false =>
    simp only [csvCrate, hm, Bool.false_eq_true, if_false, List.map_append, List.map_cons, List.map_nil, List.getLast?_append, List.getLast?_singleton, Option.some_or]
    rfl
  | true =>
    cases m with
    | nil =>
      simp only [csvCrate, hm, if_true, List.map_nil, List.nil_append]
      rfl
    | cons h m =>
      simp only [csvCrate, hm, if_true, List.map_cons, List.cons_append, List.map_append, List.map_nil, List.getLast?_append, List.getLast?_singleton, Option.some_or]
      rfl

theorem fields_delim {d : Char} {b : Byte} (hd : d.toNat < 128) (hb : b.toNat = d.toNat) (hq : d ≠ '"') : ∀ (record texts : List Str) (fields : List (List Byte)) (s : Stream),
    texts.length = record.length → (∀ (i : Nat) v t, record[i]? = some v → texts[i]? = some t → FieldText d v t) →
    csvScan b .startField [] fields (ofBytes (utf8Encode (texts.flatMap fun t => t ++ [d])) ++ s) = csvScan b .startField [] (fields ++ record.map utf8Encode) s
  | [], [], fields, s, _, _ => by simp [utf8Encode, ofBytes]
  | [], t :: texts, fields, s, hl, _ => by simp at hl
  | v :: record, [], fields, s, hl, _ => by simp at hl
  | v :: record, t :: texts, fields, s, hl, h => by
    have hbyte : encodeChar d = [b] := by
      rw [encode_ascii hd, ← hb]
      congr 1
      exact BitVec.eq_of_toNat_eq (by rw [ofNat8 (by omega)])
    have hbq : b ≠ 34 := by
      rintro rfl
      exact hq (Char.ext (UInt32.toNat_inj.1 hb.symm))
    have e : utf8Encode ((t :: texts).flatMap fun t => t ++ [d]) = utf8Encode t ++ b :: utf8Encode (texts.flatMap fun t => t ++ [d]) := by
      rw [List.flatMap_cons, List.append_assoc, utf8Encode_append]
      simp [utf8Encode, hbyte]
    obtain ⟨st, h1, h2⟩ := field_run hd hb (h 0 v t rfl rfl) fields (ofBytes (b :: utf8Encode (texts.flatMap fun t => t ++ [d])) ++ s)
    rw [e, ofBytes_append, List.append_assoc, h2, ofBytes_cons, List.cons_append, fieldEnd_delim h1 hbq,
      fields_delim hd hb hq record texts _ s (by simpa using hl) (fun i x y hx hy => h (i + 1) x y (by simpa using hx) (by simpa using hy))]
    simp

/-- **C113 (no closing quote).** If the last value of the file is quoted and the closing quote is missing, everything to the end of the file belongs to it. -/
theorem C113_unclosed (d : Char) (b : Byte) (hd : d.toNat < 128) (hb : b.toNat = d.toNat) (hq : d ≠ '"') (hn : d ≠ '\n') (hr : d ≠ '\r') (recs recs' : List (List Str)) (text : Str)
    (h : FileText d recs text) (hbom : text.head? ≠ some '\uFEFF') (before texts : List Str) (hl : texts.length = before.length)
    (hf : ∀ (i : Nat) v t, before[i]? = some v → texts[i]? = some t → FieldText d v t) (value : Str) (ht : Trimmed (recs ++ [before ++ [value]]) recs') (r : BufReader) (hnf : NoFail r.inner)
    (hs : stillToCome r = utf8Encode (text ++ '\n' :: ((texts.flatMap fun t => t ++ [d]) ++ '"' :: doubled value))) : (csvCrate.parse b false r).records = recs'.map .ok := by
  refine (crate_parse (recs := recs ++ [before ++ [value]]) ?_ ht).1
  have hb' : (text ++ '\n' :: ((texts.flatMap fun t => t ++ [d]) ++ '"' :: doubled value)).head? ≠ some '\uFEFF' := by
    cases text with
    | nil => simp
    | cons c t => simpa using hbom
  rw [crate_stream (no_sched hnf).1 (more := []) (by simpa using hs) (by simp) hb', (no_sched hnf).2]
  have e : ofBytes (utf8Encode (text ++ '\n' :: ((texts.flatMap fun t => t ++ [d]) ++ '"' :: doubled value)) ++ []) ++ endItems none =
      ofBytes (utf8Encode text) ++ .byte 10 :: (ofBytes (utf8Encode (texts.flatMap fun t => t ++ [d])) ++ .byte 34 :: (ofBytes (utf8Encode (doubled value)) ++ [])) := by
    have e1 : utf8Encode ('\n' :: ((texts.flatMap fun t => t ++ [d]) ++ '"' :: doubled value)) =
        10 :: (utf8Encode (texts.flatMap fun t => t ++ [d]) ++ 34 :: utf8Encode (doubled value)) := by
      simp [utf8Encode, show encodeChar '\n' = [10] by decide +kernel, show encodeChar '"' = [34] by decide +kernel]
    rw [utf8Encode_append, e1]
    simp [ofBytes, endItems]
  rw [e, file_run_tail hd hb hq hn hr h]
  have hstart : csvScan b .startRecord [] [] (ofBytes (utf8Encode (texts.flatMap fun t => t ++ [d])) ++ .byte 34 :: (ofBytes (utf8Encode (doubled value)) ++ [])) =
      csvScan b .startField [] [] (ofBytes (utf8Encode (texts.flatMap fun t => t ++ [d])) ++ .byte 34 :: (ofBytes (utf8Encode (doubled value)) ++ [])) := by
    cases hc : (texts.flatMap fun t => t ++ [d]) with
    | nil => exact start_field (by decide) _
    | cons c cs =>
      have hcn : c ≠ '\n' ∧ c ≠ '\r' := by
        match before, texts, hl, hf, hc with
        | _, [], _, _, hc => simp at hc
        | v :: before, t :: texts, _, hf, hc =>
          cases t with
          | nil =>
            simp at hc
            rw [← hc.1]
            exact ⟨hn, hr⟩
          | cons x t =>
            simp at hc
            exact field_head (hf 0 v (x :: t) rfl rfl) (by rw [← hc.1]; rfl)
      obtain ⟨x, xs, hx⟩ := List.exists_cons_of_ne_nil (encodeChar_ne c)
      have hterm : csvTerm x = false := by
        rw [Bool.eq_false_iff]
        intro ht
        simp only [csvTerm, Bool.or_eq_true, beq_iff_eq] at ht
        rcases ht with rfl | rfl
        · have := encode_mem (t := [c]) (b := 13) (c := '\r') (by decide) (by decide) (by simp [utf8Encode, hx])
          simp at this
          exact hcn.2 this.symm
        · have := encode_mem (t := [c]) (b := 10) (c := '\n') (by decide) (by decide) (by simp [utf8Encode, hx])
          simp at this
          exact hcn.1 this.symm
      have e : utf8Encode (c :: cs) = x :: (xs ++ utf8Encode cs) := by simp [utf8Encode, hx]
      rw [e, ofBytes_cons, List.cons_append, start_field hterm]
  rw [hstart, fields_delim hd hb hq before texts [] _ hl hf]
  conv => lhs; rhs; unfold csvScan
  simp only [csvStep, csvFieldStart, if_true]
  rw [quoted_run]
  simp [csvScan, utf8Encode]

theorem bad_line {d : Byte} (hq : d ≠ 34) (hn : d ≠ 10) (hr : d ≠ 13) (s : Stream) : ∀ (bs : List Byte) (st : CsvState) (cur : List Byte) (fs : List (List Byte)), st = .startField ∨ st = .inField →
    (34 : Byte) ∉ bs → (10 : Byte) ∉ bs → (13 : Byte) ∉ bs →
    ∃ init last, csvScan d st cur fs (ofBytes bs ++ .byte 10 :: s) = .ok (fs ++ (init ++ [last])) :: csvScan d .startRecord [] [] s ∧ cur ++ bs = (init.flatMap fun f => f ++ [d]) ++ last
  | [], st, cur, fs, hst, _, _, _ => by
    refine ⟨[], cur, ?_, by simp⟩
    exact fieldEnd_term (by rcases hst with h | h; exact .inl h; exact .inr (.inl h)) (by decide) (fun h => hn h.symm) _ _ _
  | c :: bs, st, cur, fs, hst, h1, h2, h3 => by
    have hc1 : c ≠ 34 := fun h => h1 (by simp [h])
    have hct : csvTerm c = false := by
      rw [Bool.eq_false_iff]
      intro ht
      simp only [csvTerm, Bool.or_eq_true, beq_iff_eq] at ht
      rcases ht with rfl | rfl
      · exact h3 (by simp)
      · exact h2 (by simp)
    have g1 : (34 : Byte) ∉ bs := fun h => h1 (List.mem_cons_of_mem _ h)
    have g2 : (10 : Byte) ∉ bs := fun h => h2 (List.mem_cons_of_mem _ h)
    have g3 : (13 : Byte) ∉ bs := fun h => h3 (List.mem_cons_of_mem _ h)
    by_cases hcd : c = d
    · subst hcd
      obtain ⟨init, last, e1, e2⟩ := bad_line hq hn hr s bs .startField [] (fs ++ [cur]) (.inl rfl) g1 g2 g3
      refine ⟨cur :: init, last, ?_, ?_⟩
      · rw [ofBytes_cons, List.cons_append, fieldEnd_delim (by rcases hst with h | h; exact .inl h; exact .inr (.inl h)) hq, e1]
        simp
      · simp only [List.nil_append] at e2
        simp [e2]
    · obtain ⟨init, last, e1, e2⟩ := bad_line hq hn hr s bs .inField (cur ++ [c]) fs (.inr rfl) g1 g2 g3
      refine ⟨init, last, ?_, by rw [← e2]; simp⟩
      rw [← e1, ofBytes_cons, List.cons_append]
      rcases hst with rfl | rfl <;> (conv => lhs; unfold csvScan) <;> simp only [csvStep, csvFieldStart, hc1, hcd, hct, if_false, Bool.false_eq_true]

theorem mapM_some {fs : List (List Byte)} {ts : List Str} (h : fs.mapM utf8Decode = some ts) : fs = ts.map utf8Encode := by
  induction fs generalizing ts with
  | nil => simp at h; subst h; rfl
  | cons f fs ih =>
    rw [List.mapM_cons] at h
    cases hf : utf8Decode f with
    | none => rw [hf] at h; cases h
    | some t =>
      rw [hf] at h
      cases hfs : fs.mapM utf8Decode with
      | none => rw [hfs] at h; cases h
      | some ts' =>
        rw [hfs] at h
        obtain rfl := Option.some.inj h
        rw [ih hfs, List.map_cons, utf8Decode_iff.1 hf]

/-- **C113 (not UTF-8).** A line (without quotes) that is not UTF-8 is an error in its place; the records before and after it are not affected. -/
theorem C113_invalid (d : Char) (b : Byte) (hd : d.toNat < 128) (hb : b.toNat = d.toNat) (hq : d ≠ '"') (hn : d ≠ '\n') (hr : d ≠ '\r') (recs recs' : List (List Str)) (text : Str)
    (h : FileText d recs text) (hbom : text.head? ≠ some '\uFEFF') (ht : Trimmed recs recs') (bad : List Byte) (hbad : utf8Decode bad = none) (hb1 : 34 ∉ bad) (hb2 : 10 ∉ bad) (hb3 : 13 ∉ bad)
    (recs2 recs2' : List (List Str)) (text2 : Str) (h2 : FileText d recs2 text2) (ht2 : Trimmed recs2 recs2') (r : BufReader) (hnf : NoFail r.inner)
    (hs : stillToCome r = utf8Encode (text ++ ['\n']) ++ (bad ++ 10 :: utf8Encode text2)) :
    (csvCrate.parse b false r).records = recs'.map .ok ++ .err .csv :: recs2'.map .ok := by
  have hb' : (text ++ ['\n']).head? ≠ some '\uFEFF' := by
    cases text with
    | nil => decide
    | cons c t => simpa using hbom
  have toB : ∀ (c : Char) (x : Byte), c.toNat = x.toNat → d ≠ c → b ≠ x := by
    rintro c x hc hdc rfl
    exact hdc (Char.ext (UInt32.toNat_inj.1 (hb.symm.trans hc.symm)))
  have b1 := toB '"' 34 (by decide) hq
  have b2 := toB '\n' 10 (by decide) hn
  have b3 := toB '\r' 13 (by decide) hr
  have hbne : bad ≠ [] := by rintro rfl; exact absurd hbad (by decide)
  obtain ⟨x, xs, hx⟩ := List.exists_cons_of_ne_nil hbne
  obtain ⟨init, last, e1, e2⟩ := bad_line b1 b2 b3 (ofBytes (utf8Encode text2)) bad .startField [] [] (.inl rfl) hb1 hb2 hb3
  have hxt : csvTerm x = false := by
    rw [Bool.eq_false_iff]
    intro ht
    simp only [csvTerm, Bool.or_eq_true, beq_iff_eq] at ht
    rcases ht with rfl | rfl
    · exact hb3 (by simp [hx])
    · exact hb2 (by simp [hx])
  have hrun : crateRecords b r = recs.map (fun r => .ok (r.map utf8Encode)) ++ .ok (init ++ [last]) :: recs2.map (fun r => .ok (r.map utf8Encode)) := by
    rw [crate_stream (no_sched hnf).1 hs (by simp) hb', (no_sched hnf).2, utf8Encode_append]
    have : utf8Encode ['\n'] = [10] := by decide +kernel
    rw [this, ofBytes_append, ofBytes_append, List.append_assoc, List.append_assoc]
    have e3 : ofBytes [10] ++ (ofBytes (bad ++ 10 :: utf8Encode text2) ++ endItems none) = .byte 10 :: (ofBytes bad ++ .byte 10 :: ofBytes (utf8Encode text2)) := by
      simp [ofBytes, endItems]
    rw [e3, file_run_tail hd hb hq hn hr h]
    congr 1
    rw [← file_run hd hb hq hn hr h2]
    rw [List.nil_append] at e1
    rw [← e1, hx, ofBytes_cons, List.cons_append, start_field hxt]
  have hrec : stringRecord (init ++ [last]) = .err .csv := by
    unfold stringRecord
    cases hm : (init ++ [last]).mapM utf8Decode with
    | none => rfl
    | some ts =>
      exfalso
      have := mapM_some hm
      have hl : bad = utf8Encode (joinChar d ts) := by
        have hts : ts ≠ [] := by rintro rfl; simp at this
        rw [List.nil_append] at e2
        rw [e2]
        clear hm e1 e2 hrun hs
        induction init generalizing ts with
        | nil =>
          match ts, this with
          | [t], this =>
            simp at this
            simp [joinChar, this]
        | cons f init ih =>
          match ts, this with
          | [t], this => simp at this
          | t :: u :: ts, this =>
            simp only [List.cons_append, List.map_cons, List.cons.injEq] at this
            have := ih (u :: ts) (by simpa using this.2) (by simp)
            have ej : joinChar d (t :: u :: ts) = t ++ d :: joinChar d (u :: ts) := rfl
            rw [List.flatMap_cons, List.append_assoc, this, ej, utf8Encode_append, ‹f = _ ∧ _›.1]
            have : encodeChar d = [b] := by
              rw [encode_ascii hd, ← hb]
              congr 1
              exact BitVec.eq_of_toNat_eq (by rw [ofNat8 (by omega)])
            simp [utf8Encode, this]
      rw [hl, utf8Decode_encode] at hbad
      cases hbad
  have t1 : recs' = recs.map fun r => r.map trim := trimmed_unique ht (trimmed_map recs)
  have t2 : recs2' = recs2.map fun r => r.map trim := trimmed_unique ht2 (trimmed_map recs2)
  subst t1 t2
  simp only [csvCrate, hrun, Bool.false_eq_true, if_false, List.map_append, List.map_cons, List.map_map, Res.bind_ok, hrec]
  congr 1
  · apply List.map_congr_left
    intro x _
    simp only [Function.comp_apply, Res.bind_ok, stringRecord_encode]
  · congr 1
    apply List.map_congr_left
    intro x _
    simp only [Function.comp_apply, Res.bind_ok, stringRecord_encode]

end Chopper.Props
