import Verif.Model.CsvCrate
import Verif.Props.CsvExact
import Verif.Props.Received
import Verif.Props.CsvQuoted

/-!
# CSV data that arrive only in part
-/
namespace Chopper
open Spec Props

/-- The records that are complete after these bytes, and what has been read of the next one. -/
def csvRun (d : Byte) : CsvState → List Byte → List (List Byte) → List Byte → List (List (List Byte)) × CsvState × List Byte × List (List Byte)
  | st, cur, fields, [] => ([], st, cur, fields)
  | st, cur, fields, c :: bs =>
    match csvStep d c st with
    | (st', .drop) => csvRun d st' cur fields bs
    | (st', .copy) => csvRun d st' (cur ++ [c]) fields bs
    | (st', .endField) => csvRun d st' [] (fields ++ [cur]) bs
    | (st', .endRecord) => ((fields ++ [cur]) :: (csvRun d st' [] [] bs).1, (csvRun d st' [] [] bs).2)

theorem scan_byte (d : Byte) (st : CsvState) (cur : List Byte) (fields : List (List Byte)) (c : Byte) (s : Stream) :
    csvScan d st cur fields (.byte c :: s) = match csvStep d c st with
      | (st', .drop) => csvScan d st' cur fields s
      | (st', .copy) => csvScan d st' (cur ++ [c]) fields s
      | (st', .endField) => csvScan d st' [] (fields ++ [cur]) s
      | (st', .endRecord) => .ok (fields ++ [cur]) :: csvScan d st' [] [] s := by
  cases st <;> (rw [csvScan.eq_def] <;> rfl)

theorem scan_append (d : Byte) : ∀ (bs : List Byte) (st : CsvState) (cur : List Byte) (fields : List (List Byte)) (s : Stream),
    csvScan d st cur fields (ofBytes bs ++ s) = (csvRun d st cur fields bs).1.map .ok ++
      csvScan d (csvRun d st cur fields bs).2.1 (csvRun d st cur fields bs).2.2.1 (csvRun d st cur fields bs).2.2.2 s
  | [], _, _, _, _ => rfl
  | c :: bs, st, cur, fields, s => by
    show csvScan d st cur fields (.byte c :: (ofBytes bs ++ s)) = _
    rw [scan_byte]
    unfold csvRun
    rcases csvStep d c st with ⟨st', a⟩
    cases a with
    | drop => exact scan_append d bs _ _ _ s
    | copy => exact scan_append d bs _ _ _ s
    | endField => exact scan_append d bs _ _ _ s
    | endRecord =>
      simp only [List.map_cons, List.cons_append]
      rw [scan_append d bs]

theorem scan_stop (d : Byte) (st : CsvState) (cur : List Byte) (fields : List (List Byte)) {t : Stream} {k : IoKind} (h : StopsWith t k) :
    (t = [] ∧ (csvScan d st cur fields t = [] ∨ ∃ x, csvScan d st cur fields t = [.ok x])) ∨ (t ≠ [] ∧ csvScan d st cur fields t = [.err (.io k)]) := by
  cases h with
  | ends => cases st <;> simp [csvScan]
  | fails e t => cases st <;> simp [csvScan]

/-- What the scanner makes of a part of the data, and of more of them. -/
theorem scan_part (d : Byte) (s : Stream) (rest : List Byte) :
    ∃ (done : List (List (List Byte))) (tail more : List (Res (List (List Byte)))), csvScan d .startRecord [] [] s = done.map .ok ++ tail ∧ csvScan d .startRecord [] [] (ofBytes (received s ++ rest)) = done.map .ok ++ more ∧
      (tail = [] ∨ (∃ x, tail = [.ok x]) ∨ ∃ k, tail = [.err (.io k)]) ∧ ((∃ k, Item.fail k ∈ s) → ∃ k, tail = [.err (.io k)]) := by
  obtain ⟨t, k, h1, h2⟩ := received_split s
  have e1 := scan_append d (received s) .startRecord [] [] t
  rw [← h1] at e1
  have e2 := scan_append d (received s) .startRecord [] [] (ofBytes rest)
  rw [← ofBytes_append] at e2
  refine ⟨_, _, _, e1, e2, ?_, ?_⟩
  · rcases scan_stop d _ _ _ h2 with ⟨_, h | h⟩ | ⟨_, h⟩
    · exact .inl h
    · exact .inr (.inl h)
    · exact .inr (.inr ⟨k, h⟩)
  · rintro ⟨k', hk⟩
    rcases scan_stop d _ _ _ h2 with ⟨ht, _⟩ | ⟨_, h⟩
    · subst ht
      rw [h1, List.append_nil] at hk
      obtain ⟨b, _, hb⟩ := List.mem_map.1 hk
      cases hb
    · exact ⟨k, h⟩

/-- The same of the records that the reader delivers. -/
theorem parse_part {d : Byte} {header : Bool} {r r' : BufReader} {done : List (List (List Byte))} {tail more : List (Res (List (List Byte)))}
    (h1 : crateRecords d r = done.map .ok ++ tail) (h2 : crateRecords d r' = done.map .ok ++ more) (ht : tail = [] ∨ (∃ x, tail = [.ok x]) ∨ ∃ k, tail = [.err (.io k)])
    {first : List Str} {rest : List (Res (List Str))} (ho : (csvCrate.parse d header r).records = .ok first :: rest) :
    ∃ A T M, (csvCrate.parse d header r).records = A ++ T ∧ (csvCrate.parse d header r').records = A ++ M ∧ (header = true → (csvCrate.parse d header r').headers = (csvCrate.parse d header r).headers) ∧
      T.length ≤ 1 ∧ ((∃ k, tail = [.err (.io k)]) → ∃ k, T = [.err (.io k)]) := by
  have hlen : tail.length ≤ 1 := by rcases ht with rfl | ⟨_, rfl⟩ | ⟨_, rfl⟩ <;> simp
  cases header with
  | false =>
    simp only [csvCrate, Bool.false_eq_true, if_false, h1, h2, List.map_append] at ho ⊢
    refine ⟨_, _, _, rfl, rfl, by simp, by simpa using hlen, ?_⟩
    rintro ⟨k, rfl⟩
    exact ⟨k, rfl⟩
  | true =>
    cases done with
    | nil =>
      simp only [csvCrate, if_true, h1, List.map_nil, List.nil_append] at ho
      rcases ht with rfl | ⟨_, rfl⟩ | ⟨_, rfl⟩ <;> simp [Res.bind] at ho
    | cons x done =>
      simp only [csvCrate, if_true, h1, h2, List.map_cons, List.cons_append, List.map_append] at ho ⊢
      refine ⟨_, _, _, rfl, rfl, fun _ => trivial, by simpa using hlen, ?_⟩
      rintro ⟨k, rfl⟩
      exact ⟨k, rfl⟩

/-! ### Byte order marks -/

def bom : List Byte := [0xEF, 0xBB, 0xBF]

theorem dropBom_none {r : BufReader} {s : Stream} (h : ¬ bom <+: received s) : dropBom r s = s := by
  unfold dropBom
  split
  · rename_i rest
    exact absurd ⟨received rest, rfl⟩ h
  · rfl

theorem dropBom_some {r : BufReader} {t : Stream} (h : 3 ≤ r.cap - r.pos) : dropBom r (ofBytes bom ++ t) = t := by
  show (if r.cap - r.pos = 1 ∨ r.cap - r.pos = 2 then (.byte 0xEF :: .byte 0xBB :: .byte 0xBF :: t : Stream) else t) = t
  rw [if_neg (by omega)]

theorem received_bytes (bs : List Byte) : received (ofBytes bs) = bs := by
  have := received_append bs []
  simpa [received] using this

/-- Of a file with a byte order mark, parts of less than three bytes have no record. -/
theorem bom_short {b : Byte} (hb : b.toNat < 128) {header : Bool} {r : BufReader} (hl : (received (streamOf r)).length < 3) (hp : received (streamOf r) <+: bom) {first : List Str}
    {rest : List (Res (List Str))} : (csvCrate.parse b header r).records ≠ .ok first :: rest := by
  have h1 : b ≠ 0xEF := by rintro rfl; exact absurd hb (by decide)
  have h2 : b ≠ 0xBB := by rintro rfl; exact absurd hb (by decide)
  have hc : crateRecords b r = csvScan b .startRecord [] [] (streamOf r) := by
    unfold crateRecords
    rw [dropBom_none]
    intro h
    have := h.length_le
    simp only [bom, List.length_cons, List.length_nil] at this
    omega
  have n1 : ¬ (239#8 = b) := fun h => h1 h.symm
  have n2 : ¬ (187#8 = b) := fun h => h2 h.symm
  have hd1 : stringRecord [[239#8]] = .err .csv := by decide +kernel
  have hd2 : stringRecord [[239#8, 187#8]] = .err .csv := by decide +kernel
  have hrec : crateRecords b r = [] ∨ (∃ k, crateRecords b r = [.err k]) ∨ crateRecords b r = [.ok [[0xEF]]] ∨ crateRecords b r = [.ok [[0xEF, 0xBB]]] := by
    rw [hc]
    obtain ⟨t, k, e1, e2⟩ := received_split (streamOf r)
    generalize streamOf r = s at *
    have e3 := scan_append b (received s) .startRecord [] [] t
    rw [← e1] at e3
    have hx : received s = [] ∨ received s = [0xEF] ∨ received s = [0xEF, 0xBB] := by
      obtain ⟨z, hz⟩ := hp
      generalize received s = x at *
      match x, hz, hl with
      | [], _, _ => exact .inl rfl
      | [a], hz, _ => simp [bom] at hz; exact .inr (.inl (by rw [hz.1]; rfl))
      | [a, c], hz, _ => simp [bom] at hz; exact .inr (.inr (by rw [hz.1, hz.2.1]; rfl))
      | a :: c :: d :: x, _, hl => simp at hl; omega
    rcases hx with hx | hx | hx <;> rw [hx] at e3
    · rw [e3]
      cases e2 with
      | ends => exact .inl rfl
      | fails e t => exact .inr (.inl ⟨_, rfl⟩)
    · have hr : csvRun b .startRecord [] [] [0xEF] = ([], .inField, [0xEF], []) := by
        simp [csvRun, csvStep, csvFieldStart, csvTerm, n1]
      rw [hr] at e3
      rw [e3]
      cases e2 with
      | ends => exact .inr (.inr (.inl rfl))
      | fails e t => exact .inr (.inl ⟨_, rfl⟩)
    · have hr : csvRun b .startRecord [] [] [0xEF, 0xBB] = ([], .inField, [0xEF, 0xBB], []) := by
        simp [csvRun, csvStep, csvFieldStart, csvTerm, n1, n2]
      rw [hr] at e3
      rw [e3]
      cases e2 with
      | ends => exact .inr (.inr (.inr rfl))
      | fails e t => exact .inr (.inl ⟨_, rfl⟩)
  cases header <;> rcases hrec with h | ⟨k, h⟩ | h | h <;> simp [csvCrate, h, Res.bind, hd1, hd2]

/-- A part of a CSV file, and the file. -/
theorem crate_part {b : Byte} (hb : b.toNat < 128) {header : Bool} {inner inner' : Inner} {p p' : Previewer} (hp : Previewer.new defaultBufSize inner = .ok p)
    (hp' : Previewer.new defaultBufSize inner' = .ok p') (hi : NoFail inner') (hpre : inner.data <+: inner'.data) {first : List Str} {rest : List (Res (List Str))}
    (ho : (csvCrate.parse b header p.reader).records = .ok first :: rest) :
    ∃ (done : List (List (List Byte))) (tail more : List (Res (List (List Byte)))), crateRecords b p.reader = done.map .ok ++ tail ∧ crateRecords b p'.reader = done.map .ok ++ more ∧
      (tail = [] ∨ (∃ x, tail = [.ok x]) ∨ ∃ k, tail = [.err (.io k)]) ∧ ((∃ k, Item.fail k ∈ streamOf p.reader) → ∃ k, tail = [.err (.io k)]) := by
  have hrec := received_previewed hp
  have hwhole : streamOf p'.reader = ofBytes inner'.data := by
    obtain ⟨q, hq, _, hpend, _, hnf⟩ := preview_ok hi
    obtain rfl : q = p' := Res.ok.inj (hq.symm.trans hp')
    have hend : q.reader.inner.ending = none := by
      cases h : q.reader.inner.ending with
      | none => rfl
      | some k => exact absurd (.inr h) (hnf k)
    rw [streamOf_eq q.reader (fun k hk => hnf k (.inl hk)), hend, hpend]
    simp [endItems]
  unfold crateRecords
  rw [hwhole]
  by_cases hbom : bom <+: inner'.data
  · obtain ⟨W, hW⟩ := hbom
    have hroom' := preview_room hp'
    have hroom := preview_room hp
    have hl' : 3 ≤ inner'.data.length := by rw [← hW]; simp [bom]
    have hsize : 3 ≤ defaultBufSize := by decide
    rw [← hW, ofBytes_append, dropBom_some (r := p'.reader) (by rw [hroom']; omega)]
    by_cases hl : 3 ≤ inner.data.length
    · have hD : bom <+: inner.data := List.prefix_of_prefix_length_le ⟨W, hW⟩ hpre (by simpa [bom] using hl)
      have hrem : bom <+: inner.data.take defaultBufSize := List.prefix_take_iff.2 ⟨hD, by simpa [bom] using hsize⟩
      obtain ⟨x, hx⟩ := hrem
      obtain ⟨h1, h2⟩ := C136_fetched inner p hp
      have hs : streamOf p.reader = ofBytes bom ++ (ofBytes x ++ chunks p.reader.buf.length p.reader.inner.sched p.reader.inner.data p.reader.inner.ending) := by
        rw [← List.append_assoc, ← ofBytes_append, hx, ← h2]
        rfl
      rw [hs, dropBom_some (by rw [hroom]; omega)]
      generalize ofBytes x ++ chunks p.reader.buf.length p.reader.inner.sched p.reader.inner.data p.reader.inner.ending = s' at *
      have hrs : received s' <+: W := by
        have := hrec.trans hpre
        rw [hs, received_append, ← hW] at this
        exact (List.prefix_append_right_inj _).1 this
      obtain ⟨y, hy⟩ := hrs
      obtain ⟨done, tail, more, q1, q2, q3, q4⟩ := scan_part b s' y
      rw [hy] at q2
      refine ⟨done, tail, more, q1, q2, q3, ?_⟩
      rintro ⟨k, hk⟩
      rw [List.mem_append] at hk
      rcases hk with hk | hk
      · obtain ⟨_, _, hk⟩ := List.mem_map.1 hk
        cases hk
      · exact q4 ⟨k, hk⟩
    · exfalso
      refine bom_short hb (header := header) (r := p.reader) ?_ ?_ ho
      · have := hrec.length_le
        omega
      · refine List.prefix_of_prefix_length_le (hrec.trans hpre) ⟨W, hW⟩ ?_
        have := hrec.length_le
        simp [bom]
        omega
  · have hpart : ¬ bom <+: received (streamOf p.reader) := fun h => hbom (h.trans (hrec.trans hpre))
    rw [dropBom_none hpart, dropBom_none (by rw [received_bytes]; exact hbom)]
    obtain ⟨y, hy⟩ := hrec.trans hpre
    obtain ⟨done, tail, more, q1, q2, q3, q4⟩ := scan_part b (streamOf p.reader) y
    rw [hy] at q2
    exact ⟨done, tail, more, q1, q2, q3, q4⟩

/-! ### Rows -/

variable {ov : Overflow} {lib : DateLib} {tz : ChopperTz lib} {col : TimestampCol} {fmt : TimestampFmt}

theorem meaning_length {records : List (Res (List Str))} {src : Source} (h : CsvMeaning ov lib tz col fmt records src) :
    src.rows.length ≤ records.length ∧ (src.ending = .eof → src.rows.length = records.length) := by
  obtain ⟨f, good, rest, h1, h2, h3, ⟨rfl, h5, h6⟩ | ⟨bad, m, rfl, h5, h6⟩⟩ := h
  · subst h1; simp [h5]
  · subst h1
    refine ⟨by simp [h6]; omega, fun he => ?_⟩
    rw [he] at h5
    cases h5

theorem meaning_some {first : List Str} {records : List (Res (List Str))} {src : Source} (h : CsvMeaning ov lib tz col fmt (.ok first :: records) src) (more : List (Res (List Str))) :
    ∃ src', CsvMeaning ov lib tz col fmt (.ok first :: more) src' := by
  obtain ⟨f, good, rest, h1, h2, _, _⟩ := h
  have hf : f = first := by simp at h1; exact h1.1.symm
  subst hf
  have hg : ∀ rec ∈ f :: ([] : List (List Str)), ∃ ts, TimeOf ov lib tz col fmt rec (.ok ts) := by
    intro rec hr
    rw [List.mem_singleton] at hr
    subst hr
    exact (h2 rec (.head _)).2
  obtain ⟨rows, hl, hr⟩ := rows_exist hg 1 (by simp)
  have hm : CsvMeaning ov lib tz col fmt (.ok f :: []) ⟨rows, .eof⟩ :=
    ⟨f, [], [], by simp, by intro rec hr; rw [List.mem_singleton] at hr; subst hr; exact h2 rec (.head _), hr, .inl ⟨rfl, hl, rfl⟩⟩
  obtain ⟨src', h', _⟩ := C98_records ov lib tz col fmt f [] more _ hm
  exact ⟨src', h'⟩

/-- The rows of two inputs that begin with the same records. -/
theorem meaning_part {first : List Str} {A T M : List (Res (List Str))} {src : Source} (h : CsvMeaning ov lib tz col fmt (.ok first :: A ++ T) src) :
    ∃ src', CsvMeaning ov lib tz col fmt (.ok first :: A ++ M) src' ∧ ((∃ k, T = [.err (.io k)]) → src.rows <+: src'.rows ∧ src.ending ≠ .eof) ∧
      (T.length ≤ 1 → src.rows.dropLast.dropLast <+: src'.rows ∧ (src'.ending = .eof → src.rows.dropLast <+: src'.rows)) := by
  have hpre : ∀ l : List Row, l.dropLast <+: l := List.dropLast_prefix
  have hmono : ∀ a b : List Row, a <+: b → a.dropLast <+: b.dropLast := by
    rintro a b ⟨c, rfl⟩
    cases c with
    | nil => simp
    | cons x c => rw [List.dropLast_append_cons]; exact (hpre a).trans (List.prefix_append _ _)
  obtain ⟨src0, h0⟩ := meaning_some (more := A) h
  obtain ⟨a, ha, a1, a2⟩ := C98_records ov lib tz col fmt first A T src0 h0
  obtain rfl := csvMeaning_unique h ha
  obtain ⟨src', hs, s1, s2⟩ := C98_records ov lib tz col fmt first A M src0 h0
  refine ⟨src', hs, ?_, ?_⟩
  · rintro ⟨k, rfl⟩
    by_cases he : src0.ending = .eof
    · rw [(a2 he).2.1 _ _ _ rfl .library]
      exact ⟨(s2 he).1, by simp⟩
    · rw [a1 he, s1 he]
      exact ⟨List.prefix_refl _, he⟩
  · intro hT
    by_cases he : src0.ending = .eof
    · obtain ⟨b1, b2, b3⟩ := a2 he
      obtain ⟨c1, c2, c3⟩ := s2 he
      have hd : src.rows.dropLast <+: src0.rows := by
        have hT' : T = [] ∨ ∃ x, T = [x] := by
          cases T with
          | nil => exact .inl rfl
          | cons x T =>
            cases T with
            | nil => exact .inr ⟨x, rfl⟩
            | cons y T => exact absurd hT (by simp)
        rcases hT' with rfl | ⟨x, rfl⟩
        · rw [List.append_nil] at h
          rw [csvMeaning_unique h h0]
          exact hpre _
        · by_cases hx : ∃ e, Stop ov lib tz col fmt first.length x e
          · obtain ⟨e, hx⟩ := hx
            rw [b2 _ _ _ rfl hx]
            exact (hpre _).trans (hpre _)
          · have hp := b3 (by rintro bad m e heq hstop; cases heq; exact hx ⟨e, hstop⟩)
            have l1 := (meaning_length h).1
            have l0 := (meaning_length h0).2 he
            refine List.prefix_of_prefix_length_le (hpre _) hp ?_
            simp at l1 l0 ⊢
            omega
      refine ⟨(hmono _ _ hd).trans c1, fun hend => hd.trans (c3 ?_)⟩
      intro bad m e hM hstop
      have := c2 _ _ _ hM hstop
      rw [this] at hend
      replace hend : e = .eof := hend
      rw [hend] at hstop
      cases hstop
    · rw [a1 he, s1 he]
      exact ⟨(hpre _).trans (hpre _), fun _ => hpre _⟩

end Chopper
