import Verif.Proofs.Dc2

/-!
# Proofs about the DC format: writing, and reading back
-/
namespace Chopper
open Spec

/-! ## Strings and values -/

theorem uses_readString {s : Str} (h : utf8Len s < 2 ^ 32) : Uses readString s (stringValue s) := by
  have hs : Uses (readN (utf8Len s)) (utf8Encode s) (utf8Encode s) := uses_readN _
  have h2 : Uses (Rd.bind (readN (utf8Len s)) rdUtf8) s (utf8Encode s) := by
    have := hs.bind (uses_utf8 s)
    rwa [List.append_nil] at this
  unfold stringValue
  by_cases hl : utf8Len s ≤ 2 ^ 15 - 1
  · rw [if_pos hl]
    have u1 : Uses (readU 2) (utf8Len s) _ := uses_readU (by omega)
    refine u1.bind ?_
    rw [if_neg (by omega), if_pos (by omega)]
    simp only [Rd.bind_pure_left]
    exact h2
  · rw [if_neg hl, List.append_assoc]
    have u1 : Uses (readU 2) (2 ^ 16 - 1) _ := uses_readU (by decide)
    refine u1.bind ?_
    rw [if_pos rfl]
    have u2 : Uses (readU 4) (utf8Len s) _ := uses_readU h
    exact u2.bind h2

theorem ofNat_toNat' {w : Nat} (x : BitVec w) : BitVec.ofNat w x.toNat = x := by simp

theorem uses_readValue {t : FieldType} {v : FieldValue} (h : Fits t v) (hn : v ≠ .none) :
    (writeValue v).res = .ok () ∧ Uses (readValue t) v (writeValue v).out := by
  have num : ∀ {k : Nat} (mk : Nat → FieldValue) (n : Nat), n < 256 ^ k →
      Uses (Rd.bind (readU k) fun n => Rd.pure (mk n)) (mk n) (beBytes k n) := by
    intro k mk n hn
    have := (uses_readU hn).bind (f := fun n => Rd.pure (mk n)) (uses_pure _)
    rwa [List.append_nil] at this
  cases v <;> cases t <;> first | exact absurd rfl hn | exact absurd h id | skip
  case byte.byte x =>
    have := num (k := 1) (fun n => .byte (BitVec.ofNat 8 n)) x.toNat x.isLt
    simp only [ofNat_toNat'] at this
    exact ⟨rfl, this⟩
  case char.char x =>
    have := num (k := 2) (fun n => .char (BitVec.ofNat 16 n)) x.toNat x.isLt
    simp only [ofNat_toNat'] at this
    exact ⟨rfl, this⟩
  case double.double x =>
    have := num (k := 8) (fun n => .double (BitVec.ofNat 64 n)) x.toNat x.isLt
    simp only [ofNat_toNat'] at this
    exact ⟨rfl, this⟩
  case float.float x =>
    have := num (k := 4) (fun n => .float (BitVec.ofNat 32 n)) x.toNat x.isLt
    simp only [ofNat_toNat'] at this
    exact ⟨rfl, this⟩
  case int.int x =>
    have := num (k := 4) (fun n => .int (BitVec.ofNat 32 n)) x.toNat x.isLt
    simp only [ofNat_toNat'] at this
    exact ⟨rfl, this⟩
  case long.long x =>
    have := num (k := 8) (fun n => .long (BitVec.ofNat 64 n)) x.toNat x.isLt
    simp only [ofNat_toNat'] at this
    exact ⟨rfl, this⟩
  case short.short x =>
    have := num (k := 2) (fun n => .short (BitVec.ofNat 16 n)) x.toNat x.isLt
    simp only [ofNat_toNat'] at this
    exact ⟨rfl, this⟩
  case string.string s =>
    refine ⟨rfl, ?_⟩
    have := (uses_readString h).bind (f := fun s => Rd.pure (FieldValue.string s)) (uses_pure _)
    rwa [List.append_nil] at this

/-! ## The bitmap -/

/-- The null flags of values as a number, the first value in the lowest bit. -/
def nullBits : List FieldValue → Nat
  | [] => 0
  | v :: vs => (if v = .none then 1 else 0) + 2 * nullBits vs

theorem nullBits_lt (vs : List FieldValue) : nullBits vs < 2 ^ vs.length := by
  induction vs with
  | nil => decide
  | cons v vs ih =>
    rw [nullBits, List.length_cons, Nat.pow_succ]
    split <;> omega

theorem bitsetByte_eq : ∀ (j bit : Nat) (vs : List FieldValue) (acc : Byte),
    bitsetByte j bit vs acc = (acc + BitVec.ofNat 8 (2 ^ bit * nullBits (vs.take j)), vs.drop j)
  | 0, bit, vs, acc => by simp [bitsetByte, nullBits]
  | j + 1, bit, [], acc => by simp [bitsetByte, nullBits]
  | j + 1, bit, v :: vs, acc => by
    rw [bitsetByte, bitsetByte_eq]
    simp only [List.take_succ_cons, List.drop_succ_cons, nullBits, Prod.mk.injEq, and_true]
    split
    · rw [Nat.mul_add, Nat.mul_one, BitVec.ofNat_add, BitVec.add_assoc, Nat.pow_succ, Nat.mul_assoc]
    · rw [Nat.zero_add, Nat.pow_succ, Nat.mul_assoc]

theorem bitset_succ (k : Nat) (vs : List FieldValue) :
    bitset (k + 1) vs = BitVec.ofNat 8 (nullBits (vs.take 8)) :: bitset k (vs.drop 8) := by
  rw [bitset]
  simp only [bitsetByte_eq, Nat.pow_zero, Nat.one_mul]
  congr 1
  exact BitVec.zero_add _

theorem bitset_length (k : Nat) (vs : List FieldValue) : (bitset k vs).length = k := by
  induction k generalizing vs with
  | zero => rfl
  | succ k ih => rw [bitset_succ, List.length_cons, ih]

theorem nullBits_bit (vs : List FieldValue) (i : Nat) : (nullBits vs).testBit i = decide (vs[i]? = some .none) := by
  induction vs generalizing i with
  | nil => simp [nullBits]
  | cons v vs ih =>
    cases i with
    | zero =>
      rw [Nat.testBit_zero, nullBits]
      by_cases hv : v = .none
      · simp [hv]
      · simp [hv]
    | succ i =>
      rw [Nat.testBit_succ, List.getElem?_cons_succ, ← ih, nullBits]
      congr 1
      split <;> omega

/-! ## Rows -/

theorem bits_low {m : Nat} : ((BitVec.ofNat 8 m &&& 1 : Byte) = 0) ↔ m % 2 = 0 := by
  rw [← BitVec.toNat_inj]
  have : (BitVec.ofNat 8 m &&& 1 : Byte).toNat = (m % 256) % 2 := by
    rw [BitVec.toNat_and, BitVec.toNat_ofNat]
    show (m % 256) &&& 1 = _
    rw [Nat.and_one_is_mod]
  rw [this]
  show m % 256 % 2 = 0 ↔ _
  omega

theorem bits_shift {m : Nat} (h : m < 256) : (BitVec.ofNat 8 m >>> 1 : Byte) = BitVec.ofNat 8 (m / 2) := by
  apply BitVec.eq_of_toNat_eq
  rw [BitVec.toNat_ushiftRight, BitVec.toNat_ofNat, BitVec.toNat_ofNat, Nat.shiftRight_eq_div_pow]
  omega

/-- All values fit their types. -/
inductive AllFit : List FieldType → List FieldValue → Prop
  | nil : AllFit [] []
  | cons {t v ts vs} : Fits t v → AllFit ts vs → AllFit (t :: ts) (v :: vs)

theorem allFit_length {ts : List FieldType} {vs : List FieldValue} (h : AllFit ts vs) : vs.length = ts.length := by
  induction h with
  | nil => rfl
  | cons _ _ ih => simp [ih]

theorem allFit_of_row : ∀ {ts : List FieldType} {vs : List FieldValue}, vs.length = ts.length →
    (∀ (i : Nat) t v, ts[i]? = some t → vs[i]? = some v → Fits t v) → AllFit ts vs
  | [], [], _, _ => .nil
  | t :: ts, v :: vs, h, hf => .cons (hf 0 t v rfl rfl) (allFit_of_row (by simpa using h) fun i t v h1 h2 => hf (i + 1) t v h1 h2)

theorem writeValues_ok {ts : List FieldType} {vs : List FieldValue} (h : AllFit ts vs) :
    writeValues vs = ⟨vs.flatMap fun v => (writeValue v).out, .ok ()⟩ := by
  induction h with
  | nil => rfl
  | @cons t v ts vs h1 h2 ih =>
    rw [writeValues, ih, List.flatMap_cons]
    have : (writeValue v).res = .ok () := by
      by_cases hn : v = .none
      · subst hn; rfl
      · exact (uses_readValue h1 hn).1
    simp only [Wr.bind, this]

theorem uses_readGroup (types : List FieldType) : ∀ (j : Nat) (acc vs : List FieldValue), j ≤ 8 → AllFit (types.drop acc.length) vs → vs ≠ [] →
    Uses (readGroup types j (BitVec.ofNat 8 (nullBits (vs.take j))) acc) (acc ++ vs.take j)
      ((vs.take j).flatMap fun v => (writeValue v).out)
  | 0, acc, vs, _, _, _ => by simpa [readGroup] using uses_pure acc
  | j + 1, acc, vs, hj, hf, hne => by
    obtain ⟨v, vs', rfl⟩ := List.exists_cons_of_ne_nil hne
    have hlen := allFit_length hf
    cases hd : types.drop acc.length with
    | nil => rw [hd] at hf; cases hf
    | cons t ts =>
      rw [hd] at hf
      cases hf with
      | cons h1 h2 =>
      have hty : types[acc.length]? = some t := by
        have := congrArg (fun l => l[0]?) hd
        simpa [List.getElem?_drop] using this
      have hts : types.drop (acc ++ [v]).length = ts := by
        have := congrArg List.tail hd
        simpa [List.tail_drop] using this
      have hb : nullBits (List.take (j + 1) (v :: vs')) < 256 := by
        have h1 := nullBits_lt (List.take (j + 1) (v :: vs'))
        have h2 : (List.take (j + 1) (v :: vs')).length ≤ 8 := by simp; omega
        have := Nat.pow_le_pow_right (n := 2) (by decide) h2
        omega
      have hsh : nullBits (List.take (j + 1) (v :: vs')) / 2 = nullBits (List.take j vs') := by
        rw [List.take_succ_cons, nullBits]; split <;> omega
      have hlo : nullBits (List.take (j + 1) (v :: vs')) % 2 = 0 ↔ v ≠ .none := by
        rw [List.take_succ_cons, nullBits]; split <;> simp_all <;> omega
      rw [readGroup, hty]
      simp only
      rw [List.take_succ_cons, List.flatMap_cons, ← List.take_succ_cons]
      refine Uses.bind (a := v) ?_ ?_
      · by_cases hn : v = .none
        · rw [if_neg (by rw [bits_low, hlo]; simp [hn])]
          subst hn
          exact uses_pure _
        · rw [if_pos (by rw [bits_low, hlo]; exact hn)]
          exact (uses_readValue h1 hn).2
      · have hl : types.length - acc.length = vs'.length + 1 := by
          rw [List.length_drop] at hlen
          simpa using hlen.symm
        split
        · next hle =>
          have : vs' = [] := List.eq_nil_of_length_eq_zero (by omega)
          subst this
          simpa using uses_pure (acc ++ [v])
        · next hle =>
          rw [bits_shift hb, hsh]
          have hne' : vs' ≠ [] := by
            rintro rfl
            simp at hl; omega
          have := uses_readGroup types j (acc ++ [v]) vs' (by omega) (by rw [hts]; exact h2) hne'
          simpa using this

theorem uses_readGroups (types : List FieldType) : ∀ (k : Nat) (acc vs : List FieldValue), AllFit (types.drop acc.length) vs →
    vs.length ≤ 8 * k → 8 * k < vs.length + 8 → vs ≠ [] →
    Uses (readGroups types (bitset k vs) acc) (acc ++ vs) (vs.flatMap fun v => (writeValue v).out)
  | 0, acc, vs, _, h, _, hne => absurd (List.eq_nil_of_length_eq_zero (by omega)) hne
  | k + 1, acc, vs, hf, h1, h2, hne => by
    have u1 := uses_readGroup types 8 acc vs (Nat.le_refl 8) hf hne
    rw [bitset_succ, readGroups]
    by_cases hk : k = 0
    · subst hk
      have ht : vs.take 8 = vs := List.take_of_length_le (by omega)
      rw [ht] at u1 ⊢
      have := u1.bind (f := readGroups types (bitset 0 (vs.drop 8))) (uses_pure (acc ++ vs))
      rwa [List.append_nil] at this
    · have hl : (acc ++ vs.take 8).length = acc.length + 8 := by simp; omega
      have hf' : ∀ (n : Nat) {ts : List FieldType} {vs : List FieldValue}, AllFit ts vs → AllFit (ts.drop n) (vs.drop n) := by
        intro n
        induction n with
        | zero => intro ts vs h; simpa using h
        | succ n ih =>
          intro ts vs h
          cases h with
          | nil => simpa using AllFit.nil
          | cons _ h => simpa using ih h
      have u2 := uses_readGroups types k (acc ++ vs.take 8) (vs.drop 8)
        (by rw [hl, ← List.drop_drop]; exact hf' 8 hf) (by simp; omega) (by simp; omega)
        (by intro h0; have := congrArg List.length h0; simp at this; omega)
      have := u1.bind u2
      rw [List.append_assoc, List.take_append_drop, ← List.flatMap_append, List.take_append_drop] at this
      exact this

/-- The number of bitmap bytes the reader expects. -/
def bitmapLen (n : Nat) : Nat := 1 + (n - 1) / 8

theorem dcWriteRow_eq {k : Nat} {types : List FieldType} {r : Row} (hk : k < 2 ^ 48) (hf : AllFit types r.values) :
    dcWriteRow k r = ⟨beBytes 8 r.timestamp.toNat ++ (bitset k r.values ++ r.values.flatMap fun v => (writeValue v).out), .ok ()⟩ := by
  have ha : allocBytes k = .ok () := if_pos hk
  simp only [dcWriteRow, Wr.bind, Wr.put, writeValues_ok hf, ha, List.nil_append]

theorem nextRow_written {h : Header} {r : Row} (hf : AllFit h.types r.values) (hne : h.types ≠ []) (t : Stream) :
    DcSource.nextRow ⟨ofBytes (beBytes 8 r.timestamp.toNat ++ (bitset (bitmapLen h.types.length) r.values ++
      r.values.flatMap fun v => (writeValue v).out)) ++ t, h⟩ = (.ok (some r), ⟨t, h⟩) := by
  have hl := allFit_length hf
  have hpos : 0 < h.types.length := List.length_pos_iff.2 hne
  have u1 : Uses (readU 8) r.timestamp.toNat _ := uses_readU r.timestamp.isLt
  have u2 : Uses (readN (bitmapLen h.types.length)) (bitset (bitmapLen h.types.length) r.values) (bitset (bitmapLen h.types.length) r.values) := by
    have := uses_readN (bitset (bitmapLen h.types.length) r.values)
    rwa [bitset_length] at this
  have u3 := uses_readGroups h.types (bitmapLen h.types.length) [] r.values (by simpa using hf)
    (by rw [hl, bitmapLen]; omega) (by rw [hl, bitmapLen]; omega)
    (by intro h0; rw [h0] at hl; simp at hl; omega)
  have u : Uses (readRowBody h.types) ([] ++ r.values) _ := u2.bind u3
  simp only [DcSource.nextRow]
  rw [ofBytes_append, List.append_assoc, u1.here]
  simp only
  rw [u.here]
  simp

theorem dcWriteRows_read {h : Header} (hne : h.types ≠ []) (hlen : h.types.length < 2 ^ 32) : ∀ {rows : List Row}, (∀ r ∈ rows, AllFit h.types r.values) →
    (dcWriteRows (bitmapLen h.types.length) rows).res = .ok () ∧
    ∀ t, Delivers ⟨ofBytes (dcWriteRows (bitmapLen h.types.length) rows).out ++ t, h⟩ rows ⟨t, h⟩
  | [], _ => ⟨rfl, fun t => .nil _⟩
  | r :: rows, hf => by
    obtain ⟨h1, h2⟩ := dcWriteRows_read hne hlen (rows := rows) fun r hr => hf r (by simp [hr])
    have hk : bitmapLen h.types.length < 2 ^ 48 := by unfold bitmapLen; omega
    have hw := dcWriteRow_eq hk (hf r (by simp))
    rw [dcWriteRows]
    simp only [Wr.bind, hw]
    refine ⟨h1, fun t => ?_⟩
    rw [ofBytes_append, List.append_assoc]
    exact .cons (nextRow_written (hf r (by simp)) hne _) (h2 t)

/-! ## Headers -/

/-- The columns of a header as the sink describes them. -/
def columnsOf : List Str → List FieldType → List Column
  | n :: ns, t :: ts => ⟨n, t, String.ofList (typeString t), -1⟩ :: columnsOf ns ts
  | _, _ => []

theorem columnsOf_spec : ∀ {ns : List Str} {ts : List FieldType}, ns.length = ts.length →
    (columnsOf ns ts).length = ts.length ∧ (columnsOf ns ts).map (·.name) = ns ∧ (columnsOf ns ts).map (·.type) = ts
  | [], [], _ => ⟨rfl, rfl, rfl⟩
  | n :: ns, t :: ts, h => by
    obtain ⟨h1, h2, h3⟩ := columnsOf_spec (ns := ns) (ts := ts) (by simpa using h)
    simp [columnsOf, h1, h2, h3]

theorem columnsOf_valid : ∀ {ns : List Str} {ts : List FieldType}, (∀ n ∈ ns, utf8Len n < 2 ^ 32) → ∀ c ∈ columnsOf ns ts, c.Valid
  | n :: ns, t :: ts, h, c, hc => by
    rw [columnsOf, List.mem_cons] at hc
    rcases hc with rfl | hc
    · exact ⟨typeName_iff.2 (by simp), h n (by simp), Int.le_refl (-1), (by decide : (-1 : Int) ≤ 6)⟩
    · exact columnsOf_valid (fun n hn => h n (by simp [hn])) c hc
  | [], ts, _, c, hc => by cases ts <;> simp [columnsOf] at hc
  | n :: ns, [], _, c, hc => by simp [columnsOf] at hc

theorem writeDescriptors_ok : ∀ {ns : List Str} {ts : List FieldType}, ns.length = ts.length →
    (∀ t ∈ ts, t ≠ .boolean ∧ t ≠ .byteBuf) → writeDescriptors (ns.zip ts) = ⟨((columnsOf ns ts).map Column.bytes).flatten, .ok ()⟩
  | [], [], _, _ => rfl
  | n :: ns, t :: ts, h, ht => by
    have ih := writeDescriptors_ok (ns := ns) (ts := ts) (by simpa using h) fun t h => ht t (by simp [h])
    have ht' := ht t (by simp)
    have hw : writeFieldType t = Wr.put (sizedString (typeString t)) := by
      cases t <;> first | rfl | exact absurd rfl ht'.1 | exact absurd rfl ht'.2
    rw [List.zip_cons_cons, writeDescriptors, hw, ih]
    simp only [Wr.bind, Wr.put, columnsOf, List.map_cons, List.flatten_cons]
    congr 1
    simp [Column.bytes, sized, sizedString, utf8Len, beBytes_eq]

theorem dcProcessHeader_ok (ov : Overflow) {h : Header} (hl : h.names.length = h.types.length) (hn : 2 ≤ h.types.length)
    (hn2 : h.types.length < 2 ^ 32) (ht : ∀ t ∈ h.types, t ≠ .boolean ∧ t ≠ .byteBuf) (hnm : ∀ n ∈ h.names, utf8Len n < 2 ^ 32) :
    ∃ c, dcProcessHeader ov h = ⟨c, .ok (bitmapLen (h.types.length - 1))⟩ ∧ IsDcHeader c ⟨h.names.mapIdx columnName, h.types⟩ := by
  obtain ⟨e1, e2, e3⟩ := columnsOf_spec hl
  have hm : lenMinusOne ov h.types.length = .ok (h.types.length - 1) := by
    unfold lenMinusOne; rw [if_neg (by omega)]
  have hb : getBitsetBytes ov (h.types.length - 1) = .ok (bitmapLen (h.types.length - 1)) := getBitsetBytes_pos (by omega)
  refine ⟨[0, 0, 0, 0, 0x44, 0x43, 0x41, 0x54] ++ [0, 2] ++ bigEndian 4 0 ++ [] ++ bigEndian 4 (columnsOf h.names h.types).length ++
      ((columnsOf h.names h.types).map Column.bytes).flatten, ?_, [], columnsOf h.names h.types, by decide, ?_, ?_, columnsOf_valid hnm, rfl, e3.symm, ?_⟩
  · have : writeHeader h = ⟨(beBytes 8 dcMagic ++ beBytes 2 dcVersion ++ beBytes 4 0 ++ beBytes 4 h.types.length) ++
        ((columnsOf h.names h.types).map Column.bytes).flatten, .ok ()⟩ := by
      unfold writeHeader
      rw [if_neg (by simpa using hl), writeDescriptors_ok hl ht]
      rfl
    unfold dcProcessHeader
    rw [this, hm]
    simp only [Wr.bind, Res.bind_ok, hb]
    rw [magic_bytes, version_bytes, beBytes_eq, beBytes_eq, e1]
    simp
  · intro h0
    rw [h0] at e1; simp at e1; omega
  · rw [e1]; exact hn2
  · simp only [e2]

theorem bitmapLen_eq {n : Nat} (h : 2 ≤ n) (h8 : n % 8 ≠ 1) : bitmapLen (n - 1) = bitmapLen n := by unfold bitmapLen; omega

theorem roundtrip (ov ov' : Overflow) {h : Header} (hl : h.names.length = h.types.length) (hn : 2 ≤ h.types.length) (h8 : h.types.length % 8 ≠ 1)
    (hn2 : h.types.length < 2 ^ 32) (ht : ∀ t ∈ h.types, t ≠ .boolean ∧ t ≠ .byteBuf) (hnm : ∀ n ∈ h.names, utf8Len n < 2 ^ 32)
    {rows : List Row} (hf : ∀ r ∈ rows, RowFits h.types r) :
    (dcWriteFile ov h rows).res = .ok () ∧
    ∀ t, ∃ src fin, dcOpen ov' (ofBytes (dcWriteFile ov h rows).out ++ t) = .ok src ∧ src.header = ⟨h.names.mapIdx columnName, h.types⟩ ∧
      Delivers src rows fin ∧ fin = ⟨t, src.header⟩ := by
  obtain ⟨c, hc, hd⟩ := dcProcessHeader_ok ov hl hn hn2 ht hnm
  have hne : h.types ≠ [] := by intro h0; rw [h0] at hn; simp at hn
  obtain ⟨h1, h2⟩ := dcWriteRows_read (h := ⟨h.names.mapIdx columnName, h.types⟩) hne hn2 (rows := rows)
    fun r hr => allFit_of_row (hf r hr).1 (hf r hr).2
  simp only at h1 h2
  unfold dcWriteFile
  rw [hc]
  simp only [Wr.bind]
  rw [bitmapLen_eq hn h8]
  refine ⟨h1, fun t => ⟨⟨ofBytes (dcWriteRows (bitmapLen h.types.length) rows).out ++ t, ⟨h.names.mapIdx columnName, h.types⟩⟩, _, ?_, rfl, h2 t, rfl⟩⟩
  refine dcOpen_iff.2 ⟨c, ?_, hd⟩
  simp

end Chopper
