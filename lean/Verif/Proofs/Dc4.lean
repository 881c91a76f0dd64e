import Verif.Proofs.Dc3

/-!
# Proofs about the DC format: how many bytes a row takes
-/
namespace Chopper
open Spec

/-- A value without huge strings. -/
def Small : FieldValue → Prop
  | .string s => utf8Len s < 2 ^ 31
  | _ => True

theorem readString_len {s s' : Stream} {a : Str} (h : readString s = (.ok a, s')) (hs : utf8Len a < 2 ^ 31) :
    ∃ c, s = ofBytes c ++ s' ∧ (stringValue a).length ≤ c.length := by
  obtain ⟨short, s1, h1, h2⟩ := Rd.bind_ok_inv h
  obtain ⟨n, s2, h3, h4⟩ := Rd.bind_ok_inv h2
  obtain ⟨bs, s3, h5, h6⟩ := Rd.bind_ok_inv h4
  obtain ⟨rfl, l1⟩ := readU_inv h1
  obtain ⟨rfl, rfl⟩ := readN_inv _ _ _ _ h5
  obtain ⟨rfl, rfl⟩ := rdUtf8_inv h6
  have hv : (stringValue a).length = (if utf8Len a ≤ 2 ^ 15 - 1 then 2 else 6) + utf8Len a := by
    unfold stringValue
    split <;> simp [beBytes_length, utf8Len] <;> omega
  by_cases hsh : short = 2 ^ 16 - 1
  · rw [if_pos hsh] at h3
    obtain ⟨rfl, l3⟩ := readU_inv h3
    refine ⟨beBytes 2 short ++ (beBytes 4 (utf8Encode a).length ++ utf8Encode a), by simp, ?_⟩
    rw [hv]
    have : utf8Len a = (utf8Encode a).length := rfl
    simp only [List.length_append, beBytes_length]
    split <;> omega
  · rw [if_neg hsh] at h3
    simp only [Rd.pure, Prod.mk.injEq, Res.ok.injEq] at h3
    obtain ⟨h3, rfl⟩ := h3
    refine ⟨beBytes 2 short ++ utf8Encode a, by simp, ?_⟩
    rw [hv]
    simp only [List.length_append, beBytes_length]
    have hn : utf8Len a = if short < 2 ^ 15 then short else short + (2 ^ 32 - 2 ^ 16) := h3.symm
    have : utf8Len a = (utf8Encode a).length := rfl
    split at hn
    · rw [if_pos (by omega)]; omega
    · omega

theorem readValue_len {t : FieldType} {s s' : Stream} {v : FieldValue} (h : readValue t s = (.ok v, s')) (hs : Small v) :
    ∃ c, s = ofBytes c ++ s' ∧ (writeValue v).out.length ≤ c.length := by
  have num : ∀ {k : Nat} {mk : Nat → FieldValue}, (∀ n, (writeValue (mk n)).out.length = k) →
      (Rd.bind (readU k) fun n => Rd.pure (mk n)) s = (.ok v, s') → ∃ c, s = ofBytes c ++ s' ∧ (writeValue v).out.length ≤ c.length := by
    intro k mk hmk h
    obtain ⟨n, s1, h1, h2⟩ := Rd.bind_ok_inv h
    obtain ⟨rfl, _⟩ := readU_inv h1
    simp only [Rd.pure, Prod.mk.injEq, Res.ok.injEq] at h2
    obtain ⟨rfl, rfl⟩ := h2
    exact ⟨_, rfl, by rw [hmk, beBytes_length]; exact Nat.le_refl _⟩
  cases t
  case boolean => simp [readValue, Rd.err] at h
  case byteBuf => simp [readValue, Rd.err] at h
  case string =>
    obtain ⟨a, s1, h1, h2⟩ := Rd.bind_ok_inv h
    simp only [Rd.pure, Prod.mk.injEq, Res.ok.injEq] at h2
    obtain ⟨rfl, rfl⟩ := h2
    exact readString_len h1 hs
  all_goals exact num (fun n => by simp [writeValue, Wr.put, beBytes_length]) h

theorem readGroup_len (types : List FieldType) : ∀ (j : Nat) (b : Byte) (acc res : List FieldValue) (s s' : Stream),
    readGroup types j b acc s = (.ok res, s') → ∃ vs c, res = acc ++ vs ∧ s = ofBytes c ++ s' ∧
      ((∀ v ∈ vs, Small v) → (vs.flatMap fun v => (writeValue v).out).length ≤ c.length)
  | 0, b, acc, res, s, s', h => by
    simp only [readGroup, Rd.pure, Prod.mk.injEq, Res.ok.injEq] at h
    obtain ⟨rfl, rfl⟩ := h
    exact ⟨[], [], by simp, rfl, by simp⟩
  | j + 1, b, acc, res, s, s', h => by
    rw [readGroup] at h
    cases ht : types[acc.length]? with
    | none => rw [ht] at h; simp [Rd.panic] at h
    | some t =>
      rw [ht] at h
      simp only at h
      obtain ⟨v, s1, h1, h2⟩ := Rd.bind_ok_inv h
      obtain ⟨c1, rfl, hc1⟩ : ∃ c, s = ofBytes c ++ s1 ∧ (Small v → (writeValue v).out.length ≤ c.length) := by
        split at h1
        · by_cases hv : Small v
          · obtain ⟨c, hc, hl⟩ := readValue_len h1 hv
            exact ⟨c, hc, fun _ => hl⟩
          · obtain ⟨c, hc, _⟩ := Good.readValue t _ _ _ h1
            exact ⟨c, hc, fun h => absurd h hv⟩
        · simp only [Rd.pure, Prod.mk.injEq, Res.ok.injEq] at h1
          obtain ⟨rfl, rfl⟩ := h1
          exact ⟨[], rfl, fun _ => by simp [writeValue, Wr.put]⟩
      split at h2
      · simp only [Rd.pure, Prod.mk.injEq, Res.ok.injEq] at h2
        obtain ⟨rfl, rfl⟩ := h2
        refine ⟨[v], c1, rfl, rfl, fun hs => ?_⟩
        simpa using hc1 (hs v (by simp))
      · obtain ⟨vs, c2, rfl, rfl, hl⟩ := readGroup_len types j _ _ _ _ _ h2
        refine ⟨v :: vs, c1 ++ c2, by simp, by simp, fun hs => ?_⟩
        have := hc1 (hs v (by simp))
        have := hl fun v hv => hs v (by simp [hv])
        rw [List.flatMap_cons, List.length_append, List.length_append]
        omega

theorem readGroups_len (types : List FieldType) : ∀ (bs : List Byte) (acc res : List FieldValue) (s s' : Stream),
    readGroups types bs acc s = (.ok res, s') → ∃ vs c, res = acc ++ vs ∧ s = ofBytes c ++ s' ∧
      ((∀ v ∈ vs, Small v) → (vs.flatMap fun v => (writeValue v).out).length ≤ c.length)
  | [], acc, res, s, s', h => by
    simp only [readGroups, Rd.pure, Prod.mk.injEq, Res.ok.injEq] at h
    obtain ⟨rfl, rfl⟩ := h
    exact ⟨[], [], by simp, rfl, by simp⟩
  | b :: bs, acc, res, s, s', h => by
    obtain ⟨a1, s1, h1, h2⟩ := Rd.bind_ok_inv h
    obtain ⟨vs1, c1, rfl, rfl, l1⟩ := readGroup_len types 8 b acc _ _ _ h1
    obtain ⟨vs2, c2, rfl, rfl, l2⟩ := readGroups_len types bs _ _ _ _ h2
    refine ⟨vs1 ++ vs2, c1 ++ c2, by simp, by simp, fun hs => ?_⟩
    have := l1 fun v hv => hs v (by simp [hv])
    have := l2 fun v hv => hs v (by simp [hv])
    rw [List.flatMap_append, List.length_append, List.length_append]
    omega

theorem nextRow_len {src src' : DcSource} {r : Row} (h : src.nextRow = (.ok (some r), src')) (hs : ∀ v ∈ r.values, Small v) :
    src'.stream.length + (8 + bitmapLen src.header.types.length + (r.values.flatMap fun v => (writeValue v).out).length) ≤ src.stream.length := by
  unfold DcSource.nextRow at h
  rcases hw : readU 8 src.stream with ⟨_ | _ | _ | _, s1⟩
  case ok ts =>
    simp only [hw] at h
    rcases hb : readRowBody src.header.types s1 with ⟨_ | _ | _ | _, s2⟩
    case ok vs =>
      simp only [hb, Prod.mk.injEq, Res.ok.injEq, Option.some.injEq] at h
      obtain ⟨rfl, rfl⟩ := h
      obtain ⟨h1, _⟩ := readU_inv hw
      obtain ⟨bm, s3, h3, h4⟩ := Rd.bind_ok_inv hb
      obtain ⟨rfl, h5⟩ := readN_inv _ _ _ _ h3
      obtain ⟨vs', c, h6, rfl, h7⟩ := readGroups_len _ _ _ _ _ _ h4
      rw [List.nil_append] at h6
      subst h6
      have := h7 hs
      rw [h1]
      simp only [List.length_append, ofBytes_length, beBytes_length, h5]
      unfold bitmapLen
      omega
    all_goals simp [hb] at h
  all_goals simp [hw] at h

theorem delivers_len {src fin : DcSource} {rows : List Row} (h : Delivers src rows fin) (hs : ∀ r ∈ rows, ∀ v ∈ r.values, Small v) :
    fin.stream.length + (rows.map fun r => 8 + bitmapLen src.header.types.length + (r.values.flatMap fun v => (writeValue v).out).length).sum
      ≤ src.stream.length := by
  induction h with
  | nil => simp
  | @cons src src' fin r rs h1 h2 ih =>
    have hh : src'.header = src.header := by rw [← nextRow_header src, h1]
    have i := ih fun r hr => hs r (by simp [hr])
    have j := nextRow_len h1 (hs r (by simp))
    rw [hh] at i
    rw [List.map_cons, List.sum_cons]
    omega

theorem dcWriteRows_len {types : List FieldType} {k : Nat} (hk : k < 2 ^ 48) : ∀ {rows : List Row}, (∀ r ∈ rows, AllFit types r.values) →
    (dcWriteRows k rows).out.length = (rows.map fun r => 8 + k + (r.values.flatMap fun v => (writeValue v).out).length).sum
  | [], _ => rfl
  | r :: rows, hf => by
    have ih := dcWriteRows_len hk (rows := rows) fun r hr => hf r (by simp [hr])
    rw [dcWriteRows]
    simp only [Wr.bind, dcWriteRow_eq hk (hf r (by simp)), List.length_append, ih, beBytes_length, bitset_length, List.map_cons, List.sum_cons]
    omega

/-- With `8 m + 1` columns the sink writes a bitmap that is too short: no file with a row in it reads back as written. -/
theorem no_roundtrip (ov ov' : Overflow) {h : Header} (hl : h.names.length = h.types.length) (hn : 2 ≤ h.types.length) (h8 : h.types.length % 8 = 1)
    (hn2 : h.types.length < 2 ^ 32) (ht : ∀ t ∈ h.types, t ≠ .boolean ∧ t ≠ .byteBuf) (hnm : ∀ n ∈ h.names, utf8Len n < 2 ^ 32)
    {rows : List Row} (hne : rows ≠ []) (hf : ∀ r ∈ rows, RowFits h.types r) (hs : ∀ r ∈ rows, ∀ v ∈ r.values, Small v) :
    (dcWriteFile ov h rows).res = .ok () → ∀ src fin, dcOpen ov' (ofBytes (dcWriteFile ov h rows).out) = .ok src → ¬ Delivers src rows fin := by
  intro hok src fin ho hd
  obtain ⟨c, hc, hh⟩ := dcProcessHeader_ok ov hl hn hn2 ht hnm
  have hfit : ∀ r ∈ rows, AllFit h.types r.values := fun r hr => allFit_of_row (hf r hr).1 (hf r hr).2
  have hout : (dcWriteFile ov h rows).out = c ++ (dcWriteRows (bitmapLen (h.types.length - 1)) rows).out := by
    unfold dcWriteFile
    rw [hc]
    rfl
  have hopen := (dcOpen_iff (ov := ov') (s := ofBytes (dcWriteFile ov h rows).out)
    (src := ⟨ofBytes (dcWriteRows (bitmapLen (h.types.length - 1)) rows).out, ⟨h.names.mapIdx columnName, h.types⟩⟩)).2 ⟨c, by rw [hout]; simp, hh⟩
  rw [ho, Res.ok.injEq] at hopen
  subst hopen
  have h1 := delivers_len hd hs
  have h2 := dcWriteRows_len (types := h.types) (k := bitmapLen (h.types.length - 1)) (by unfold bitmapLen; omega) hfit
  simp only [ofBytes_length, h2] at h1
  have hbm : bitmapLen h.types.length = bitmapLen (h.types.length - 1) + 1 := by unfold bitmapLen; omega
  rw [hbm] at h1
  obtain ⟨r, rs, rfl⟩ := List.exists_cons_of_ne_nil hne
  have h3 : ∀ (l : List Row), (l.map fun r => 8 + bitmapLen (h.types.length - 1) + (r.values.flatMap fun v => (writeValue v).out).length).sum ≤
      (l.map fun r => 8 + (bitmapLen (h.types.length - 1) + 1) + (r.values.flatMap fun v => (writeValue v).out).length).sum := by
    intro l
    induction l with
    | nil => simp
    | cons x l ih => simp only [List.map_cons, List.sum_cons]; omega
  have := h3 rs
  simp only [List.map_cons, List.sum_cons] at h1
  omega

/-- With one column nothing can be written at all: the process ends abnormally at the latest when the first row is written. -/
theorem one_column (ov : Overflow) {h : Header} (hl : h.names.length = h.types.length) (hn : h.types.length = 1)
    (ht : ∀ t ∈ h.types, t ≠ .boolean ∧ t ≠ .byteBuf) {rows : List Row} (hne : rows ≠ []) : (dcWriteFile ov h rows).res = .panic := by
  have hw : (writeHeader h).res = .ok () := by
    unfold writeHeader
    rw [if_neg (by simpa using hl), writeDescriptors_ok hl ht]
    rfl
  obtain ⟨r, rs, rfl⟩ := List.exists_cons_of_ne_nil hne
  have hm : lenMinusOne ov h.types.length = .ok 0 := by rw [hn]; rfl
  cases ov with
  | panics =>
    have : (dcProcessHeader .panics h).res = .panic := by
      simp only [dcProcessHeader, Wr.bind, hw, hm, Res.bind_ok]
      rfl
    simp only [dcWriteFile, Wr.bind, this]
  | wraps =>
    have : (dcProcessHeader .wraps h).res = .ok (1 + (2 ^ 64 - 1) / 8) := by
      simp only [dcProcessHeader, Wr.bind, hw, hm, Res.bind_ok]
      rfl
    have hal : allocBytes (1 + (2 ^ 64 - 1) / 8) = .panic := by decide +kernel
    have hr : (dcWriteRow (1 + (2 ^ 64 - 1) / 8) r).res = .panic := by
      simp only [dcWriteRow, Wr.bind, Wr.put]
      rw [hal]
    have hrs : (dcWriteRows (1 + (2 ^ 64 - 1) / 8) (r :: rs)).res = .panic := by
      rw [dcWriteRows]
      simp only [Wr.bind]
      rw [hr]
    simp only [dcWriteFile, Wr.bind, this]
    exact hrs

end Chopper
