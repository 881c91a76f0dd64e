import Verif.Proofs.Dc
import Verif.Proofs.Text

/-!
# Proofs about the DC format: headers
-/
namespace Chopper
open Spec

theorem uses_readU {k n : Nat} (h : n < 256 ^ k) : Uses (readU k) n (beBytes k n) := by
  have u := (uses_readN (beBytes k n)).bind (f := fun bs => Rd.pure (beVal bs)) (uses_pure (beVal (beBytes k n)))
  rw [beBytes_length, List.append_nil, beVal_beBytes, Nat.mod_eq_of_lt h] at u
  exact u

theorem readU_inv {k n : Nat} {s s' : Stream} (h : readU k s = (.ok n, s')) : s = ofBytes (beBytes k n) ++ s' ∧ n < 256 ^ k := by
  obtain ⟨bs, s1, h1, h2⟩ := Rd.bind_ok_inv h
  obtain ⟨h3, h4⟩ := readN_inv _ _ _ _ h1
  simp only [Rd.pure, Prod.mk.injEq, Res.ok.injEq] at h2
  obtain ⟨rfl, rfl⟩ := h2
  rw [← h4, beBytes_beVal]
  exact ⟨h3, beVal_lt bs⟩

theorem uses_utf8 (s : Str) : Uses (rdUtf8 (utf8Encode s)) s [] := by
  unfold rdUtf8
  rw [utf8Decode_encode]
  exact uses_pure s

theorem rdUtf8_inv {bs : List Byte} {t t' : Stream} {s : Str} (h : rdUtf8 bs t = (.ok s, t')) : bs = utf8Encode s ∧ t' = t := by
  unfold rdUtf8 at h
  cases hs : utf8Decode bs with
  | some s' =>
    rw [hs] at h
    simp only [Rd.pure, Prod.mk.injEq, Res.ok.injEq] at h
    obtain ⟨rfl, rfl⟩ := h
    exact ⟨utf8Decode_iff.1 hs, rfl⟩
  | none => rw [hs] at h; simp [Rd.panic] at h

theorem uses_sizedString {s : Str} (h : utf8Len s < 2 ^ 32) : Uses getSizedString s (sizedString s) := by
  have u1 : Uses (readU 4) (utf8Len s) (beBytes 4 (utf8Len s)) := uses_readU h
  have u2 : Uses (readN (utf8Len s)) (utf8Encode s) (utf8Encode s) := uses_readN _
  have u := u1.bind (f := fun n => Rd.bind (readN n) rdUtf8) (u2.bind (uses_utf8 s))
  rw [List.append_nil] at u
  exact u

theorem sizedString_inv {s s' : Stream} {a : Str} (h : getSizedString s = (.ok a, s')) :
    s = ofBytes (sizedString a) ++ s' ∧ utf8Len a < 2 ^ 32 := by
  obtain ⟨n, s1, h1, h2⟩ := Rd.bind_ok_inv h
  obtain ⟨bs, s2, h3, h4⟩ := Rd.bind_ok_inv h2
  obtain ⟨rfl, hn⟩ := readU_inv h1
  obtain ⟨rfl, rfl⟩ := readN_inv _ _ _ _ h3
  obtain ⟨rfl, rfl⟩ := rdUtf8_inv h4
  exact ⟨by simp [sizedString, utf8Len], hn⟩

theorem typeName_iff {t : FieldType} {n : String} : TypeName t n ↔ typeString t = n.toList := by
  constructor
  · intro h; cases h <;> rfl
  · intro h
    have : n = String.ofList (typeString t) := by rw [h]; simp
    subst this
    cases t <;> constructor

theorem typeOfString_iff {t : FieldType} {s : Str} : typeOfString s = some t ↔ typeString t = s := by
  constructor
  · intro h
    unfold typeOfString at h
    repeat' split at h
    all_goals
      first
      | (simp only [Option.some.injEq] at h; subst h; next hs => exact hs.symm)
      | simp at h
  · rintro rfl
    cases t <;> decide +kernel

theorem hint_range {hint : Nat} (h : hint < 2 ^ 32) : (hint = 2 ^ 32 - 1 ∨ hint ≤ 6) ↔
    ∃ z : Int, -1 ≤ z ∧ z ≤ 6 ∧ (BitVec.ofInt 32 z).toNat = hint := by
  constructor
  · rintro (h1 | h1)
    · exact ⟨-1, by decide, by decide, by rw [h1]; decide⟩
    · refine ⟨hint, by omega, by omega, ?_⟩
      rw [BitVec.ofInt_natCast, BitVec.toNat_ofNat, Nat.mod_eq_of_lt h]
  · rintro ⟨z, h1, h2, h3⟩
    by_cases hz : z = -1
    · subst hz
      left; rw [← h3]; decide
    · right
      obtain ⟨n, rfl⟩ : ∃ n : Nat, z = n := ⟨z.toNat, by omega⟩
      rw [BitVec.ofInt_natCast, BitVec.toNat_ofNat] at h3
      omega

theorem uses_fieldDescriptor {c : Column} (h : c.Valid) : Uses fieldDescriptor (c.name, c.typeName.toList) c.bytes := by
  obtain ⟨h1, h2, h3, h4⟩ := h
  have hb : (BitVec.ofInt 32 c.hint).toNat < 2 ^ 32 := (BitVec.ofInt 32 c.hint).isLt
  have hty : utf8Len c.typeName.toList < 2 ^ 32 := by
    rw [← typeName_iff.1 h1]
    cases c.type <;> decide
  have u3 : Uses (readU 4) _ (beBytes 4 (BitVec.ofInt 32 c.hint).toNat) := uses_readU hb
  have hcond := (hint_range hb).2 ⟨c.hint, h3, h4, rfl⟩
  have u4 : Uses (if (BitVec.ofInt 32 c.hint).toNat = 2 ^ 32 - 1 ∨ (BitVec.ofInt 32 c.hint).toNat ≤ 6 then
      Rd.pure (c.name, c.typeName.toList) else Rd.err (.custom "unexpected display hint value")) (c.name, c.typeName.toList) [] := by
    rw [if_pos hcond]
    exact uses_pure _
  have u := (uses_sizedString h2).bind (f := fun name => Rd.bind getSizedString fun ty =>
      Rd.bind (Chopper.readU 4) fun hint =>
        if hint = 2 ^ 32 - 1 ∨ hint ≤ 6 then Rd.pure (name, ty)
        else Rd.err (.custom "unexpected display hint value")) ((uses_sizedString hty).bind
          (f := fun ty => Rd.bind (Chopper.readU 4) fun hint =>
        if hint = 2 ^ 32 - 1 ∨ hint ≤ 6 then Rd.pure (c.name, ty)
        else Rd.err (.custom "unexpected display hint value")) (u3.bind u4))
  have e : c.bytes = Chopper.sizedString c.name ++ (Chopper.sizedString c.typeName.toList ++ (beBytes 4 (BitVec.ofInt 32 c.hint).toNat ++ [])) := by
    simp [Column.bytes, sized, Chopper.sizedString, utf8Len, beBytes_eq]
  rw [e]
  exact u

theorem fieldDescriptor_inv {s s' : Stream} {name ty : Str} (h : fieldDescriptor s = (.ok (name, ty), s')) :
    ∃ hint : Int, -1 ≤ hint ∧ hint ≤ 6 ∧ utf8Len name < 2 ^ 32 ∧
      s = ofBytes (sizedString name ++ sizedString ty ++ beBytes 4 (BitVec.ofInt 32 hint).toNat) ++ s' := by
  obtain ⟨n, s1, h1, h2⟩ := Rd.bind_ok_inv h
  obtain ⟨t, s2, h3, h4⟩ := Rd.bind_ok_inv h2
  obtain ⟨hint, s3, h5, h6⟩ := Rd.bind_ok_inv h4
  obtain ⟨rfl, l1⟩ := sizedString_inv h1
  obtain ⟨rfl, _⟩ := sizedString_inv h3
  obtain ⟨rfl, l3⟩ := readU_inv h5
  by_cases hc : hint = 2 ^ 32 - 1 ∨ hint ≤ 6
  · rw [if_pos hc] at h6
    simp only [Rd.pure, Prod.mk.injEq, Res.ok.injEq] at h6
    obtain ⟨⟨rfl, rfl⟩, rfl⟩ := h6
    obtain ⟨z, z1, z2, z3⟩ := (hint_range l3).1 hc
    exact ⟨z, z1, z2, l1, by rw [z3]; simp⟩
  · rw [if_neg hc] at h6
    simp [Rd.err] at h6

/-- The columns as the reader names them, starting with index `i`. -/
def namedFrom (i : Nat) : List Column → List (Str × FieldType)
  | [] => []
  | c :: cs => (columnName i c.name, c.type) :: namedFrom (i + 1) cs

theorem namedFrom_map (cs : List Column) (i : Nat) :
    (namedFrom i cs).map (·.1) = (cs.map (·.name)).mapIdx (fun j n => columnName (i + j) n) ∧ (namedFrom i cs).map (·.2) = cs.map (·.type) := by
  induction cs generalizing i with
  | nil => simp [namedFrom]
  | cons c cs ih =>
    have := ih (i + 1)
    simp only [namedFrom, List.map_cons, List.mapIdx_cons, this.1, this.2]
    constructor
    · congr 1
      congr 1
      funext j n
      congr 1
      omega
    · trivial

theorem columnName_eq (i : Nat) (n : Str) : (if n = [] then defaultName i else n) = columnName i n := by
  unfold columnName decimal
  rw [← natToStr_repr]
  rfl

theorem uses_readDescriptors : ∀ {cs : List Column} {i : Nat}, (∀ c ∈ cs, c.Valid) →
    Uses (readDescriptors cs.length i) (namedFrom i cs) (cs.map Column.bytes).flatten
  | [], i, _ => uses_pure _
  | c :: cs, i, h => by
    have hv := h c (by simp)
    have ih : Uses (Chopper.readDescriptors cs.length (i + 1)) (namedFrom (i + 1) cs) (cs.map Column.bytes).flatten :=
      uses_readDescriptors fun c hc => h c (by simp [hc])
    have hty : typeOfString c.typeName.toList = some c.type := typeOfString_iff.2 (typeName_iff.1 hv.1)
    rw [List.length_cons, Chopper.readDescriptors]
    have u := (uses_fieldDescriptor hv).bind (f := fun x =>
      let name := if x.1 = [] then defaultName i else x.1
      match typeOfString x.2 with
      | none => Rd.panic
      | some ft => Rd.bind (Chopper.readDescriptors cs.length (i + 1)) fun rest => Rd.pure ((name, ft) :: rest))
      (b := namedFrom i (c :: cs)) (d := (cs.map Column.bytes).flatten) (by
        simp only [hty]
        have := ih.bind (f := fun rest => Rd.pure ((if c.name = [] then defaultName i else c.name, c.type) :: rest)) (uses_pure _)
        rw [List.append_nil, columnName_eq] at this
        rw [columnName_eq]
        exact this)
    rw [List.map_cons, List.flatten_cons]
    exact u

theorem readDescriptors_inv : ∀ (n i : Nat) (s s' : Stream) (fs : List (Str × FieldType)), readDescriptors n i s = (.ok fs, s') →
    ∃ cs : List Column, cs.length = n ∧ (∀ c ∈ cs, c.Valid) ∧ s = ofBytes (cs.map Column.bytes).flatten ++ s' ∧ fs = namedFrom i cs
  | 0, i, s, s', fs, h => by
    simp only [readDescriptors, Rd.pure, Prod.mk.injEq, Res.ok.injEq] at h
    obtain ⟨rfl, rfl⟩ := h
    exact ⟨[], rfl, by simp, rfl, rfl⟩
  | n + 1, i, s, s', fs, h => by
    rw [readDescriptors] at h
    obtain ⟨⟨name, ty⟩, s1, h1, h2⟩ := Rd.bind_ok_inv h
    simp only at h2
    obtain ⟨hint, z1, z2, l1, rfl⟩ := fieldDescriptor_inv h1
    cases ht : typeOfString ty with
    | none => rw [ht] at h2; simp [Rd.panic] at h2
    | some ft =>
      rw [ht] at h2
      simp only at h2
      obtain ⟨rest, s2, h3, h4⟩ := Rd.bind_ok_inv h2
      obtain ⟨cs, hl, hv, rfl, rfl⟩ := readDescriptors_inv n (i + 1) _ _ _ h3
      simp only [Rd.pure, Prod.mk.injEq, Res.ok.injEq] at h4
      obtain ⟨rfl, rfl⟩ := h4
      have hs := typeOfString_iff.1 ht
      refine ⟨⟨name, ft, String.ofList ty, hint⟩ :: cs, by simp [hl], ?_, ?_, by rw [columnName_eq]; rfl⟩
      · intro c hc
        rcases List.mem_cons.1 hc with rfl | hc
        · exact ⟨typeName_iff.2 (by simpa using hs), l1, z1, z2⟩
        · exact hv c hc
      · simp [Column.bytes, sized, sizedString, utf8Len, beBytes_eq]

theorem magic_bytes : beBytes 8 dcMagic = [0, 0, 0, 0, 0x44, 0x43, 0x41, 0x54] := by decide +kernel
theorem version_bytes : beBytes 2 dcVersion = [0, 2] := by decide +kernel

theorem getBitsetBytes_pos {ov : Overflow} {n : Nat} (h : n ≠ 0) : getBitsetBytes ov n = .ok (1 + (n - 1) / 8) := by
  unfold getBitsetBytes; rw [if_neg h]

theorem bitset_zero (ov : Overflow) : (getBitsetBytes ov 0).bind allocBytes = .panic := by cases ov <;> decide +kernel

theorem rdConst_ok {α β : Type} (a : α) (f : α → Rd β) : Rd.bind (fun s => (.ok a, s)) f = f a := rfl

theorem uses_dcHeader (ov : Overflow) {c : List Byte} {h : Header} (hc : IsDcHeader c h) : Uses (dcHeader ov) h c := by
  obtain ⟨user, cols, l1, l2, l3, hv, rfl, ht, hn⟩ := hc
  have u1 : Uses (readU 8) dcMagic _ := uses_readU (by decide)
  have u2 : Uses (readU 2) dcVersion _ := uses_readU (by decide)
  have u3 : Uses (readU 4) user.length _ := uses_readU l1
  have u4 : Uses (readN user.length) user user := uses_readN _
  have u5 : Uses (readU 4) cols.length _ := uses_readU l3
  have u6 : Uses (Chopper.readDescriptors cols.length 0) _ _ := uses_readDescriptors (i := 0) hv
  have hne : cols.length ≠ 0 := fun h => l2 (List.eq_nil_of_length_eq_zero h)
  have hal : allocBytes (1 + (cols.length - 1) / 8) = .ok () := if_pos (by omega)
  have hh : h = ⟨(namedFrom 0 cols).map (·.1), (namedFrom 0 cols).map (·.2)⟩ := by
    rw [(namedFrom_map cols 0).1, (namedFrom_map cols 0).2]
    cases h
    simp only at ht hn
    simp [ht, hn]
  have u7 : Uses (Rd.bind (fun s => (getBitsetBytes ov cols.length, s)) fun bitset =>
      Rd.bind (rdAlloc bitset) fun _ => Rd.bind (Chopper.readDescriptors cols.length 0) fun fields =>
      Rd.pure (⟨fields.map (·.1), fields.map (·.2)⟩ : Header)) h (cols.map Column.bytes).flatten := by
    rw [getBitsetBytes_pos hne, rdConst_ok]
    have hra : rdAlloc (1 + (cols.length - 1) / 8) = fun s => (.ok (), s) := by funext s; simp only [rdAlloc, hal]
    rw [hra, rdConst_ok]
    have := u6.bind (f := fun fields => Rd.pure (⟨fields.map (·.1), fields.map (·.2)⟩ : Header)) (uses_pure _)
    rw [List.append_nil, ← hh] at this
    exact this
  have u := u1.bind (f := fun magic => if magic ≠ dcMagic then Rd.err (.custom "DCReader -- wrong magic number") else
    Rd.bind (Chopper.readU 2) fun version =>
    if version ≠ dcVersion then Rd.err (.custom "DCReader -- wrong version")
    else
      Rd.bind (Chopper.readU 4) fun userSize =>
      Rd.bind (Chopper.readN userSize) fun _ =>
      Rd.bind (Chopper.readU 4) fun fieldCount =>
      Rd.bind (fun s => (getBitsetBytes ov fieldCount, s)) fun bitset =>
      Rd.bind (rdAlloc bitset) fun _ =>
      Rd.bind (Chopper.readDescriptors fieldCount 0) fun fields =>
      Rd.pure ⟨fields.map (·.1), fields.map (·.2)⟩) (b := h)
      (d := [0, 2] ++ (bigEndian 4 user.length ++ (user ++ (bigEndian 4 cols.length ++ (cols.map Column.bytes).flatten)))) (by
    simp only [ne_eq, not_true, if_false]
    rw [← version_bytes]
    refine u2.bind ?_
    simp only [ne_eq, not_true, if_false]
    rw [← beBytes_eq]
    refine u3.bind (u4.bind ?_)
    rw [← beBytes_eq]
    exact u5.bind u7)
  rw [magic_bytes] at u
  simp only [List.append_assoc] at u ⊢
  exact u

theorem dcHeader_inv {ov : Overflow} {s s' : Stream} {h : Header} (hs : dcHeader ov s = (.ok h, s')) :
    ∃ c, s = ofBytes c ++ s' ∧ IsDcHeader c h := by
  obtain ⟨magic, s1, h1, hs⟩ := Rd.bind_ok_inv hs
  by_cases hm : magic = dcMagic
  case neg => rw [if_pos hm] at hs; simp [Rd.err] at hs
  rw [if_neg (by simpa using hm)] at hs
  obtain ⟨version, s2, h2, hs⟩ := Rd.bind_ok_inv hs
  by_cases hv : version = dcVersion
  case neg => rw [if_pos hv] at hs; simp [Rd.err] at hs
  rw [if_neg (by simpa using hv)] at hs
  obtain ⟨usize, s3, h3, hs⟩ := Rd.bind_ok_inv hs
  obtain ⟨user, s4, h4, hs⟩ := Rd.bind_ok_inv hs
  obtain ⟨n, s5, h5, hs⟩ := Rd.bind_ok_inv hs
  obtain ⟨k, s6, h6, hs⟩ := Rd.bind_ok_inv hs
  obtain ⟨_, s7, h7, hs⟩ := Rd.bind_ok_inv hs
  obtain ⟨fs, s8, h8, hs⟩ := Rd.bind_ok_inv hs
  simp only [rdAlloc, Prod.mk.injEq] at h6 h7
  obtain ⟨h6, rfl⟩ := h6
  obtain ⟨h7, rfl⟩ := h7
  have hn : n ≠ 0 := by
    rintro rfl
    have := bitset_zero ov
    rw [h6, Res.bind_ok, h7] at this
    simp at this
  obtain ⟨rfl, _⟩ := readU_inv h1
  obtain ⟨rfl, _⟩ := readU_inv h2
  obtain ⟨rfl, hu⟩ := readU_inv h3
  obtain ⟨rfl, rfl⟩ := readN_inv _ _ _ _ h4
  obtain ⟨rfl, hn2⟩ := readU_inv h5
  obtain ⟨cs, rfl, hval, rfl, rfl⟩ := readDescriptors_inv _ _ _ _ _ h8
  simp only [Rd.pure, Prod.mk.injEq, Res.ok.injEq] at hs
  obtain ⟨rfl, rfl⟩ := hs
  subst hm hv
  refine ⟨_, ?_, user, cs, hu, fun h => hn (by rw [h]; rfl), hn2, hval, rfl, ?_, ?_⟩
  · rw [magic_bytes, version_bytes, beBytes_eq, beBytes_eq]
    simp
  · exact (namedFrom_map cs 0).2
  · simp only [(namedFrom_map cs 0).1, Nat.zero_add]

theorem dcOpen_iff {ov : Overflow} {s : Stream} {src : DcSource} :
    dcOpen ov s = .ok src ↔ ∃ c, s = ofBytes c ++ src.stream ∧ IsDcHeader c src.header := by
  unfold dcOpen
  constructor
  · intro h
    rcases hd : dcHeader ov s with ⟨_ | _ | _ | _, s'⟩
    · rw [hd] at h
      simp only [Res.ok.injEq] at h
      subst h
      exact dcHeader_inv hd
    all_goals (rw [hd] at h; simp at h)
  · rintro ⟨c, rfl, hc⟩
    rw [(uses_dcHeader ov hc).here]

end Chopper
