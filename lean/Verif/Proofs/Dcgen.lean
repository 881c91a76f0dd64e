import Verif.Model.Dcgen
import Verif.Proofs.Writer
import Verif.Proofs.Dc3
import Verif.Proofs.Cli4

/-! # dcgen: lemmas -/
namespace Chopper
open Chopper.Spec

/-- The device takes at least 20 bytes at a time. -/
def Steady (d : Device) : Prop := ∀ n, WriteStep.take n ∈ d.sched → 20 ≤ n + 1

/-- Started on a steady device the part appends exactly these bytes, or panics after a part of them. -/
def AppendsSteady (m : Dg) (bs : List Byte) : Prop := ∀ d, Steady d →
  (∃ d', m d = (d', .ok ()) ∧ d'.taken = d.taken ++ bs ∧ ∀ x ∈ d'.sched, x ∈ d.sched) ∨
  (∃ d' p, m d = (d', .panic) ∧ d'.taken = d.taken ++ p ∧ p <+: bs ∧ ∃ k, WriteStep.fail k ∈ d.sched)

theorem AppendsSteady.then {a b : Dg} {x y : List Byte} (ha : AppendsSteady a x) (hb : AppendsSteady b y) : AppendsSteady (a.then b) (x ++ y) := by
  intro d hd
  unfold Dg.then
  rcases ha d hd with ⟨d1, h1, h2, h3⟩ | ⟨d1, p, h1, h2, h3, h4⟩
  · rw [h1]
    rcases hb d1 (fun n hn => hd n (h3 _ hn)) with ⟨d2, g1, g2, g3⟩ | ⟨d2, p, g1, g2, g3, k, hk⟩
    · exact .inl ⟨d2, g1, by rw [g2, h2, List.append_assoc], fun s hs => h3 _ (g3 _ hs)⟩
    · refine .inr ⟨d2, x ++ p, g1, by rw [g2, h2, List.append_assoc], ?_, k, h3 _ hk⟩
      obtain ⟨q, hq⟩ := g3
      exact ⟨q, by rw [← hq, List.append_assoc]⟩
  · rw [h1]
    exact .inr ⟨d1, p, rfl, h2, h3.trans (List.prefix_append _ _), h4⟩

theorem steady_skip : AppendsSteady Dg.skip [] := fun d _ => .inl ⟨d, rfl, by simp, fun _ h => h⟩

theorem steady_all (bs : List Byte) : AppendsSteady (dgAll bs) bs := by
  intro d _
  obtain ⟨h1, h2, h3, h4⟩ := devWrite_spec d.sched bs
  unfold dgAll Device.writeAll
  simp only
  cases he : (devWrite d.sched bs).2.2 with
  | none => exact .inl ⟨_, rfl, by rw [h2 he], h4⟩
  | some k =>
    refine .inr ⟨_, _, rfl, rfl, ⟨_, h1⟩, k, h3 k he⟩

theorem steady_once {bs : List Byte} (h : bs.length ≤ 20) : AppendsSteady (dgOnce bs) bs := by
  intro d hd
  unfold dgOnce Device.writeOnce
  cases hs : d.sched with
  | nil => exact .inl ⟨_, rfl, rfl, fun _ hx => by simpa [hs] using hx⟩
  | cons s ss =>
    cases s with
    | take n =>
      have := hd n (by rw [hs]; simp)
      exact .inl ⟨_, rfl, by simp only; rw [List.take_of_length_le (by omega)], fun x hx => List.mem_cons_of_mem _ hx⟩
    | fail k => exact .inr ⟨_, [], rfl, by simp, List.nil_prefix, k, by simp⟩

/-- Started on any device the part leaves out some of the bytes (or none), and panics only if a write failed. -/
def AppendsLoose (m : Dg) (bs : List Byte) : Prop := ∀ d, ∃ d' p, d'.taken = d.taken ++ p ∧ List.Sublist p bs ∧ (∀ x ∈ d'.sched, x ∈ d.sched) ∧
  (m d = (d', .ok ()) ∨ m d = (d', .panic) ∧ ∃ k, WriteStep.fail k ∈ d.sched)

theorem AppendsLoose.then {a b : Dg} {x y : List Byte} (ha : AppendsLoose a x) (hb : AppendsLoose b y) : AppendsLoose (a.then b) (x ++ y) := by
  intro d
  obtain ⟨d1, p, h1, h2, h3, h4⟩ := ha d
  unfold Dg.then
  rcases h4 with h4 | ⟨h4, h5⟩
  · obtain ⟨d2, q, g1, g2, g3, g4⟩ := hb d1
    refine ⟨d2, p ++ q, by rw [g1, h1, List.append_assoc], h2.append g2, fun s hs => h3 _ (g3 _ hs), ?_⟩
    rw [h4]
    rcases g4 with g4 | ⟨g4, k, hk⟩
    · exact .inl g4
    · exact .inr ⟨g4, k, h3 _ hk⟩
  · refine ⟨d1, p, h1, h2.trans (List.sublist_append_left _ _), h3, ?_⟩
    rw [h4]
    exact .inr ⟨rfl, h5⟩

theorem loose_skip : AppendsLoose Dg.skip [] := fun d => ⟨d, [], by simp, List.Sublist.refl _, fun _ h => h, .inl rfl⟩

theorem loose_all (bs : List Byte) : AppendsLoose (dgAll bs) bs := by
  intro d
  obtain ⟨h1, h2, h3, h4⟩ := devWrite_spec d.sched bs
  unfold dgAll Device.writeAll
  simp only
  refine ⟨{ d with taken := d.taken ++ (devWrite d.sched bs).1, sched := (devWrite d.sched bs).2.1 }, (devWrite d.sched bs).1, rfl, ?_, h4, ?_⟩
  · have hp : (devWrite d.sched bs).1 <+: bs := ⟨_, h1⟩
    exact hp.sublist
  · cases he : (devWrite d.sched bs).2.2 with
    | none => exact .inl rfl
    | some k => exact .inr ⟨rfl, k, h3 k he⟩

theorem loose_once (bs : List Byte) : AppendsLoose (dgOnce bs) bs := by
  intro d
  unfold dgOnce Device.writeOnce
  cases hs : d.sched with
  | nil => exact ⟨_, bs, rfl, List.Sublist.refl _, fun x hx => by simpa [hs] using hx, .inl rfl⟩
  | cons s ss =>
    cases s with
    | take n => exact ⟨_, bs.take (n + 1), rfl, List.take_sublist _ _, fun x hx => List.mem_cons_of_mem _ hx, .inl rfl⟩
    | fail k => exact ⟨{ d with sched := ss }, [], by simp, List.nil_sublist _, fun x hx => List.mem_cons_of_mem _ hx, .inr ⟨rfl, k, by simp⟩⟩

/-- Both. -/
def Appends (m : Dg) (bs : List Byte) : Prop := AppendsSteady m bs ∧ AppendsLoose m bs

theorem Appends.then {a b : Dg} {x y : List Byte} (ha : Appends a x) (hb : Appends b y) : Appends (a.then b) (x ++ y) := ⟨ha.1.then hb.1, ha.2.then hb.2⟩
theorem appends_skip : Appends Dg.skip [] := ⟨steady_skip, loose_skip⟩
theorem appends_all (bs : List Byte) : Appends (dgAll bs) bs := ⟨steady_all bs, loose_all bs⟩
theorem appends_once {bs : List Byte} (h : bs.length ≤ 20) : Appends (dgOnce bs) bs := ⟨steady_once h, loose_once bs⟩

theorem appends_sized {s : Str} (h : (utf8Encode s).length ≤ 20) : Appends (dgSizedString s) (sized s) := by
  unfold dgSizedString sized
  rw [← beBytes_eq]
  exact (appends_all _).then (appends_once h)

/-- The columns of the generated file. -/
def genColumns : List Column :=
  [⟨"a_double".toList, .double, "D", -1⟩, ⟨"an_int".toList, .int, "I", -1⟩, ⟨"an_int_timestamp".toList, .int, "I", 0⟩, ⟨"a_string".toList, .string, "Ljava.lang.String;", -1⟩]

/-- The header part. -/
def genHeaderBytes : List Byte :=
  [0, 0, 0, 0, 0x44, 0x43, 0x41, 0x54] ++ [0, 2] ++ bigEndian 4 7 ++ utf8Encode "example".toList ++ bigEndian 4 4 ++ (genColumns.map Column.bytes).flatten

def genHeader : Header := ⟨["a_double".toList, "an_int".toList, "an_int_timestamp".toList, "a_string".toList], [.double, .int, .int, .string]⟩

theorem gen_isHeader : IsDcHeader genHeaderBytes genHeader := by
  refine ⟨utf8Encode "example".toList, genColumns, by decide +kernel, by decide, by decide, ?_, ?_, rfl, by decide +kernel⟩
  · intro c hc
    simp only [genColumns, List.mem_cons, List.not_mem_nil, or_false] at hc
    rcases hc with rfl | rfl | rfl | rfl
    · exact ⟨.double, by decide +kernel, by decide, by decide⟩
    · exact ⟨.int, by decide +kernel, by decide, by decide⟩
    · exact ⟨.int, by decide +kernel, by decide, by decide⟩
    · exact ⟨.string, by decide +kernel, by decide, by decide⟩
  · have : (utf8Encode "example".toList).length = 7 := by decide +kernel
    rw [this]
    rfl

theorem appends_hint (h : GenHint) : Appends (dgHint h) (bigEndian 4 (BitVec.ofInt 32 (match h with | .timestamp => 0 | .none => -1)).toNat) := by
  cases h
  · exact beBytes_eq 4 0 ▸ appends_all _
  · exact beBytes_eq 4 (2 ^ 32 - 1) ▸ appends_all _

theorem appends_header : Appends (dgMagic.then (dgVersion.then (dgUserHeader.then dgDescriptors))) genHeaderBytes := by
  have d1 : ∀ name, (utf8Encode name.toList).length ≤ 20 → Appends (dgDescriptor name .double .none) (Column.bytes ⟨name.toList, .double, "D", -1⟩) := by
    intro name h
    unfold Column.bytes
    rw [List.append_assoc]
    exact (appends_sized h).then ((appends_sized (by decide +kernel)).then (appends_hint .none))
  have d2 : ∀ name, (utf8Encode name.toList).length ≤ 20 → Appends (dgDescriptor name .int .none) (Column.bytes ⟨name.toList, .int, "I", -1⟩) := by
    intro name h
    unfold Column.bytes
    rw [List.append_assoc]
    exact (appends_sized h).then ((appends_sized (by decide +kernel)).then (appends_hint .none))
  have d3 : ∀ name, (utf8Encode name.toList).length ≤ 20 → Appends (dgDescriptor name .int .timestamp) (Column.bytes ⟨name.toList, .int, "I", 0⟩) := by
    intro name h
    unfold Column.bytes
    rw [List.append_assoc]
    exact (appends_sized h).then ((appends_sized (by decide +kernel)).then (appends_hint .timestamp))
  have d4 : ∀ name, (utf8Encode name.toList).length ≤ 20 → Appends (dgDescriptor name .string .none) (Column.bytes ⟨name.toList, .string, "Ljava.lang.String;", -1⟩) := by
    intro name h
    unfold Column.bytes
    rw [List.append_assoc]
    exact (appends_sized h).then ((appends_sized (by decide +kernel)).then (appends_hint .none))
  have e7 : (utf8Encode "example".toList).length = 7 := by decide +kernel
  have u : Appends dgUserHeader (bigEndian 4 7 ++ utf8Encode "example".toList) := by
    unfold dgUserHeader
    rw [e7, ← beBytes_eq]
    exact (appends_all _).then (appends_once (by omega))
  have dd : Appends dgDescriptors (bigEndian 4 4 ++ (genColumns.map Column.bytes).flatten) := by
    unfold dgDescriptors
    rw [← beBytes_eq]
    refine (appends_all _).then ?_
    simp only [genColumns, List.map_cons, List.map_nil, List.flatten_cons, List.flatten_nil, List.append_nil]
    exact (d1 _ (by decide +kernel)).then ((d2 _ (by decide +kernel)).then ((d3 _ (by decide +kernel)).then (d4 _ (by decide +kernel))))
  have hm : Appends dgMagic [0, 0, 0, 0, 0x44, 0x43, 0x41, 0x54] := magic_bytes ▸ appends_all (beBytes 8 dcMagic)
  have hv : Appends dgVersion [0, 2] := version_bytes ▸ appends_all (beBytes 2 dcVersion)
  have := hm.then (hv.then (u.then dd))
  unfold genHeaderBytes
  simp only [List.append_assoc] at this ⊢
  exact this

/-- Row `i` of the generated file. -/
def genRow (toF64 : BitVec 64 → BitVec 64) (i : Nat) : Row :=
  ⟨BitVec.ofNat 64 i, [.double (toF64 (BitVec.ofNat 64 i)), .int (BitVec.ofNat 32 i), .int (BitVec.ofNat 32 i), .string (natToStr i)]⟩

/-- Its bytes. -/
def genRowBytes (toF64 : BitVec 64 → BitVec 64) (i : Nat) : List Byte :=
  beBytes 8 (genRow toF64 i).timestamp.toNat ++ (bitset (bitmapLen genHeader.types.length) (genRow toF64 i).values ++ (genRow toF64 i).values.flatMap fun v => (writeValue v).out)

theorem digits_encode {t : Str} (h : Digits t) : (utf8Encode t).length = t.length := by
  have : ∀ t : Str, (∀ c ∈ t, c.toNat < 128) → (utf8Encode t).length = t.length := by
    intro t
    induction t with
    | nil => intro _; rfl
    | cons c t ih =>
      intro h
      have e : encodeChar c = [BitVec.ofNat 8 c.toNat] := by
        unfold encodeChar
        simp only
        rw [if_pos (h c (by simp))]
      have := ih fun x hx => h x (by simp [hx])
      unfold utf8Encode at this ⊢
      rw [List.flatMap_cons, e, List.length_append, this]
      simp
      omega
  exact this t fun c hc => by have := (h.2 c hc).2; omega

theorem natToStr_short {i : Nat} (h : i < 2 ^ 64) : (utf8Encode (natToStr i)).length ≤ 20 := by
  rw [digits_encode (natToStr_spec i).1]
  exact natToStr_len 19 i (by omega)

theorem gen_fits (toF64 : BitVec 64 → BitVec 64) {i : Nat} (h : i < 2 ^ 64) : AllFit genHeader.types (genRow toF64 i).values := by
  refine .cons trivial (.cons trivial (.cons trivial (.cons ?_ .nil)))
  have := natToStr_short h
  show (utf8Encode (natToStr i)).length < 2 ^ 32
  omega

theorem appends_row (toF64 : BitVec 64 → BitVec 64) {i : Nat} (h : i < 2 ^ 64) : Appends (dgRow toF64 (BitVec.ofNat 64 i)) (genRowBytes toF64 i) := by
  have hs := natToStr_short h
  have hi : (BitVec.ofNat 64 i).toNat = i := by rw [BitVec.toNat_ofNat, Nat.mod_eq_of_lt h]
  have hw : (BitVec.ofNat 64 i).setWidth 32 = BitVec.ofNat 32 i := by
    apply BitVec.eq_of_toNat_eq
    simp only [BitVec.toNat_setWidth, BitVec.toNat_ofNat]
    omega
  have hstr : Appends (dgStringValue (natToStr i)) (stringValue (natToStr i)) := by
    unfold dgStringValue stringValue utf8Len
    rw [if_pos (by omega), if_pos (by omega)]
    exact (appends_all _).then (appends_once hs)
  have hb : bitset (bitmapLen genHeader.types.length) (genRow toF64 i).values = [0] := rfl
  have hbit : Appends (dgBitfield 4) [0] := appends_once (by decide)
  have := (appends_all (beBytes 8 (BitVec.ofNat 64 i).toNat)).then (hbit.then ((appends_all (beBytes 8 (toF64 (BitVec.ofNat 64 i)).toNat)).then
    ((appends_all (beBytes 4 (BitVec.ofNat 32 i).toNat)).then ((appends_all (beBytes 4 (BitVec.ofNat 32 i).toNat)).then hstr))))
  unfold dgRow genRowBytes
  rw [hw, hb]
  simp only [genRow, List.flatMap_cons, List.flatMap_nil, writeValue, Wr.put, List.append_nil]
  rw [hi] at *
  exact this

theorem appends_rows (toF64 : BitVec 64 → BitVec 64) : ∀ (n i : Nat), i + n ≤ 2 ^ 64 → Appends (dgRows toF64 n i) ((List.range' i n).flatMap (genRowBytes toF64))
  | 0, i, _ => appends_skip
  | n + 1, i, h => by
    rw [List.range'_succ, List.flatMap_cons]
    exact (appends_row toF64 (by omega)).then (appends_rows toF64 n (i + 1) (by omega))

/-- All bytes of the generated file. -/
def genBytes (toF64 : BitVec 64 → BitVec 64) (n : Nat) : List Byte := genHeaderBytes ++ (List.range n).flatMap (genRowBytes toF64)

theorem then_assoc (a b c : Dg) : (a.then b).then c = a.then (b.then c) := by
  funext d
  unfold Dg.then
  rcases h : a d with ⟨d', _ | _ | _ | _⟩ <;> rfl

theorem appends_file (toF64 : BitVec 64 → BitVec 64) (n : Nat) (h : n ≤ 2 ^ 64) : Appends (dgFile toF64 n) (genBytes toF64 n) := by
  have := appends_header.then (appends_rows toF64 n 0 (by omega))
  simp only [then_assoc] at this
  rw [← List.range_eq_range'] at this
  exact this

theorem gen_delivers (toF64 : BitVec 64 → BitVec 64) : ∀ (l : List Nat), (∀ i ∈ l, i < 2 ^ 64) →
    Delivers ⟨ofBytes (l.flatMap (genRowBytes toF64)), genHeader⟩ (l.map (genRow toF64)) ⟨[], genHeader⟩
  | [], _ => .nil _
  | i :: l, h => by
    rw [List.flatMap_cons, ofBytes_append]
    exact .cons (nextRow_written (gen_fits toF64 (h i (by simp))) (by decide) _) (gen_delivers toF64 l fun j hj => h j (by simp [hj]))

theorem gen_reads (ov : Overflow) (toF64 : BitVec 64 → BitVec 64) (n : Nat) (h : n ≤ 2 ^ 64) :
    ∃ src fin, dcOpen ov (ofBytes (genBytes toF64 n)) = .ok src ∧ src.header = genHeader ∧ Delivers src ((List.range n).map (genRow toF64)) fin ∧ fin.nextRow.1 = .ok none := by
  refine ⟨⟨ofBytes ((List.range n).flatMap (genRowBytes toF64)), genHeader⟩, ⟨[], genHeader⟩, dcOpen_iff.2 ⟨genHeaderBytes, by simp [genBytes], gen_isHeader⟩, rfl,
    gen_delivers toF64 _ (fun i hi => by have := List.mem_range.1 hi; omega), ?_⟩
  rfl

end Chopper
