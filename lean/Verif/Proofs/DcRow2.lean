import Verif.Proofs.DcRow

/-!
# Proofs about DC files: which headers crash the reader, which errors are reported
-/
namespace Chopper
open Spec

/-- Descriptions of columns up to one that crashes the reader, at most `n` columns. -/
def BadColumns (n : Nat) (c : List Byte) : Prop :=
  ∃ (cols : List Column) (bad : List Byte), cols.length < n ∧ (∀ x ∈ cols, x.Valid) ∧ CrashColumn bad ∧ c = (cols.map Column.bytes).flatten ++ bad

theorem uses_descriptor_iff {name ty : Str} {c : List Byte} : Uses fieldDescriptor (name, ty) c ↔
    ∃ hint : Int, -1 ≤ hint ∧ hint ≤ 6 ∧ (utf8Encode name).length < 2 ^ 32 ∧ (utf8Encode ty).length < 2 ^ 32 ∧
      c = sized name ++ sized ty ++ bigEndian 4 (BitVec.ofInt 32 hint).toNat := by
  have e : fieldDescriptor = Rd.bind getSizedString fun name => Rd.bind getSizedString fun ty => readHint (name, ty) := rfl
  rw [e, uses_bind_iff Good.sizedString fun _ => Good.sizedString.bind fun _ => good_hint (_, _)]
  constructor
  · rintro ⟨n, c1, c2, h1, h2, rfl⟩
    rw [uses_bind_iff Good.sizedString fun _ => good_hint (_, _)] at h2
    obtain ⟨m, c3, c4, h3, h4, rfl⟩ := h2
    rw [readHint, uses_bind_iff (Good.readU 4) (fun _ => by split; exact Good.pure _; exact Good.err _)] at h4
    obtain ⟨h, c5, c6, h5, h6, rfl⟩ := h4
    obtain ⟨l1, rfl⟩ := uses_sizedString_iff.1 h1
    obtain ⟨l2, rfl⟩ := uses_sizedString_iff.1 h3
    obtain ⟨rfl, h7⟩ := uses_readU_iff.1 h5
    split at h6
    · next hr =>
      obtain ⟨e, rfl⟩ := uses_pure_iff.1 h6
      cases e
      obtain ⟨z, z1, z2, rfl⟩ := (hint_range h7).1 hr
      exact ⟨z, z1, z2, l1, l2, by simp [beBytes_eq]⟩
    · exact (uses_err_iff h6).elim
  · rintro ⟨z, z1, z2, l1, l2, rfl⟩
    refine ⟨name, sized name, sized ty ++ bigEndian 4 (BitVec.ofInt 32 z).toNat, uses_sizedString_iff.2 ⟨l1, rfl⟩, ?_, by simp⟩
    refine (uses_sizedString_iff.2 ⟨l2, rfl⟩).bind ?_
    have : Uses (readU 4) (BitVec.ofInt 32 z).toNat _ := uses_readU (BitVec.isLt _)
    rw [← beBytes_eq]
    have h2 := this.bind (f := fun hint => if hint = 2 ^ 32 - 1 ∨ hint ≤ 6 then Rd.pure (name, ty) else Rd.err (.custom "unexpected display hint value"))
      (d := []) (b := (name, ty)) (by rw [if_pos ((hint_range (BitVec.isLt _)).2 ⟨z, z1, z2, rfl⟩)]; exact uses_pure _)
    rw [List.append_nil] at h2
    exact h2

theorem good_descriptors : ∀ n i, Good (readDescriptors n i)
  | 0, i => Good.pure _
  | n + 1, i => good_descriptor.bind fun ⟨name, ty⟩ => by
    simp only
    split
    · exact Good.panic
    · exact (good_descriptors n (i + 1)).bind fun _ => Good.pure _

theorem panics_descriptors : ∀ n i, PanicsOn (readDescriptors n i) (BadColumns n)
  | 0, i => (PanicsOn.pure _).congr fun c => ⟨False.elim, by rintro ⟨cols, bad, h, _⟩; omega⟩
  | n + 1, i => by
    have hf : ∀ a : Str × Str, PanicsOn (match typeOfString a.2 with
        | none => Rd.panic
        | some ft => Rd.bind (readDescriptors n (i + 1)) fun rest => Rd.pure ((if a.1 = [] then defaultName i else a.1, ft) :: rest))
        (fun c => (typeOfString a.2 = none ∧ c = []) ∨ (typeOfString a.2 ≠ none ∧ BadColumns n c)) := by
      rintro ⟨name, ty⟩
      simp only
      cases h : typeOfString ty with
      | none => exact PanicsOn.panic.congr fun c => by simp
      | some ft =>
        exact (PanicsOn.bind (good_descriptors n (i + 1)) (panics_descriptors n (i + 1)) fun _ => PanicsOn.pure _).congr fun c => by simp
    have := PanicsOn.bind good_descriptor panics_descriptor hf
    rw [readDescriptors]
    refine this.congr fun c => ?_
    constructor
    · rintro ((⟨bs, h1, h2, rfl⟩ | ⟨name, bs, h1, h2, h3, rfl⟩) | ⟨⟨name, ty⟩, c1, c2, hu, h, rfl⟩)
      · exact ⟨[], _, by simp, by simp, .name h1 h2, by simp⟩
      · exact ⟨[], _, by simp, by simp, .type h1 h2 h3, by simp⟩
      · obtain ⟨z, z1, z2, l1, l2, rfl⟩ := uses_descriptor_iff.1 hu
        rcases h with ⟨hn, rfl⟩ | ⟨hn, cols, bad, h1, h2, h3, rfl⟩
        · refine ⟨[], _, by simp, by simp, .unknown l1 l2 z1 z2 fun t n htn he => ?_, by simp⟩
          have := typeOfString_iff.2 (typeName_iff.1 htn)
          rw [← he] at this
          simp only at hn
          rw [hn] at this; cases this
        · obtain ⟨ft, hft⟩ := Option.ne_none_iff_exists'.1 hn
          have hs := typeOfString_iff.1 hft
          refine ⟨⟨name, ft, String.ofList ty, z⟩ :: cols, bad, by simpa using h1, ?_, h3, by simp [Column.bytes]⟩
          intro c hc
          rcases List.mem_cons.1 hc with rfl | hc
          · exact ⟨typeName_iff.2 (by simpa using hs), l1, z1, z2⟩
          · exact h2 c hc
    · rintro ⟨cols, bad, h1, h2, h3, rfl⟩
      cases cols with
      | nil =>
        cases h3 with
        | name a b => exact .inl (.inl ⟨_, a, b, by simp⟩)
        | type a b c => exact .inl (.inr ⟨_, _, a, b, c, by simp⟩)
        | @unknown name ty z l1 l2 z1 z2 hno =>
          refine .inr ⟨(name, ty), _, [], uses_descriptor_iff.2 ⟨z, z1, z2, l1, l2, rfl⟩, .inl ⟨?_, rfl⟩, by simp⟩
          cases h : typeOfString ty with
          | none => rfl
          | some t =>
            have := typeOfString_iff.1 h
            exact absurd (by simpa using this.symm) (hno t (String.ofList ty) (typeName_iff.2 (by simpa using this)))
      | cons x cols =>
        have hx := h2 x (by simp)
        refine .inr ⟨(x.name, x.typeName.toList), x.bytes, (cols.map Column.bytes).flatten ++ bad, uses_fieldDescriptor hx, .inr ⟨?_, cols, bad, by simpa using h1,
          fun y hy => h2 y (by simp [hy]), h3, rfl⟩, by simp⟩
        simp only
        rw [typeOfString_iff.2 (typeName_iff.1 hx.1)]
        simp

theorem PanicsOn.bindU {α β : Type} {x : Rd α} {f : α → Rd β} {Q : α → List Byte → Prop} (hg : Good x) (hx : PanicsOn x (fun _ => False))
    (hf : ∀ a c, Uses x a c → PanicsOn (f a) (Q a)) : PanicsOn (Rd.bind x f) (fun c => ∃ a c1 c2, Uses x a c1 ∧ Q a c2 ∧ c = c1 ++ c2) := by
  constructor
  · rintro c ⟨a, c1, c2, hu, hq, rfl⟩ t
    obtain ⟨s, hs⟩ := (hf a c1 hu).there c2 hq t
    refine ⟨s, ?_⟩
    rw [ofBytes_append, List.append_assoc, Rd.bind_of_ok (hu.here _)]
    exact hs
  · intro s s' h
    unfold Rd.bind at h
    rcases hr : x s with ⟨a | e | _ | _, s1⟩ <;> rw [hr] at h
    · obtain ⟨c1, rfl, hu⟩ := hg s a s1 hr
      obtain ⟨c2, t, h2, hq⟩ := (hf a c1 hu).only _ _ h
      exact ⟨c1 ++ c2, t, by rw [h2]; simp [ofBytes_append], a, c1, c2, hu, hq, rfl⟩
    · cases h
    · exact ((hx.only _ _ hr).elim fun c h => h.elim fun t h => h.2.elim)
    · cases h

theorem PanicsOn.ite {α : Type} {x y : Rd α} {P Q : List Byte → Prop} (p : Prop) [Decidable p] (hx : PanicsOn x P) (hy : PanicsOn y Q) :
    PanicsOn (if p then x else y) (fun c => (p ∧ P c) ∨ (¬ p ∧ Q c)) := by
  split
  · next h => exact hx.congr fun c => by simp [h]
  · next h => exact hy.congr fun c => by simp [h]

theorem PanicsOn.const {α : Type} (r : Res α) : PanicsOn (fun s => (r, s)) (fun c => r = .panic ∧ c = []) :=
  ⟨fun c h t => ⟨t, by obtain ⟨rfl, rfl⟩ := h; rfl⟩, fun s s' h => ⟨[], s, rfl, (Prod.mk.inj h).1, rfl⟩⟩

theorem uses_const_iff {α : Type} {r : Res α} {a : α} {c : List Byte} : Uses (fun s => (r, s)) a c ↔ r = .ok a ∧ c = [] := by
  constructor
  · intro h
    have := h.here []
    simp only [Prod.mk.injEq, List.append_nil] at this
    exact ⟨this.1, ofBytes_inj this.2⟩
  · rintro ⟨rfl, rfl⟩; exact uses_pure _

theorem panics_dcHeader (ov : Overflow) : PanicsOn (dcHeader ov) CrashHeader := by
  -- the columns
  have p5 : ∀ n, n < 2 ^ 32 → PanicsOn (Rd.bind (fun s => (getBitsetBytes ov n, s)) fun bitset => Rd.bind (rdAlloc bitset) fun _ =>
      Rd.bind (readDescriptors n 0) fun fields => Rd.pure (⟨fields.map (·.1), fields.map (·.2)⟩ : Header))
      (fun c => (n = 0 ∧ c = []) ∨ BadColumns n c) := by
    intro n hn
    by_cases h0 : n = 0
    · subst h0
      have hb := bitset_zero ov
      refine PanicsOn.congr ⟨fun c hc t => ⟨t, ?_⟩, fun s s' _ => ⟨[], s, rfl, rfl⟩⟩ (P := fun c => c = []) fun c => ?_
      · subst hc
        unfold Rd.bind rdAlloc
        cases hg : getBitsetBytes ov 0 with
        | ok k => rw [hg, Res.bind_ok] at hb; simp [hb]
        | err e => rw [hg] at hb; simp [Res.bind] at hb
        | panic => rfl
        | diverge => rw [hg] at hb; simp [Res.bind] at hb
      · constructor
        · intro h; exact .inl ⟨rfl, h⟩
        · rintro (⟨_, h⟩ | ⟨cols, bad, h, _⟩)
          · exact h
          · omega
    · have hal : allocBytes (1 + (n - 1) / 8) = .ok () := if_pos (by omega)
      have hra : rdAlloc (1 + (n - 1) / 8) = fun s => (.ok (), s) := by funext s; simp only [rdAlloc, hal]
      rw [getBitsetBytes_pos h0, rdConst_ok, hra, rdConst_ok]
      refine (PanicsOn.bind (good_descriptors n 0) (panics_descriptors n 0) fun _ => PanicsOn.pure _).congr fun c => by simp [h0]
  have h4 : ∀ u : Nat, PanicsOn (Rd.bind (readN u) fun _ => Rd.bind (readU 4) fun n => Rd.bind (fun s => (getBitsetBytes ov n, s)) fun bitset =>
      Rd.bind (rdAlloc bitset) fun _ => Rd.bind (readDescriptors n 0) fun fields => Rd.pure (⟨fields.map (·.1), fields.map (·.2)⟩ : Header)) _ := fun u =>
    PanicsOn.bind' (Good.readN u) (PanicsOn.readN u) fun _ => PanicsOn.bindU (Good.readU 4) (panics_readU 4) fun n c hu => p5 n (uses_readU_iff.1 hu).2
  have h2 := PanicsOn.bind' (Good.readU 4) (panics_readU 4) h4
  have h1 : ∀ v : Nat, PanicsOn (if v ≠ dcVersion then Rd.err (.custom "DCReader -- wrong version") else _) _ := fun v =>
    PanicsOn.ite (v ≠ dcVersion) (PanicsOn.err _) h2
  have h0 : ∀ m : Nat, PanicsOn (if m ≠ dcMagic then Rd.err (.custom "DCReader -- wrong magic number") else _) _ := fun m =>
    PanicsOn.ite (m ≠ dcMagic) (PanicsOn.err _) (PanicsOn.bind' (Good.readU 2) (panics_readU 2) h1)
  refine (PanicsOn.bind' (Good.readU 8) (panics_readU 8) h0).congr fun c => ?_
  constructor
  · rintro ⟨m, c1, c2, u1, h, rfl⟩
    rcases h with h | ⟨hm, v, c3, c4, u2, h, rfl⟩
    · exact h.2.elim
    rcases h with h | ⟨hv, us, c5, c6, u3, h, rfl⟩
    · exact h.2.elim
    obtain ⟨user, c7, c8, u4, ⟨n, c9, c10, u5, h, rfl⟩, rfl⟩ := h
    obtain ⟨rfl, _⟩ := uses_readU_iff.1 u1
    obtain ⟨rfl, _⟩ := uses_readU_iff.1 u2
    obtain ⟨rfl, hus⟩ := uses_readU_iff.1 u3
    obtain ⟨rfl, rfl⟩ := uses_readN_iff.1 u4
    obtain ⟨rfl, hn⟩ := uses_readU_iff.1 u5
    rw [Decidable.not_not] at hm hv
    subst hm hv
    refine ⟨user, n, c10, hus, hn, ?_, ?_⟩
    · rw [magic_bytes, version_bytes, beBytes_eq, beBytes_eq]; simp
    · rcases h with ⟨rfl, rfl⟩ | ⟨cols, bad, h1, h2, h3, rfl⟩
      · exact .inl ⟨rfl, rfl⟩
      · exact .inr ⟨cols, bad, h1, h2, h3, rfl⟩
  · rintro ⟨user, n, rest, hus, hn, rfl, h⟩
    refine ⟨dcMagic, _, _, uses_readU (by decide), .inr ⟨by simp, dcVersion, _, _, uses_readU (by decide), .inr ⟨by simp, user.length, _, _, uses_readU hus,
      ⟨user, _, _, uses_readN user, ⟨n, _, rest, uses_readU hn, ?_, rfl⟩, rfl⟩, rfl⟩, rfl⟩, ?_⟩
    · rcases h with ⟨rfl, rfl⟩ | ⟨cols, bad, h1, h2, h3, rfl⟩
      · exact .inl ⟨rfl, rfl⟩
      · exact .inr ⟨cols, bad, h1, h2, h3, rfl⟩
    · rw [magic_bytes, version_bytes, beBytes_eq, beBytes_eq]; simp

theorem dcOpen_panic {ov : Overflow} {s : Stream} : dcOpen ov s = .panic ↔ ∃ c t, s = ofBytes c ++ t ∧ CrashHeader c := by
  unfold dcOpen
  constructor
  · intro h
    rcases hh : dcHeader ov s with ⟨_ | _ | _ | _, s'⟩ <;> rw [hh] at h <;> simp only [reduceCtorEq] at h
    exact (panics_dcHeader ov).only _ _ hh
  · rintro ⟨c, t, rfl, h⟩
    obtain ⟨s', hs⟩ := (panics_dcHeader ov).there c h t
    rw [hs]

end Chopper
