import Verif.Spec.Gzip
import Verif.Proofs.Zip
import Verif.Proofs.Input2
import Verif.Props.Zip

/-! # Reading gzip members -/
namespace Chopper
open Chopper.Spec

theorem hasher_crc (bs : List Byte) : (Hasher.new.update bs).finish = Spec.crc32 bs := by
  have := Props.C52_incremental [bs]
  simpa using this

theorem leVal_mod : ∀ (n v : Nat), leVal (leBytes n v) = v % 256 ^ n
  | 0, v => by simp [leBytes, leVal, Nat.mod_one]
  | n + 1, v => by
    simp only [leBytes, leVal, leVal_mod n, BitVec.toNat_ofNat]
    rw [Nat.pow_succ 256 n, Nat.mul_comm (256 ^ n) 256, Nat.mod_mul]

theorem gzZero_spec : ∀ (s d : List Byte), 0 ∉ s → gzZero (s ++ [0] ++ d) = .ok d
  | [], d, _ => by simp [gzZero]
  | b :: s, d, h => by
    have hb : b ≠ 0 := by intro hb; subst hb; simp at h
    have := gzZero_spec s d (by intro h0; exact h (List.mem_cons_of_mem _ h0))
    simp only [List.cons_append, gzZero, if_neg hb]
    exact this

theorem gzExtra_spec (x d : List Byte) (h : x.length < 65536) : gzExtra (leBytes 2 x.length ++ x ++ d) = .ok d := by
  have hl := leBytes_length 2 x.length
  have ht : (leBytes 2 x.length ++ x ++ d).take 2 = leBytes 2 x.length := by
    rw [List.append_assoc, List.take_append_of_le_length (by omega), List.take_of_length_le (by omega)]
  have hv : leVal (leBytes 2 x.length) = x.length := leVal_leBytes 2 _ (by omega)
  unfold gzExtra
  rw [ht, hv, if_neg (by simp [hl]), if_neg (by simp [hl])]
  congr 1
  rw [List.drop_append_of_le_length (by simp [hl])]
  rw [List.drop_of_length_le (by simp [hl])]
  rfl

theorem flags_bits (h : GzHeader) : h.flags.toNat < 32 ∧ h.flags.getLsbD 1 = h.hcrc ∧ h.flags.getLsbD 2 = h.extra.isSome ∧
    h.flags.getLsbD 3 = h.name.isSome ∧ h.flags.getLsbD 4 = h.comment.isSome := by
  unfold GzHeader.flags
  generalize h.text = a
  generalize h.hcrc = b
  generalize h.extra.isSome = c
  generalize h.name.isSome = d
  generalize h.comment.isSome = e
  revert a b c d e
  decide

/-- The header is read and skipped. -/
theorem gzHeader_spec (h : GzHeader) (hv : h.Valid) (d : List Byte) : gzHeader (h.bytes ++ d) = .ok d := by
  obtain ⟨m1, m2, m3, m4, m5, m6, hm⟩ : ∃ a b c d e f, h.mid = [a, b, c, d, e, f] := by
    have hl := hv.mid
    match h.mid, hl with
    | [a, b, c, d, e, f], _ => exact ⟨a, b, c, d, e, f, rfl⟩
  obtain ⟨f0, f1, f2, f3, f4⟩ := flags_bits h
  have e3 : ∀ t, (if h.comment.isSome = true then gzZero (zeroEnded h.comment ++ t) else .ok (zeroEnded h.comment ++ t)) = .ok t := by
    intro t
    cases hc : h.comment with
    | none => simp [zeroEnded]
    | some s => simp only [Option.isSome_some, if_true, zeroEnded]; exact gzZero_spec s t (hv.comment s hc)
  have e2 : ∀ t, (if h.name.isSome = true then gzZero (zeroEnded h.name ++ t) else .ok (zeroEnded h.name ++ t)) = .ok t := by
    intro t
    cases hc : h.name with
    | none => simp [zeroEnded]
    | some s => simp only [Option.isSome_some, if_true, zeroEnded]; exact gzZero_spec s t (hv.name s hc)
  have e1 : ∀ t, (if h.extra.isSome = true then gzExtra (extraField h.extra ++ t)
      else .ok (extraField h.extra ++ t)) = .ok t := by
    intro t
    cases hc : h.extra with
    | none => simp [extraField]
    | some s => simp only [Option.isSome_some, if_true, extraField]; exact gzExtra_spec s t (hv.extra s hc)
  have hall : h.bytes ++ d = 0x1f :: 0x8b :: 8 :: h.flags :: m1 :: m2 :: m3 :: m4 :: m5 :: m6 ::
      (extraField h.extra ++ (zeroEnded h.name ++ (zeroEnded h.comment ++
        ((if h.hcrc then leBytes 2 (crc32 h.main).toNat else []) ++ d)))) := by
    simp only [GzHeader.bytes]
    conv => lhs; arg 1; arg 1; unfold GzHeader.main
    rw [hm]
    simp only [List.append_assoc, List.cons_append, List.nil_append]
  have key : gzHeader (h.bytes ++ d) = if h.hcrc = true then gzHcrc (h.bytes ++ d) ((if h.hcrc then leBytes 2 (crc32 h.main).toNat else []) ++ d)
      else .ok ((if h.hcrc then leBytes 2 (crc32 h.main).toNat else []) ++ d) := by
    conv => lhs; rw [hall]
    unfold gzHeader
    simp only
    rw [if_neg (by decide), if_neg (by omega), f1, f2, f3, f4, e1, Res.bind_ok, e2, Res.bind_ok, e3, Res.bind_ok, ← hall]
  rw [key]
  cases hc : h.hcrc with
  | false => simp
  | true =>
    simp only [if_true]
    have hl := leBytes_length 2 (crc32 h.main).toNat
    unfold gzHcrc
    have ht : (leBytes 2 (crc32 h.main).toNat ++ d).take 2 = leBytes 2 (crc32 h.main).toNat := by
      rw [List.take_append_of_le_length (by omega), List.take_of_length_le (by omega)]
    have hb : h.bytes = h.main ++ leBytes 2 (crc32 h.main).toNat := by simp [GzHeader.bytes, hc]
    have hm : (h.bytes ++ d).take ((h.bytes ++ d).length - (leBytes 2 (crc32 h.main).toNat ++ d).length) = h.main := by
      rw [hb, show ((h.main ++ leBytes 2 (crc32 h.main).toNat ++ d).length - (leBytes 2 (crc32 h.main).toNat ++ d).length) = h.main.length from by
        simp only [List.length_append]; omega, List.append_assoc, List.take_append_of_le_length (Nat.le_refl _), List.take_of_length_le (Nat.le_refl _)]
    rw [hm, ht, if_neg (by simp [hl]), hasher_crc, leVal_mod, if_pos rfl]
    rfl

/-- A complete member, and whatever follows it. -/
theorem gzDecode_member {lib : GzCrate} {m : GzMember} {content : List Byte} (h : m.Holds lib content) (tail : List Byte) :
    (m.Intact content → gzDecode lib (m.bytes ++ tail) = (content, none)) ∧ (¬ m.Intact content → gzDecode lib (m.bytes ++ tail) = (content, some .other)) := by
  have e : m.bytes ++ tail = m.header.bytes ++ (m.packed ++ (leBytes 4 m.sum.toNat ++ (leBytes 4 m.size ++ tail))) := by
    simp [GzMember.bytes, List.append_assoc]
  have l1 := leBytes_length 4 m.sum.toNat
  have l2 := leBytes_length 4 m.size
  have t1 : (leBytes 4 m.sum.toNat ++ (leBytes 4 m.size ++ tail)).take 4 = leBytes 4 m.sum.toNat := by
    rw [List.take_append_of_le_length (by omega), List.take_of_length_le (by omega)]
  have t2 : ((leBytes 4 m.sum.toNat ++ (leBytes 4 m.size ++ tail)).drop 4).take 4 = leBytes 4 m.size := by
    rw [List.drop_append_of_le_length (by omega), List.drop_of_length_le (by omega), List.nil_append,
      List.take_append_of_le_length (by omega), List.take_of_length_le (by omega)]
  have v1 : leVal (leBytes 4 m.sum.toNat) = m.sum.toNat := leVal_leBytes 4 _ (by have := m.sum.isLt; omega)
  have v2 : leVal (leBytes 4 m.size) = m.size % 2 ^ 32 := by rw [leVal_mod]
  have key : gzDecode lib (m.bytes ++ tail) = if m.sum.toNat ≠ (Spec.crc32 content).toNat then (content, some .other)
      else if m.size % 2 ^ 32 ≠ content.length % 2 ^ 32 then (content, some .other) else (content, none) := by
    unfold gzDecode
    rw [e, gzHeader_spec _ h.header]
    have hp := h.packed (leBytes 4 m.sum.toNat ++ (leBytes 4 m.size ++ tail))
    simp only [hp]
    rw [t1, t2, v1, v2, hasher_crc, if_neg (by simp only [List.length_append]; omega)]
  rw [key]
  constructor
  · rintro ⟨h1, h2⟩
    rw [if_neg (by rw [h1]; simp), if_neg (by simp [h2])]
  · intro hn
    by_cases h1 : m.sum.toNat ≠ (Spec.crc32 content).toNat
    · rw [if_pos h1]
    · rw [if_neg h1]
      have h1 : m.sum = Spec.crc32 content := BitVec.eq_of_toNat_eq (by omega)
      rw [if_pos (fun h2 => hn ⟨h1, h2⟩)]

/-- A step of reading the header: what it does with a prefix of the bytes, given what it does with all of them: it runs out of bytes, or takes the same bytes. -/
def CutStep (f : List Byte → Res (List Byte)) : Prop :=
  ∀ x q rest, f x = .ok rest → q <+: x → f q = .err (.io .unexpectedEof) ∨ ∃ c q', f q = .ok q' ∧ q = c ++ q' ∧ x = c ++ rest

theorem left_prefix {c q' rest q x : List Byte} (h1 : q = c ++ q') (h2 : x = c ++ rest) (h : q <+: x) : q' <+: rest := by
  subst h1; subst h2
  exact (List.prefix_append_right_inj c).1 h

theorem gzExtra_cut : CutStep gzExtra := by
  intro x q rest h hq
  unfold gzExtra at h ⊢
  split at h
  · simp at h
  · split at h
    · simp at h
    · rename_i hx
      simp only [Res.ok.injEq] at h
      by_cases h1 : q.length < 2
      · exact .inl (by rw [if_pos h1])
      · rw [if_neg h1]
        obtain ⟨t, rfl⟩ := hq
        have ht : q.take 2 = (q ++ t).take 2 := by rw [List.take_append_of_le_length (by omega)]
        rw [← ht] at h hx
        split
        · exact .inl rfl
        · rename_i hl
          refine .inr ⟨q.take (2 + leVal (q.take 2)), _, rfl, (List.take_append_drop _ _).symm, ?_⟩
          rw [← h, List.drop_append_of_le_length (by omega), ← List.append_assoc, List.take_append_drop]

theorem gzZero_cut : CutStep gzZero := by
  intro x
  induction x with
  | nil => intro q rest h; simp [gzZero] at h
  | cons b x ih =>
    intro q rest h hq
    cases q with
    | nil => exact .inl rfl
    | cons c q =>
      obtain ⟨hbc, hq'⟩ := List.cons_prefix_cons.1 hq
      subst hbc
      unfold gzZero at h ⊢
      split
      · rename_i hb
        rw [if_pos hb] at h
        simp only [Res.ok.injEq] at h
        exact .inr ⟨[c], q, rfl, rfl, by rw [h]; rfl⟩
      · rename_i hb
        rw [if_neg hb] at h
        rcases ih q rest h hq' with h1 | ⟨c', q', h1, h2, h3⟩
        · exact .inl h1
        · exact .inr ⟨c :: c', q', h1, by rw [h2]; rfl, by rw [h3]; rfl⟩

theorem opt_cut {f : List Byte → Res (List Byte)} (hf : CutStep f) (c : Bool) : CutStep fun d => if c then f d else .ok d := by
  cases c with
  | true => simpa using hf
  | false =>
    intro x q rest h hq
    simp only [Bool.false_eq_true, if_false, Res.ok.injEq] at h ⊢
    exact .inr ⟨[], q, rfl, rfl, by rw [h]; rfl⟩

theorem bind_cut {f g : List Byte → Res (List Byte)} (hf : CutStep f) (hg : CutStep g) : CutStep fun d => (f d).bind g := by
  intro x q rest h hq
  obtain ⟨mid, h1, h2⟩ := (Res.bind_eq_ok ..).1 h
  rcases hf x q mid h1 hq with h3 | ⟨c, q', h3, h4, h5⟩
  · left; simp only [h3]; rfl
  · simp only [h3, Res.bind_ok]
    rcases hg mid q' rest h2 (left_prefix h4 h5 hq) with h6 | ⟨c', q'', h6, h7, h8⟩
    · exact .inl h6
    · exact .inr ⟨c ++ c', q'', h6, by rw [h4, h7, List.append_assoc], by rw [h5, h8, List.append_assoc]⟩

theorem uncons_le {n : Nat} : ∀ {l : List Byte}, n + 1 ≤ l.length → ∃ a r, l = a :: r ∧ n ≤ r.length
  | [], h => by simp at h
  | a :: r, h => ⟨a, r, rfl, by simpa using h⟩

theorem ten {q : List Byte} (h : ¬ q.length < 10) : ∃ q0 q1 q2 q3 q4 q5 q6 q7 q8 q9 qd, q = q0 :: q1 :: q2 :: q3 :: q4 :: q5 :: q6 :: q7 :: q8 :: q9 :: qd := by
  obtain ⟨q0, r0, rfl, h0⟩ := uncons_le (n := 9) (l := q) (by omega)
  obtain ⟨q1, r1, rfl, h1⟩ := uncons_le (n := 8) h0
  obtain ⟨q2, r2, rfl, h2⟩ := uncons_le (n := 7) h1
  obtain ⟨q3, r3, rfl, h3⟩ := uncons_le (n := 6) h2
  obtain ⟨q4, r4, rfl, h4⟩ := uncons_le (n := 5) h3
  obtain ⟨q5, r5, rfl, h5⟩ := uncons_le (n := 4) h4
  obtain ⟨q6, r6, rfl, h6⟩ := uncons_le (n := 3) h5
  obtain ⟨q7, r7, rfl, h7⟩ := uncons_le (n := 2) h6
  obtain ⟨q8, r8, rfl, h8⟩ := uncons_le (n := 1) h7
  obtain ⟨q9, q, rfl, h9⟩ := uncons_le (n := 0) h8
  exact ⟨q0, q1, q2, q3, q4, q5, q6, q7, q8, q9, q, rfl⟩

theorem prefix_of_append {q a b : List Byte} (h : q <+: a ++ b) : q <+: a ∨ ∃ t, q = a ++ t ∧ t <+: b := by
  rcases Nat.le_total q.length a.length with hl | hl
  · exact .inl (List.prefix_of_prefix_length_le h (List.prefix_append a b) hl)
  · obtain ⟨t, rfl⟩ := List.prefix_of_prefix_length_le (List.prefix_append a b) h hl
    exact .inr ⟨t, rfl, (List.prefix_append_right_inj a).1 h⟩

/-- A header that breaks off is noticed; otherwise it is read as it should be. -/
theorem gzHeader_cut : CutStep gzHeader := by
  intro x q rest h hq
  unfold gzHeader at h
  split at h
  · rename_i a b c flags m1 m2 m3 m4 m5 m6 d
    by_cases hl : q.length < 10
    · left
      unfold gzHeader
      split
      · rename_i heq
        simp only [List.length_cons] at hl
        omega
      · rfl
    · obtain ⟨t, ht⟩ := hq
      have : ∃ qd, q = a :: b :: c :: flags :: m1 :: m2 :: m3 :: m4 :: m5 :: m6 :: qd ∧ qd ++ t = d := by
        obtain ⟨q0, q1, q2, q3, q4, q5, q6, q7, q8, q9, qd, rfl⟩ := ten hl
        simp only [List.cons_append, List.cons.injEq] at ht
        obtain ⟨rfl, rfl, rfl, rfl, rfl, rfl, rfl, rfl, rfl, rfl, ht⟩ := ht
        exact ⟨qd, rfl, ht⟩
      obtain ⟨qd, rfl, hqd⟩ := this
      clear hl ht
      generalize hall : (a :: b :: c :: flags :: m1 :: m2 :: m3 :: m4 :: m5 :: m6 :: d) = all at h ⊢
      generalize hq : (a :: b :: c :: flags :: m1 :: m2 :: m3 :: m4 :: m5 :: m6 :: qd) = q
      have hg : gzHeader q = if a ≠ 0x1f ∨ b ≠ 0x8b ∨ c ≠ 8 then .err (.io .other)
          else if 32 ≤ flags.toNat then .err (.io .other)
          else
            (if flags.getLsbD 2 then gzExtra qd else .ok qd).bind fun d =>
            (if flags.getLsbD 3 then gzZero d else .ok d).bind fun d =>
            (if flags.getLsbD 4 then gzZero d else .ok d).bind fun d =>
            if flags.getLsbD 1 then gzHcrc q d else .ok d := by
        rw [← hq]; rfl
      rw [hg]
      split at h
      · simp at h
      · rename_i h0
        rw [if_neg h0]
        split at h
        · simp at h
        · rename_i h1
          rw [if_neg h1]
          obtain ⟨d1, e1, h⟩ := (Res.bind_eq_ok ..).1 h
          obtain ⟨d2, e2, h⟩ := (Res.bind_eq_ok ..).1 h
          obtain ⟨d3, e3, h⟩ := (Res.bind_eq_ok ..).1 h
          rcases opt_cut gzExtra_cut (flags.getLsbD 2) d qd d1 e1 ⟨t, hqd⟩ with f1 | ⟨c1, q1, f1, g1, k1⟩
          · left; simp only at f1; rw [f1]; rfl
          simp only at f1; rw [f1, Res.bind_ok]
          have p1 := left_prefix g1 k1 ⟨t, hqd⟩
          rcases opt_cut gzZero_cut (flags.getLsbD 3) d1 q1 d2 e2 p1 with f2 | ⟨c2, q2, f2, g2, k2⟩
          · left; simp only at f2; rw [f2]; rfl
          simp only at f2; rw [f2, Res.bind_ok]
          have p2 := left_prefix g2 k2 p1
          rcases opt_cut gzZero_cut (flags.getLsbD 4) d2 q2 d3 e3 p2 with f3 | ⟨c3, q3, f3, g3, k3⟩
          · left; simp only at f3; rw [f3]; rfl
          simp only at f3; rw [f3, Res.bind_ok]
          have p3 := left_prefix g3 k3 p2
          have hqq : q = (a :: b :: c :: flags :: m1 :: m2 :: m3 :: m4 :: m5 :: m6 :: (c1 ++ c2 ++ c3)) ++ q3 := by
            rw [← hq, g1, g2, g3]; simp
          have haa : all = (a :: b :: c :: flags :: m1 :: m2 :: m3 :: m4 :: m5 :: m6 :: (c1 ++ c2 ++ c3)) ++ d3 := by
            rw [← hall, k1, k2, k3]; simp
          generalize (a :: b :: c :: flags :: m1 :: m2 :: m3 :: m4 :: m5 :: m6 :: (c1 ++ c2 ++ c3)) = main at hqq haa
          split at h
          · rename_i h5
            rw [if_pos h5]
            have tq : q.take (q.length - q3.length) = main := by rw [hqq]; simp
            have ta : all.take (all.length - d3.length) = main := by rw [haa]; simp
            unfold gzHcrc at h ⊢
            rw [ta] at h
            rw [tq]
            split at h
            · simp at h
            · split at h
              · rename_i hv
                simp only [Res.ok.injEq] at h
                by_cases hs : q3.length < 2
                · left; rw [if_pos hs]
                · rw [if_neg hs]
                  obtain ⟨t3, rfl⟩ := p3
                  have htk : (q3 ++ t3).take 2 = q3.take 2 := List.take_append_of_le_length (by omega)
                  rw [htk] at hv
                  rw [if_pos hv]
                  refine .inr ⟨main ++ q3.take 2, q3.drop 2, rfl, ?_, ?_⟩
                  · rw [hqq, List.append_assoc, List.take_append_drop]
                  · rw [haa, ← h, List.drop_append_of_le_length (by omega)]
                    simp only [List.append_assoc]
                    rw [← List.append_assoc (q3.take 2), List.take_append_drop]
              · simp at h
          · rename_i h5
            rw [if_neg h5]
            simp only [Res.ok.injEq] at h
            exact .inr ⟨main, q3, rfl, hqq, by rw [haa, h]⟩
  · simp at h

/-- A member that breaks off anywhere is noticed, after part of the content. -/
theorem gzDecode_cut {lib : GzCrate} {m : GzMember} {content : List Byte} (h : m.Holds lib content) (hc : CutNoticed lib m.packed content) {q : List Byte}
    (hq : q <+: m.bytes) (hne : q ≠ m.bytes) : ∃ part, part <+: content ∧ gzDecode lib q = (part, some .unexpectedEof) := by
  have e : m.bytes = m.header.bytes ++ (m.packed ++ (leBytes 4 m.sum.toNat ++ leBytes 4 m.size)) := by
    simp [GzMember.bytes, List.append_assoc]
  have hh := gzHeader_spec m.header h.header (m.packed ++ (leBytes 4 m.sum.toNat ++ leBytes 4 m.size))
  rw [← e] at hh
  rcases gzHeader_cut _ q _ hh hq with h1 | ⟨c, q', h1, h2, h3⟩
  · refine ⟨[], List.nil_prefix, ?_⟩
    unfold gzDecode
    rw [h1]
  · have p1 := left_prefix h2 h3 hq
    have hne' : q' ≠ m.packed ++ (leBytes 4 m.sum.toNat ++ leBytes 4 m.size) := by
      intro he; apply hne; rw [h2, h3, he]
    unfold gzDecode
    rw [h1]
    simp only
    rcases prefix_of_append p1 with hp | ⟨t, ht, hp⟩
    · by_cases hpe : q' = m.packed
      · have := h.packed []
        rw [List.append_nil] at this
        rw [hpe, this]
        exact ⟨content, List.prefix_refl _, by simp⟩
      · obtain ⟨part, hpc, hi⟩ := hc q' hp hpe
        exact ⟨part, hpc, by rw [hi]⟩
    · rw [ht, h.packed t]
      refine ⟨content, List.prefix_refl _, ?_⟩
      simp only
      rw [if_pos]
      have := hp.length_le
      rw [List.length_append, leBytes_length, leBytes_length] at this
      rcases Nat.lt_or_ge t.length 8 with h8 | h8
      · exact h8
      · exfalso; apply hne'
        rw [ht, hp.eq_of_length (by rw [List.length_append, leBytes_length, leBytes_length]; omega)]

end Chopper
