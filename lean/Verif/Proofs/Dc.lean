import Verif.Spec.Dc
import Verif.Proofs.Utf8
import Verif.Proofs.Text

/-!
# Proofs about the DC format: reading bytes
-/
namespace Chopper
open Spec

/-! ## Big-endian numbers -/

theorem beVal_snoc (bs : List Byte) (b : Byte) : beVal (bs ++ [b]) = beVal bs * 256 + b.toNat := by simp [beVal]

theorem beBytes_length (k n : Nat) : (beBytes k n).length = k := by
  induction k generalizing n with
  | zero => rfl
  | succ k ih => simp [beBytes, ih]

theorem beVal_beBytes (k n : Nat) : beVal (beBytes k n) = n % 256 ^ k := by
  induction k generalizing n with
  | zero => simp [beBytes, beVal, Nat.mod_one]
  | succ k ih =>
    rw [beBytes, beVal_snoc, ih, BitVec.toNat_ofNat]
    show n / 256 % 256 ^ k * 256 + n % 256 = n % 256 ^ (k + 1)
    rw [Nat.pow_succ, Nat.mul_comm (256 ^ k), Nat.mod_mul]
    omega

theorem beVal_lt (bs : List Byte) : beVal bs < 256 ^ bs.length := by
  suffices ∀ (l : List Byte), beVal l.reverse < 256 ^ l.length by simpa using this bs.reverse
  intro l
  induction l with
  | nil => simp [beVal]
  | cons b l ih =>
    rw [List.reverse_cons, beVal_snoc, List.length_cons, Nat.pow_succ]
    have := b.isLt
    omega

theorem beBytes_beVal (bs : List Byte) : beBytes bs.length (beVal bs) = bs := by
  suffices ∀ (l : List Byte), beBytes l.length (beVal l.reverse) = l.reverse by simpa using this bs.reverse
  intro l
  induction l with
  | nil => rfl
  | cons b l ih =>
    rw [List.length_cons, List.reverse_cons, beBytes, beVal_snoc]
    have hb := b.isLt
    have h1 : (beVal l.reverse * 256 + b.toNat) / 256 = beVal l.reverse := by omega
    have h2 : BitVec.ofNat 8 (beVal l.reverse * 256 + b.toNat) = b := by
      apply BitVec.eq_of_toNat_eq
      rw [BitVec.toNat_ofNat]
      omega
    rw [h1, h2, ih]

theorem beBytes_eq (k n : Nat) : beBytes k n = bigEndian k n := by
  induction k generalizing n with
  | zero => rfl
  | succ k ih =>
    rw [beBytes, ih, bigEndian, bigEndian, List.range_succ, List.map_append]
    congr 1
    · apply List.map_congr_left
      intro i hi
      have hi : i < k := by simpa using hi
      rw [Nat.div_div_eq_div_mul]
      congr 2
      rw [show k + 1 - 1 - i = (k - 1 - i) + 1 by omega, Nat.pow_succ, Nat.mul_comm]
    · simp

/-! ## Reading bytes -/

@[simp] theorem ofBytes_append (a b : List Byte) : ofBytes (a ++ b) = ofBytes a ++ ofBytes b := by simp [ofBytes]
@[simp] theorem ofBytes_nil : ofBytes [] = [] := rfl
@[simp] theorem ofBytes_cons (b : Byte) (bs : List Byte) : ofBytes (b :: bs) = .byte b :: ofBytes bs := rfl
@[simp] theorem ofBytes_length (bs : List Byte) : (ofBytes bs).length = bs.length := by simp [ofBytes]

theorem ofBytes_inj {a b : List Byte} (h : ofBytes a = ofBytes b) : a = b := by
  have := congrArg (List.filterMap fun i : Item => match i with | .byte b => some b | .fail _ => none) h
  simpa [ofBytes, List.filterMap_map, Function.comp_def] using this

/-- A prefix of a stream of bytes that is a stream of bytes is a prefix of the bytes. -/
theorem ofBytes_eq_append {a : List Byte} {c : List Byte} {s : Stream} (h : ofBytes a = ofBytes c ++ s) :
    ∃ d, a = c ++ d ∧ s = ofBytes d := by
  induction c generalizing a with
  | nil => exact ⟨a, rfl, by simpa using h.symm⟩
  | cons x c ih =>
    cases a with
    | nil => simp at h
    | cons y a =>
      simp only [ofBytes_cons, List.cons_append, List.cons.injEq, Item.byte.injEq] at h
      obtain ⟨d, h1, h2⟩ := ih h.2
      exact ⟨d, by rw [h1, h.1]; rfl, h2⟩

namespace Rd
variable {α β : Type}

@[simp] theorem bind_pure_left (a : α) (f : α → Rd β) : bind (pure a) f = f a := rfl

theorem bind_of_ok {x : Rd α} {f : α → Rd β} {s s' : Stream} {a : α} (h : x s = (.ok a, s')) : bind x f s = f a s' := by
  simp only [bind, h]

theorem bind_of_err {x : Rd α} {f : α → Rd β} {s s' : Stream} {e : Err} (h : x s = (.err e, s')) : bind x f s = (.err e, s') := by
  simp only [bind, h]

theorem bind_ok_inv {x : Rd α} {f : α → Rd β} {s s' : Stream} {b : β} (h : bind x f s = (.ok b, s')) :
    ∃ a s1, x s = (.ok a, s1) ∧ f a s1 = (.ok b, s') := by
  simp only [bind] at h
  rcases hx : x s with ⟨_ | _ | _ | _, s1⟩
  · rw [hx] at h
    exact ⟨_, _, rfl, h⟩
  all_goals
    rw [hx] at h
    simp at h

end Rd

theorem readN_ok (bs : List Byte) (t : Stream) : readN bs.length (ofBytes bs ++ t) = (.ok bs, t) := by
  induction bs with
  | nil => rfl
  | cons b bs ih =>
    rw [List.length_cons, readN]
    simp only [ofBytes_cons, List.cons_append]
    rw [Rd.bind_of_ok ih]
    rfl

theorem readN_inv : ∀ (n : Nat) (s s' : Stream) (bs : List Byte), readN n s = (.ok bs, s') → s = ofBytes bs ++ s' ∧ bs.length = n
  | 0, s, s', bs, h => by
    simp only [readN, Rd.pure, Prod.mk.injEq, Res.ok.injEq] at h
    obtain ⟨rfl, rfl⟩ := h
    exact ⟨rfl, rfl⟩
  | n + 1, s, s', bs, h => by
    rw [readN] at h
    match s, h with
    | [], h => simp at h
    | .fail e :: s, h => simp at h
    | .byte b :: s, h =>
      simp only at h
      obtain ⟨a, s1, h1, h2⟩ := Rd.bind_ok_inv h
      obtain ⟨rfl, rfl⟩ := readN_inv n s s1 a h1
      simp only [Rd.pure, Prod.mk.injEq, Res.ok.injEq] at h2
      obtain ⟨rfl, rfl⟩ := h2
      exact ⟨rfl, rfl⟩

theorem readN_eof (p : List Byte) (m : Nat) : readN (p.length + (m + 1)) (ofBytes p) = (.err (.io .unexpectedEof), []) := by
  induction p with
  | nil => rw [List.length_nil, Nat.zero_add, readN]; rfl
  | cons b p ih =>
    rw [show (b :: p).length + (m + 1) = p.length + (m + 1) + 1 by simp only [List.length_cons]; omega, readN]
    simp only [ofBytes_cons]
    rw [Rd.bind_of_err ih]

theorem readN_fail (p : List Byte) (m : Nat) (e : IoKind) (t : Stream) :
    readN (p.length + (m + 1)) (ofBytes p ++ .fail e :: t) = (.err (.io e), t) := by
  induction p with
  | nil => rw [List.length_nil, Nat.zero_add, readN]; rfl
  | cons b p ih =>
    rw [show (b :: p).length + (m + 1) = p.length + (m + 1) + 1 by simp only [List.length_cons]; omega, readN]
    simp only [ofBytes_cons, List.cons_append]
    rw [Rd.bind_of_err ih]

/-- What a successful reading tells about other streams: exactly the bytes `c` are used, whatever follows them; if the stream ends or fails
before the end of `c` this is reported. -/
structure Uses {α : Type} (x : Rd α) (a : α) (c : List Byte) : Prop where
  here : ∀ t, x (ofBytes c ++ t) = (.ok a, t)
  eof : ∀ p q, c = p ++ q → q ≠ [] → x (ofBytes p) = (.err (.io .unexpectedEof), [])
  fail : ∀ p q, c = p ++ q → q ≠ [] → ∀ e t, x (ofBytes p ++ .fail e :: t) = (.err (.io e), t)

/-- A well-behaved reading function. -/
def Good {α : Type} (x : Rd α) : Prop := ∀ s a s', x s = (.ok a, s') → ∃ c, s = ofBytes c ++ s' ∧ Uses x a c

section Good
variable {α β : Type}

theorem Uses.bind {x : Rd α} {f : α → Rd β} {a : α} {b : β} {c d : List Byte} (hx : Uses x a c) (hf : Uses (f a) b d) :
    Uses (Rd.bind x f) b (c ++ d) := by
  have split : ∀ p q : List Byte, c ++ d = p ++ q → q ≠ [] → (∃ p', p = c ++ p' ∧ d = p' ++ q) ∨ (∃ q', c = p ++ q' ∧ q' ≠ []) := by
    intro p q h hq
    rcases List.append_eq_append_iff.1 h with ⟨a', h1, h2⟩ | ⟨c', h1, h2⟩
    · exact .inl ⟨a', h1, h2⟩
    · by_cases hc : c' = []
      · subst hc
        exact .inl ⟨[], by simpa using h1.symm, by simpa using h2.symm⟩
      · exact .inr ⟨c', h1, hc⟩
  constructor
  · intro t
    rw [ofBytes_append, List.append_assoc, Rd.bind_of_ok (hx.here _), hf.here]
  · intro p q h hq
    rcases split p q h hq with ⟨p', rfl, h2⟩ | ⟨q', h1, h2⟩
    · rw [ofBytes_append, Rd.bind_of_ok (hx.here _)]
      exact hf.eof _ _ h2 hq
    · rw [Rd.bind_of_err (hx.eof _ _ h1 h2)]
  · intro p q h hq e t
    rcases split p q h hq with ⟨p', rfl, h2⟩ | ⟨q', h1, h2⟩
    · rw [ofBytes_append, List.append_assoc, Rd.bind_of_ok (hx.here _)]
      exact hf.fail _ _ h2 hq e t
    · rw [Rd.bind_of_err (hx.fail _ _ h1 h2 e t)]

theorem uses_pure (a : α) : Uses (Rd.pure a) a [] := by
  constructor
  · intro t; rfl
  · intro p q h hq
    have := (List.append_eq_nil_iff.1 h.symm).2
    exact absurd this hq
  · intro p q h hq
    have := (List.append_eq_nil_iff.1 h.symm).2
    exact absurd this hq

theorem uses_readN (bs : List Byte) : Uses (readN bs.length) bs bs := by
  constructor
  · exact readN_ok bs
  · intro p q h hq
    obtain ⟨m, hm⟩ : ∃ m, q.length = m + 1 := ⟨q.length - 1, by have := List.length_pos_iff.2 hq; omega⟩
    rw [h, List.length_append, hm]
    exact readN_eof p m
  · intro p q h hq e t
    obtain ⟨m, hm⟩ : ∃ m, q.length = m + 1 := ⟨q.length - 1, by have := List.length_pos_iff.2 hq; omega⟩
    rw [h, List.length_append, hm]
    exact readN_fail p m e t

theorem Uses.congr {x y : Rd α} {a : α} {c : List Byte} (h : Uses x a c) (e : x = y) : Uses y a c := e ▸ h

theorem Good.pure (a : α) : Good (Rd.pure a) := by
  intro s b s' h
  simp only [Rd.pure, Prod.mk.injEq, Res.ok.injEq] at h
  obtain ⟨rfl, rfl⟩ := h
  exact ⟨[], rfl, uses_pure _⟩

theorem Good.err (e : Err) : Good (Rd.err e : Rd α) := by
  intro s b s' h
  simp [Rd.err] at h

theorem Good.panic : Good (Rd.panic : Rd α) := by
  intro s b s' h
  simp [Rd.panic] at h

theorem Good.readN (n : Nat) : Good (readN n) := by
  intro s bs s' h
  obtain ⟨h1, rfl⟩ := readN_inv n s s' bs h
  exact ⟨bs, h1, uses_readN bs⟩

theorem Good.bind {x : Rd α} {f : α → Rd β} (hx : Good x) (hf : ∀ a, Good (f a)) : Good (Rd.bind x f) := by
  intro s b s' h
  obtain ⟨a, s1, h1, h2⟩ := Rd.bind_ok_inv h
  obtain ⟨c, rfl, hc⟩ := hx _ _ _ h1
  obtain ⟨d, rfl, hd⟩ := hf a _ _ _ h2
  exact ⟨c ++ d, by simp, hc.bind hd⟩

/-- A computation that does not read. -/
theorem Good.const (r : Res α) : Good (fun s => (r, s)) := by
  cases r with
  | ok a => exact Good.pure a
  | err e => exact Good.err e
  | panic => exact Good.panic
  | diverge => intro s b s' h; simp at h

theorem Good.readU (k : Nat) : Good (readU k) := (Good.readN k).bind fun _ => Good.pure _

theorem Good.utf8 (bs : List Byte) : Good (rdUtf8 bs) := by
  unfold rdUtf8
  split
  · exact Good.pure _
  · exact Good.panic

theorem Good.sizedString : Good getSizedString := (Good.readU 4).bind fun _ => (Good.readN _).bind fun _ => Good.utf8 _

theorem Good.readString : Good readString := by
  refine (Good.readU 2).bind fun _ => ?_
  refine Good.bind ?_ fun _ => (Good.readN _).bind fun _ => Good.utf8 _
  split
  · exact Good.readU 4
  · exact Good.pure _

theorem Good.readValue (t : FieldType) : Good (readValue t) := by
  cases t
  case boolean => exact Good.err _
  case byteBuf => exact Good.err _
  case string => exact Good.readString.bind fun _ => Good.pure _
  all_goals exact (Good.readU _).bind fun _ => Good.pure _

theorem Good.readGroup (types : List FieldType) : ∀ j b acc, Good (readGroup types j b acc)
  | 0, _, _ => Good.pure _
  | j + 1, b, acc => by
    rw [Chopper.readGroup]
    split
    · exact Good.panic
    · refine Good.bind ?_ fun _ => ?_
      · split
        · exact Good.readValue _
        · exact Good.pure _
      · split
        · exact Good.pure _
        · exact Good.readGroup types j _ _

theorem Good.readGroups (types : List FieldType) : ∀ bs acc, Good (readGroups types bs acc)
  | [], _ => Good.pure _
  | b :: bs, acc => (Good.readGroup types 8 b acc).bind fun _ => Good.readGroups types bs _

theorem Good.readRowBody (types : List FieldType) : Good (readRowBody types) :=
  (Good.readN _).bind fun _ => Good.readGroups types _ _

end Good

/-! ## A row -/

/-- What reading a row does, in terms of the bytes. -/
theorem nextRow_ok {src src' : DcSource} {r : Row} (h : src.nextRow = (.ok (some r), src')) :
    ∃ c, src.stream = ofBytes c ++ src'.stream ∧ 8 ≤ c.length ∧ src'.header = src.header ∧
      (∀ t, DcSource.nextRow ⟨ofBytes c ++ t, src.header⟩ = (.ok (some r), ⟨t, src.header⟩)) ∧
      (∀ p q, c = p ++ q → q ≠ [] → 8 ≤ p.length →
        DcSource.nextRow ⟨ofBytes p, src.header⟩ = (.err (.io .unexpectedEof), ⟨[], src.header⟩) ∧
        ∀ e t, DcSource.nextRow ⟨ofBytes p ++ .fail e :: t, src.header⟩ = (.err (.io e), ⟨t, src.header⟩)) := by
  unfold DcSource.nextRow at h
  rcases hw : readU 8 src.stream with ⟨_ | _ | _ | _, s1⟩
  case ok ts =>
    simp only [hw] at h
    rcases hb : readRowBody src.header.types s1 with ⟨_ | _ | _ | _, s2⟩
    case ok vs =>
      simp only [hb, Prod.mk.injEq, Res.ok.injEq, Option.some.injEq] at h
      obtain ⟨rfl, rfl⟩ := h
      obtain ⟨bs, s3, h1, h2⟩ := Rd.bind_ok_inv hw
      obtain ⟨h3, h4⟩ := readN_inv 8 _ _ _ h1
      simp only [Rd.pure, Prod.mk.injEq, Res.ok.injEq] at h2
      obtain ⟨h5, rfl⟩ := h2
      have u8 : Uses (readU 8) ts bs := by
        have u := (uses_readN bs).bind (f := fun bs => Rd.pure (beVal bs)) (uses_pure (beVal bs))
        rw [h4, List.append_nil, h5] at u
        exact u
      obtain ⟨d, h6, ud⟩ := Good.readRowBody _ _ _ _ hb
      refine ⟨bs ++ d, ?_, by simp; omega, rfl, ?_, ?_⟩
      · rw [h3, h6]; simp
      · intro t
        simp only [DcSource.nextRow, ofBytes_append, List.append_assoc]
        rw [u8.here]
        simp only
        rw [ud.here]
      · intro p q hpq hq hp
        obtain ⟨p', rfl, hp'⟩ : ∃ p', p = bs ++ p' ∧ d = p' ++ q := by
          rcases List.append_eq_append_iff.1 hpq with ⟨a', e1, e2⟩ | ⟨c', e1, e2⟩
          · exact ⟨a', e1, e2⟩
          · have : c' = [] := by
              have := congrArg List.length e1
              simp only [List.length_append] at this
              exact List.eq_nil_of_length_eq_zero (by omega)
            subst this
            exact ⟨[], by simpa using e1.symm, by simpa using e2.symm⟩
        constructor
        · simp only [DcSource.nextRow, ofBytes_append]
          rw [u8.here]
          simp only
          rw [ud.eof _ _ hp' hq]
        · intro e t
          simp only [DcSource.nextRow, ofBytes_append, List.append_assoc]
          rw [u8.here]
          simp only
          rw [ud.fail _ _ hp' hq]
    all_goals simp [hb] at h
  all_goals simp [hw] at h

/-- Fewer than eight bytes before the end or a failure: the data is taken to have ended. -/
theorem nextRow_short (p : List Byte) (hp : p.length < 8) (h : Header) :
    DcSource.nextRow ⟨ofBytes p, h⟩ = (.ok none, ⟨[], h⟩) ∧
    ∀ e t, DcSource.nextRow ⟨ofBytes p ++ .fail e :: t, h⟩ = (.ok none, ⟨t, h⟩) := by
  obtain ⟨m, hm⟩ : ∃ m, 8 = p.length + (m + 1) := ⟨7 - p.length, by omega⟩
  constructor
  · simp only [DcSource.nextRow, readU]
    rw [hm, Rd.bind_of_err (readN_eof p m)]
  · intro e t
    simp only [DcSource.nextRow, readU]
    rw [hm, Rd.bind_of_err (readN_fail p m e t)]

theorem nextRow_header (src : DcSource) : (src.nextRow).2.header = src.header := by
  unfold DcSource.nextRow
  rcases readU 8 src.stream with ⟨_ | _ | _ | _, s1⟩
  · simp only
    rcases readRowBody src.header.types s1 with ⟨_ | _ | _ | _, s2⟩ <;> rfl
  all_goals rfl

/-! ## Cutting -/

theorem take_cases {a b : List Byte} {n : Nat} (h : n ≤ a.length + b.length) :
    (n < a.length ∧ ∃ p q, a = p ++ q ∧ q ≠ [] ∧ p.length = n ∧ (a ++ b).take n = p) ∨
    (a.length ≤ n ∧ (a ++ b).take n = a ++ b.take (n - a.length)) := by
  by_cases hn : n < a.length
  · refine .inl ⟨hn, a.take n, a.drop n, by simp, ?_, by simp; omega, ?_⟩
    · intro h0
      have := congrArg List.length h0
      simp at this; omega
    · rw [List.take_append_of_le_length (by omega)]
  · exact .inr ⟨by omega, by rw [List.take_append, List.take_of_length_le (by omega)]⟩

/-- Rows delivered, in terms of bytes: cutting the stream after `n` of the bytes the rows take up. -/
theorem delivers_cut {src fin : DcSource} {rows : List Row} (hd : Delivers src rows fin) :
    ∃ c : List Byte, src.stream = ofBytes c ++ fin.stream ∧ fin.header = src.header ∧
      (∀ t, Delivers ⟨ofBytes c ++ t, src.header⟩ rows ⟨t, src.header⟩) ∧
      ∀ n, n ≤ c.length → ∃ k d p, c.take n = d ++ p ∧ k ≤ rows.length ∧
        (∀ t, Delivers ⟨ofBytes d ++ t, src.header⟩ (rows.take k) ⟨t, src.header⟩) ∧
        (p = [] ∨ k < rows.length) ∧
        (8 ≤ p.length → DcSource.nextRow ⟨ofBytes p, src.header⟩ = (.err (.io .unexpectedEof), ⟨[], src.header⟩) ∧
          ∀ e t, DcSource.nextRow ⟨ofBytes p ++ .fail e :: t, src.header⟩ = (.err (.io e), ⟨t, src.header⟩)) ∧
        (∀ src'', Delivers src (rows.take (k + 1)) src'' → k < rows.length → n < src.stream.length - src''.stream.length) := by
  induction hd with
  | nil src =>
    refine ⟨[], rfl, rfl, fun t => .nil _, ?_⟩
    intro n hn
    refine ⟨0, [], [], by simp, by simp, fun t => .nil _, .inl rfl, ?_, ?_⟩
    · intro h; simp at h
    · intro _ _ h; simp at h
  | @cons src src' fin r rs h1 h2 ih =>
    obtain ⟨c1, e1, l1, hh, d1, x1⟩ := nextRow_ok h1
    obtain ⟨c2, e2, hf, d2, x2⟩ := ih
    rw [hh] at d2 x2 hf
    refine ⟨c1 ++ c2, by rw [e1, e2]; simp, hf, ?_, ?_⟩
    · intro t
      refine .cons ?_ (d2 t)
      rw [ofBytes_append, List.append_assoc]; exact d1 _
    · intro n hn
      rw [List.length_append] at hn
      rcases take_cases hn with ⟨hlt, p, q, hpq, hq, hp, ht⟩ | ⟨hle, ht⟩
      · refine ⟨0, [], p, by simpa using ht, by simp, fun t => .nil _, .inr (by simp), ?_, ?_⟩
        · intro h8
          exact x1 p q hpq hq h8
        · intro src'' hd'' _
          simp only [Nat.zero_add, List.take_succ_cons, List.take_zero] at hd''
          cases hd'' with
          | cons g1 g2 =>
            cases g2
            rw [h1] at g1
            simp only [Prod.mk.injEq, Res.ok.injEq, Option.some.injEq, true_and] at g1
            rw [e1, ← g1]
            simp; omega
      · obtain ⟨k, d, p, hc, hk, hdel, hpk, h8, hmax⟩ := x2 (n - c1.length) (by omega)
        refine ⟨k + 1, c1 ++ d, p, by rw [ht, hc]; simp, by simp; omega, ?_, ?_, h8, ?_⟩
        · intro t
          rw [List.take_succ_cons]
          refine .cons ?_ (hdel t)
          rw [ofBytes_append, List.append_assoc]; exact d1 _
        · rcases hpk with h | h
          · exact .inl h
          · right; simp; exact h
        · intro src'' hd'' hk'
          rw [List.take_succ_cons] at hd''
          cases hd'' with
          | cons g1 g2 =>
            rw [h1] at g1
            simp only [Prod.mk.injEq, Res.ok.injEq, Option.some.injEq, true_and] at g1
            subst g1
            have := hmax _ g2 (by simpa using hk')
            rw [e1]
            simp only [List.length_append, ofBytes_length]
            omega

end Chopper
