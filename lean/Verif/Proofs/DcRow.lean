import Verif.Proofs.Dc6
import Verif.Spec.DcRow

/-!
# Proofs about rows of DC files: exactly which bytes are read as which row, and which crash the reader
-/
namespace Chopper
open Spec

/-! ## Crashes of readers -/

/-- `x` panics exactly on streams that begin with bytes in `P`, and never diverges. -/
structure PanicsOn {α : Type} (x : Rd α) (P : List Byte → Prop) : Prop where
  there : ∀ c, P c → ∀ t, ∃ s, x (ofBytes c ++ t) = (.panic, s)
  only : ∀ s s', x s = (.panic, s') → ∃ c t, s = ofBytes c ++ t ∧ P c

namespace PanicsOn
variable {α β : Type}

theorem pure (a : α) : PanicsOn (Rd.pure a) (fun _ => False) := ⟨fun _ h => h.elim, fun s s' h => by simp [Rd.pure] at h⟩
theorem err (e : Err) : PanicsOn (Rd.err e : Rd α) (fun _ => False) := ⟨fun _ h => h.elim, fun s s' h => by simp [Rd.err] at h⟩
theorem panic : PanicsOn (Rd.panic : Rd α) (fun c => c = []) := ⟨fun c h t => ⟨t, by subst h; rfl⟩, fun s s' _ => ⟨[], s, rfl, rfl⟩⟩

theorem readN : ∀ n, PanicsOn (readN n) (fun _ => False)
  | 0 => pure _
  | n + 1 => ⟨fun _ h => h.elim, fun s s' h => by
      rw [Chopper.readN] at h
      match s, h with
      | [], h => simp at h
      | .fail e :: s, h => simp at h
      | .byte b :: s, h =>
        simp only [Rd.bind] at h
        rcases hr : Chopper.readN n s with ⟨_ | _ | _ | _, s1⟩ <;> rw [hr] at h <;> simp [Rd.pure] at h
        exact ((PanicsOn.readN n).only _ _ hr).elim fun c hc => hc.elim fun t ht => ht.2.elim⟩

theorem bind {x : Rd α} {f : α → Rd β} {P : List Byte → Prop} {Q : α → List Byte → Prop} (hg : Good x) (hx : PanicsOn x P)
    (hf : ∀ a, PanicsOn (f a) (Q a)) : PanicsOn (Rd.bind x f) (fun c => P c ∨ ∃ a c1 c2, Uses x a c1 ∧ Q a c2 ∧ c = c1 ++ c2) := by
  constructor
  · rintro c (h | ⟨a, c1, c2, hu, hq, rfl⟩) t
    · obtain ⟨s, hs⟩ := hx.there c h t
      exact ⟨s, by simp [Rd.bind, hs]⟩
    · obtain ⟨s, hs⟩ := (hf a).there c2 hq t
      refine ⟨s, ?_⟩
      rw [ofBytes_append, List.append_assoc, Rd.bind_of_ok (hu.here _)]
      exact hs
  · intro s s' h
    unfold Rd.bind at h
    rcases hr : x s with ⟨a | e | _ | _, s1⟩ <;> rw [hr] at h
    · obtain ⟨c1, rfl, hu⟩ := hg s a s1 hr
      obtain ⟨c2, t, h2, hq⟩ := (hf a).only _ _ h
      exact ⟨c1 ++ c2, t, by rw [h2]; simp [ofBytes_append], .inr ⟨a, c1, c2, hu, hq, rfl⟩⟩
    · cases h
    · obtain ⟨c, t, h1, h2⟩ := hx.only _ _ hr
      exact ⟨c, t, h1, .inl h2⟩
    · cases h

theorem congr {x : Rd α} {P Q : List Byte → Prop} (h : PanicsOn x P) (e : ∀ c, P c ↔ Q c) : PanicsOn x Q :=
  ⟨fun c hc => h.there c ((e c).2 hc), fun s s' hs => (h.only s s' hs).elim fun c hc => hc.elim fun t ht => ⟨c, t, ht.1, (e c).1 ht.2⟩⟩

end PanicsOn

/-- What a reader uses to read a value is unique. -/
theorem Uses.inj {α : Type} {x : Rd α} {a b : α} {c d : List Byte} (h1 : Uses x a c) (h2 : Uses x b d) (s t : Stream) (h : ofBytes c ++ s = ofBytes d ++ t) :
    a = b ∧ s = t := by
  have e1 := h1.here s
  rw [h, h2.here t] at e1
  simp only [Prod.mk.injEq, Res.ok.injEq] at e1
  exact ⟨e1.1.symm, e1.2.symm⟩

/-- The bytes used are determined by a successful reading. -/
theorem Good.uses {α : Type} {x : Rd α} (h : Good x) {a : α} {c : List Byte} (hc : ∀ t, x (ofBytes c ++ t) = (.ok a, t)) : Uses x a c := by
  obtain ⟨d, hd, hu⟩ := h _ _ _ (hc [])
  have : c = d := ofBytes_inj (by simpa using hd)
  exact this ▸ hu

theorem uses_readN_iff {n : Nat} {a c : List Byte} : Uses (readN n) a c ↔ a = c ∧ c.length = n := by
  constructor
  · intro h
    obtain ⟨h1, h2⟩ := readN_inv _ _ _ _ (h.here [])
    have := ofBytes_inj (by simpa using h1)
    exact ⟨this.symm, this ▸ h2⟩
  · rintro ⟨rfl, rfl⟩; exact uses_readN _

theorem uses_pure_iff {α : Type} {a b : α} {c : List Byte} : Uses (Rd.pure a) b c ↔ a = b ∧ c = [] := by
  constructor
  · intro h
    have := h.here []
    simp only [Rd.pure, Prod.mk.injEq, Res.ok.injEq, List.append_nil] at this
    exact ⟨this.1, ofBytes_inj this.2⟩
  · rintro ⟨rfl, rfl⟩; exact uses_pure _

theorem uses_bind_iff {α β : Type} {x : Rd α} {f : α → Rd β} (hx : Good x) (hf : ∀ a, Good (f a)) {b : β} {c : List Byte} :
    Uses (Rd.bind x f) b c ↔ ∃ a c1 c2, Uses x a c1 ∧ Uses (f a) b c2 ∧ c = c1 ++ c2 := by
  constructor
  · intro h
    obtain ⟨a, s1, h1, h2⟩ := Rd.bind_ok_inv (h.here [])
    obtain ⟨c1, e1, u1⟩ := hx _ _ _ h1
    obtain ⟨c2, e2, u2⟩ := hf a _ _ _ h2
    refine ⟨a, c1, c2, u1, u2, ofBytes_inj ?_⟩
    rw [List.append_nil] at e1 e2
    rw [e1, e2, ofBytes_append]
  · rintro ⟨a, c1, c2, h1, h2, rfl⟩; exact h1.bind h2

theorem uses_err_iff {α : Type} {e : Err} {a : α} {c : List Byte} : ¬ Uses (Rd.err e) a c := fun h => by
  have := h.here []; simp [Rd.err] at this

theorem uses_panic_iff {α : Type} {a : α} {c : List Byte} : ¬ Uses Rd.panic a c := fun h => by
  have := h.here []; simp [Rd.panic] at this

theorem uses_readU_iff {k n : Nat} {c : List Byte} : Uses (readU k) n c ↔ c = beBytes k n ∧ n < 256 ^ k := by
  constructor
  · intro h
    obtain ⟨h1, h2⟩ := readU_inv (h.here [])
    exact ⟨ofBytes_inj (by simpa using h1), h2⟩
  · rintro ⟨rfl, h⟩; exact uses_readU h

theorem utf8_iff {bs : List Byte} {s : Str} : utf8Decode bs = some s ↔ bs = utf8Encode s := by
  constructor
  · intro h
    have : rdUtf8 bs [] = (.ok s, []) := by simp [rdUtf8, h, Rd.pure]
    exact (rdUtf8_inv this).1
  · rintro rfl; exact utf8Decode_encode s

theorem uses_utf8_iff {bs : List Byte} {s : Str} {c : List Byte} : Uses (rdUtf8 bs) s c ↔ bs = utf8Encode s ∧ c = [] := by
  unfold rdUtf8
  cases h : utf8Decode bs with
  | none =>
    refine ⟨fun h => (uses_panic_iff h).elim, fun h' => ?_⟩
    rw [h'.1, utf8Decode_encode] at h; cases h
  | some s' =>
    rw [uses_pure_iff, ← utf8_iff, h, Option.some.injEq]

theorem panics_utf8 (bs : List Byte) : PanicsOn (rdUtf8 bs) (fun c => NotUtf8 bs ∧ c = []) := by
  unfold rdUtf8
  cases h : utf8Decode bs with
  | none =>
    refine PanicsOn.panic.congr fun c => ⟨fun hc => ⟨fun s hs => ?_, hc⟩, fun h => h.2⟩
    rw [hs, utf8Decode_encode] at h; cases h
  | some s => exact (PanicsOn.pure s).congr fun c => ⟨False.elim, fun hc => hc.1 s (utf8_iff.1 h)⟩

theorem panics_readU (k : Nat) : PanicsOn (readU k) (fun _ => False) :=
  (PanicsOn.bind (Good.readN k) (PanicsOn.readN k) fun _ => PanicsOn.pure _).congr fun c => by simp

/-- Never panics. -/
theorem PanicsOn.bind' {α β : Type} {x : Rd α} {f : α → Rd β} {Q : α → List Byte → Prop} (hg : Good x) (hx : PanicsOn x (fun _ => False))
    (hf : ∀ a, PanicsOn (f a) (Q a)) : PanicsOn (Rd.bind x f) (fun c => ∃ a c1 c2, Uses x a c1 ∧ Q a c2 ∧ c = c1 ++ c2) :=
  (PanicsOn.bind hg hx hf).congr fun c => by simp

/-! ## Texts and values -/

theorem panics_readN_utf8 (n : Nat) : PanicsOn (Rd.bind (readN n) rdUtf8) (fun c => NotUtf8 c ∧ c.length = n) :=
  (PanicsOn.bind' (Good.readN n) (PanicsOn.readN n) panics_utf8).congr fun c => by
    constructor
    · rintro ⟨a, c1, c2, h1, ⟨h2, rfl⟩, rfl⟩
      obtain ⟨rfl, rfl⟩ := uses_readN_iff.1 h1
      simpa using h2
    · rintro ⟨h, rfl⟩
      exact ⟨c, c, [], uses_readN c, ⟨h, rfl⟩, by simp⟩

theorem uses_readN_utf8 {n : Nat} {s : Str} {c : List Byte} : Uses (Rd.bind (readN n) rdUtf8) s c ↔ c = utf8Encode s ∧ c.length = n := by
  rw [uses_bind_iff (Good.readN n) Good.utf8]
  constructor
  · rintro ⟨a, c1, c2, h1, h2, rfl⟩
    obtain ⟨rfl, rfl⟩ := uses_readN_iff.1 h1
    obtain ⟨rfl, rfl⟩ := uses_utf8_iff.1 h2
    simp
  · rintro ⟨rfl, rfl⟩
    exact ⟨_, _, [], uses_readN _, uses_utf8_iff.2 ⟨rfl, rfl⟩, by simp⟩

/-- The length part of a stored text. -/
def textLen : Rd Nat :=
  Rd.bind (readU 2) fun short => if short = 2 ^ 16 - 1 then readU 4 else Rd.pure (if short < 2 ^ 15 then short else short + (2 ^ 32 - 2 ^ 16))

theorem readString_eq : readString = Rd.bind textLen fun n => Rd.bind (readN n) rdUtf8 := by
  funext s
  unfold readString textLen Rd.bind
  rcases readU 2 s with ⟨_ | _ | _ | _, s1⟩ <;> rfl

theorem good_textLen : Good textLen := (Good.readU 2).bind fun n => by split; exact Good.readU 4; exact Good.pure _

theorem panics_textLen : PanicsOn textLen (fun _ => False) :=
  (PanicsOn.bind' (Q := fun _ _ => False) (Good.readU 2) (panics_readU 2) fun n => by split; exact panics_readU 4; exact PanicsOn.pure _).congr fun c => by simp

theorem marker_bytes : beBytes 2 (2 ^ 16 - 1) = [0xFF, 0xFF] := by decide

theorem uses_textLen {n : Nat} {c : List Byte} : Uses textLen n c ↔
    (n < 2 ^ 15 ∧ c = bigEndian 2 n) ∨ (n < 2 ^ 32 ∧ c = [0xFF, 0xFF] ++ bigEndian 4 n) ∨
      (2 ^ 32 - 2 ^ 15 ≤ n ∧ n < 2 ^ 32 - 1 ∧ c = bigEndian 2 (n - (2 ^ 32 - 2 ^ 16))) := by
  unfold textLen
  rw [uses_bind_iff (Good.readU 2) (fun a => by split; exact Good.readU 4; exact Good.pure _)]
  simp only [← beBytes_eq]
  constructor
  · rintro ⟨a, c1, c2, h1, h2, rfl⟩
    obtain ⟨rfl, ha⟩ := uses_readU_iff.1 h1
    split at h2
    · next hm =>
      obtain ⟨rfl, hn⟩ := uses_readU_iff.1 h2
      subst hm
      exact .inr (.inl ⟨hn, by rw [marker_bytes]⟩)
    · next hm =>
      obtain ⟨rfl, rfl⟩ := uses_pure_iff.1 h2
      rw [List.append_nil]
      split
      · next hl => exact .inl ⟨hl, rfl⟩
      · next hl =>
        refine .inr (.inr ⟨by omega, by omega, ?_⟩)
        rw [Nat.add_sub_cancel]
  · rintro (⟨h, rfl⟩ | ⟨h, rfl⟩ | ⟨h1, h2, rfl⟩)
    · refine ⟨n, _, [], uses_readU (by omega), ?_, by simp⟩
      rw [if_neg (by omega), if_pos h]
      exact uses_pure _
    · refine ⟨2 ^ 16 - 1, _, beBytes 4 n, uses_readU (by decide), ?_, by rw [marker_bytes]⟩
      rw [if_pos rfl]
      exact uses_readU h
    · refine ⟨n - (2 ^ 32 - 2 ^ 16), _, [], uses_readU (by omega), ?_, by simp⟩
      rw [if_neg (by omega), if_neg (by omega), Nat.sub_add_cancel (by omega)]
      exact uses_pure _

theorem storedText_iff {enc bs : List Byte} : StoredText enc bs ↔ ∃ c, Uses textLen bs.length c ∧ enc = c ++ bs := by
  constructor
  · rintro (h | h | ⟨h1, h2⟩)
    · exact ⟨_, uses_textLen.2 (.inl ⟨h, rfl⟩), rfl⟩
    · exact ⟨_, uses_textLen.2 (.inr (.inl ⟨h, rfl⟩)), rfl⟩
    · exact ⟨_, uses_textLen.2 (.inr (.inr ⟨h1, h2, rfl⟩)), rfl⟩
  · rintro ⟨c, h, rfl⟩
    rcases uses_textLen.1 h with ⟨h0, rfl⟩ | ⟨h0, rfl⟩ | ⟨h1, h2, rfl⟩
    · exact .short h0
    · exact .long h0
    · exact .negative h1 h2

theorem uses_readString_iff {s : Str} {c : List Byte} : Uses readString s c ↔ StoredText c (utf8Encode s) := by
  rw [readString_eq, uses_bind_iff good_textLen (fun n => (Good.readN n).bind Good.utf8), storedText_iff]
  constructor
  · rintro ⟨n, c1, c2, h1, h2, rfl⟩
    obtain ⟨rfl, rfl⟩ := uses_readN_utf8.1 h2
    exact ⟨c1, h1, rfl⟩
  · rintro ⟨c1, h1, rfl⟩
    exact ⟨_, c1, _, h1, uses_readN_utf8.2 ⟨rfl, rfl⟩, rfl⟩

/-- A stored text that is not UTF-8. -/
def BadText (c : List Byte) : Prop := ∃ bs, StoredText c bs ∧ NotUtf8 bs

theorem panics_readString : PanicsOn readString BadText := by
  rw [readString_eq]
  refine (PanicsOn.bind' good_textLen panics_textLen panics_readN_utf8).congr fun c => ?_
  constructor
  · rintro ⟨n, c1, c2, h1, ⟨h2, rfl⟩, rfl⟩
    exact ⟨c2, storedText_iff.2 ⟨c1, h1, rfl⟩, h2⟩
  · rintro ⟨bs, h1, h2⟩
    obtain ⟨c1, h3, rfl⟩ := storedText_iff.1 h1
    exact ⟨_, c1, bs, h3, ⟨h2, rfl⟩, rfl⟩

theorem uses_num {k : Nat} {mk : Nat → FieldValue} {v : FieldValue} {c : List Byte} :
    Uses (Rd.bind (readU k) fun n => Rd.pure (mk n)) v c ↔ ∃ n, n < 256 ^ k ∧ c = bigEndian k n ∧ v = mk n := by
  rw [uses_bind_iff (Good.readU k) fun _ => Good.pure _]
  simp only [← beBytes_eq]
  constructor
  · rintro ⟨n, c1, c2, h1, h2, rfl⟩
    obtain ⟨rfl, h⟩ := uses_readU_iff.1 h1
    obtain ⟨rfl, rfl⟩ := uses_pure_iff.1 h2
    exact ⟨n, h, by simp, rfl⟩
  · rintro ⟨n, h, rfl, rfl⟩
    exact ⟨n, _, [], uses_readU h, uses_pure _, by simp⟩

theorem uses_bv {k w : Nat} {mk : BitVec w → FieldValue} {v : FieldValue} {c : List Byte} (hw : 256 ^ k = 2 ^ w) :
    Uses (Rd.bind (readU k) fun n => Rd.pure (mk (BitVec.ofNat w n))) v c ↔ ∃ x : BitVec w, c = bigEndian k x.toNat ∧ v = mk x := by
  rw [uses_num (mk := fun n => mk (BitVec.ofNat w n))]
  constructor
  · rintro ⟨n, h, rfl, rfl⟩
    exact ⟨BitVec.ofNat w n, by rw [BitVec.toNat_ofNat, Nat.mod_eq_of_lt (by omega)], rfl⟩
  · rintro ⟨x, rfl, rfl⟩
    exact ⟨x.toNat, by rw [hw]; exact x.isLt, rfl, by simp⟩

theorem uses_readValue_iff {t : FieldType} {v : FieldValue} {c : List Byte} : Uses (readValue t) v c ↔ StoredValue t c v := by
  cases t <;> unfold readValue
  case boolean => exact ⟨fun h => (uses_err_iff h).elim, fun h => nomatch h⟩
  case byteBuf => exact ⟨fun h => (uses_err_iff h).elim, fun h => nomatch h⟩
  case string =>
    rw [uses_bind_iff Good.readString fun _ => Good.pure _]
    constructor
    · rintro ⟨n, c1, c2, h1, h2, rfl⟩
      obtain ⟨rfl, rfl⟩ := uses_pure_iff.1 h2
      rw [List.append_nil]
      exact .string (uses_readString_iff.1 h1)
    · rintro (_ | _)
      next s h => exact ⟨s, c, [], uses_readString_iff.2 h, uses_pure _, by simp⟩
  all_goals
    refine (uses_bv (by decide)).trans ⟨?_, ?_⟩
    · rintro ⟨x, rfl, rfl⟩; constructor
    · rintro (_ | _); exact ⟨_, rfl, rfl⟩

theorem panics_readValue (t : FieldType) : PanicsOn (readValue t) (fun c => t = .string ∧ BadText c) := by
  cases t <;> unfold readValue
  case boolean => exact (PanicsOn.err _).congr fun c => by simp
  case byteBuf => exact (PanicsOn.err _).congr fun c => by simp
  case string => exact (PanicsOn.bind Good.readString panics_readString fun _ => PanicsOn.pure _).congr fun c => by simp
  all_goals exact (PanicsOn.bind' (Good.readU _) (panics_readU _) fun _ => PanicsOn.pure _).congr fun c => by simp

/-! ## Fields -/

/-- Reading the fields one after the other: a type and a null flag each. -/
def readCols : List (FieldType × Bool) → Rd (List FieldValue)
  | [] => Rd.pure []
  | (t, null) :: cs => Rd.bind (if null then Rd.pure .none else readValue t) fun v => Rd.bind (readCols cs) fun vs => Rd.pure (v :: vs)

/-- The lowest `j` bits. -/
def lowBits : Nat → Byte → List Bool
  | 0, _ => []
  | j + 1, b => (b &&& 1 != 0) :: lowBits j (b >>> 1)

theorem Rd.bind_assoc {α β γ : Type} (x : Rd α) (f : α → Rd β) (g : β → Rd γ) : Rd.bind (Rd.bind x f) g = Rd.bind x fun a => Rd.bind (f a) g := by
  funext s
  unfold Rd.bind
  rcases x s with ⟨_ | _ | _ | _, s1⟩ <;> rfl

theorem Rd.bind_congr {α β : Type} (x : Rd α) {f g : α → Rd β} (h : ∀ a, f a = g a) : Rd.bind x f = Rd.bind x g := by
  congr; funext a; exact h a

theorem readGroup_cols (types : List FieldType) : ∀ (j : Nat) (b : Byte) (acc : List FieldValue), acc.length < types.length ∨ j = 0 →
    readGroup types j b acc = Rd.bind (readCols ((types.drop acc.length).zip (lowBits j b))) fun vs => Rd.pure (acc ++ vs)
  | 0, b, acc, _ => by
    simp only [readGroup, lowBits, List.zip_nil_right, readCols, Rd.bind_pure_left, List.append_nil]
  | j + 1, b, acc, h => by
    have hlt : acc.length < types.length := by omega
    rw [readGroup, List.getElem?_eq_getElem hlt, List.drop_eq_getElem_cons hlt, lowBits, List.zip_cons_cons, readCols, Rd.bind_assoc]
    have e : (if (b &&& 1) = 0 then readValue types[acc.length] else Rd.pure .none) = (if (b &&& 1 != 0) = true then Rd.pure .none else readValue types[acc.length]) := by
      by_cases hb : b &&& 1 = 0 <;> simp [hb]
    simp only
    rw [e]
    refine Rd.bind_congr _ fun v => ?_
    rw [Rd.bind_assoc]
    simp only [Rd.bind_pure_left]
    split
    · next hl =>
      rw [List.drop_eq_nil_of_le hl]
      simp [readCols, Rd.bind_pure_left]
    · next hl =>
      rw [readGroup_cols types j (b >>> 1) (acc ++ [v]) (by simp; omega)]
      simp

theorem readCols_append : ∀ (a b : List (FieldType × Bool)), readCols (a ++ b) = Rd.bind (readCols a) fun vs => Rd.bind (readCols b) fun ws => Rd.pure (vs ++ ws)
  | [], b => by
    simp only [List.nil_append, readCols, Rd.bind_pure_left]
    funext s; unfold Rd.bind; rcases readCols b s with ⟨_ | _ | _ | _, s1⟩ <;> rfl
  | (t, n) :: a, b => by
    rw [List.cons_append, readCols, readCols_append a b, readCols]
    simp only [Rd.bind_assoc, Rd.bind_pure_left, List.cons_append]

theorem lowBits_length (j : Nat) (b : Byte) : (lowBits j b).length = j := by
  induction j generalizing b with
  | zero => rfl
  | succ j ih => simp [lowBits, ih]

theorem readCols_length : ∀ (cs : List (FieldType × Bool)) (s s' : Stream) (vs : List FieldValue), readCols cs s = (.ok vs, s') → vs.length = cs.length
  | [], s, s', vs, h => by
    simp only [readCols, Rd.pure, Prod.mk.injEq, Res.ok.injEq] at h
    rw [← h.1]; rfl
  | (t, n) :: cs, s, s', vs, h => by
    rw [readCols] at h
    obtain ⟨v, s1, _, h2⟩ := Rd.bind_ok_inv h
    obtain ⟨ws, s2, h3, h4⟩ := Rd.bind_ok_inv h2
    simp only [Rd.pure, Prod.mk.injEq, Res.ok.injEq] at h4
    rw [← h4.1, List.length_cons, List.length_cons, readCols_length cs _ _ _ h3]

theorem Rd.bind_congr' {α β : Type} (x : Rd α) {f g : α → Rd β} (h : ∀ s a s', x s = (.ok a, s') → f a = g a) : Rd.bind x f = Rd.bind x g := by
  funext s
  unfold Rd.bind
  rcases hx : x s with ⟨a | _ | _ | _, s1⟩
  · simp only; rw [h _ _ _ hx]
  · rfl
  · rfl
  · rfl

theorem readGroups_cols (types : List FieldType) : ∀ (bs : List Byte) (acc : List FieldValue), acc.length ≤ types.length →
    8 * bs.length < types.length - acc.length + 8 →
    readGroups types bs acc = Rd.bind (readCols ((types.drop acc.length).zip (bs.flatMap (lowBits 8)))) fun vs => Rd.pure (acc ++ vs)
  | [], acc, _, _ => by
    simp only [readGroups, List.flatMap_nil, List.zip_nil_right, readCols, Rd.bind_pure_left, List.append_nil]
  | b :: bs, acc, hle, h => by
    simp only [List.length_cons] at h
    have hz : (types.drop acc.length).zip ((b :: bs).flatMap (lowBits 8)) =
        (types.drop acc.length).zip (lowBits 8 b) ++ (types.drop (acc.length + 8)).zip (bs.flatMap (lowBits 8)) := by
      rw [List.flatMap_cons]
      conv => lhs; rw [← List.take_append_drop 8 (types.drop acc.length)]
      by_cases h8 : 8 ≤ types.length - acc.length
      · rw [List.zip_append (by rw [List.length_take, List.length_drop, lowBits_length]; omega), List.drop_drop]
        congr 1
        conv => rhs; rw [← List.take_append_drop 8 (types.drop acc.length), ← List.append_nil (lowBits 8 b)]
        rw [List.zip_append (by rw [List.length_take, List.length_drop, lowBits_length]; omega)]
        simp
      · have : bs = [] := List.eq_nil_of_length_eq_zero (by omega)
        subst this
        rw [List.take_append_drop]
        simp
    rw [readGroups, readGroup_cols types 8 b acc (by omega), hz, readCols_append, Rd.bind_assoc, Rd.bind_assoc]
    refine Rd.bind_congr' _ fun s vs s' hv => ?_
    have hl := readCols_length _ _ _ _ hv
    rw [List.length_zip, List.length_drop, lowBits_length] at hl
    rw [Rd.bind_pure_left, Rd.bind_assoc, readGroups_cols types bs (acc ++ vs) (by rw [List.length_append]; omega) (by rw [List.length_append]; omega)]
    have hd : bs = [] ∨ vs.length = 8 := by
      by_cases hb : bs = []
      · exact .inl hb
      · have := List.length_pos_iff.2 hb
        exact .inr (by omega)
    rcases hd with rfl | hd
    · simp [readCols, Rd.bind_pure_left]
    · rw [List.length_append, hd]
      simp only [Rd.bind_pure_left, List.append_assoc]

/-- Values and their bytes, one after the other. -/
inductive Cols : List (FieldType × Bool) → List (List Byte) → List FieldValue → Prop
  | nil : Cols [] [] []
  | null {t cs ps vs} : Cols cs ps vs → Cols ((t, true) :: cs) ([] :: ps) (.none :: vs)
  | value {t p v cs ps vs} : StoredValue t p v → Cols cs ps vs → Cols ((t, false) :: cs) (p :: ps) (v :: vs)

theorem good_readCols : ∀ cs, Good (readCols cs)
  | [] => Good.pure _
  | (t, n) :: cs => Good.bind (by split; exact Good.pure _; exact Good.readValue _) fun _ => (good_readCols cs).bind fun _ => Good.pure _

theorem uses_readCols_iff {cs : List (FieldType × Bool)} {vs : List FieldValue} {c : List Byte} :
    Uses (readCols cs) vs c ↔ ∃ ps, Cols cs ps vs ∧ c = ps.flatten := by
  induction cs generalizing vs c with
  | nil =>
    rw [readCols, uses_pure_iff]
    constructor
    · rintro ⟨rfl, rfl⟩; exact ⟨[], .nil, rfl⟩
    · rintro ⟨ps, h, rfl⟩; cases h; exact ⟨rfl, rfl⟩
  | cons x cs ih =>
    obtain ⟨t, n⟩ := x
    rw [readCols, uses_bind_iff (by split; exact Good.pure _; exact Good.readValue _) fun _ => (good_readCols cs).bind fun _ => Good.pure _]
    constructor
    · rintro ⟨v, c1, c2, h1, h2, rfl⟩
      rw [uses_bind_iff (good_readCols cs) fun _ => Good.pure _] at h2
      obtain ⟨ws, c3, c4, h3, h4, rfl⟩ := h2
      obtain ⟨rfl, rfl⟩ := uses_pure_iff.1 h4
      obtain ⟨ps, h5, rfl⟩ := ih.1 h3
      cases n with
      | true =>
        rw [if_pos rfl] at h1
        obtain ⟨rfl, rfl⟩ := uses_pure_iff.1 h1
        exact ⟨_, .null h5, by simp⟩
      | false =>
        rw [if_neg (by simp)] at h1
        exact ⟨_, .value (uses_readValue_iff.1 h1) h5, by simp⟩
    · rintro ⟨ps, h, rfl⟩
      cases h with
      | @null _ _ ps vs h => exact ⟨.none, [], ps.flatten, uses_pure _, by simpa using (ih.2 ⟨ps, h, rfl⟩).bind (f := fun vs => Rd.pure (.none :: vs)) (uses_pure _), by simp⟩
      | @value _ p v _ ps vs h1 h =>
        exact ⟨v, p, ps.flatten, uses_readValue_iff.2 h1, by simpa using (ih.2 ⟨ps, h, rfl⟩).bind (f := fun vs => Rd.pure (v :: vs)) (uses_pure _), by simp⟩

/-- Fields up to a text that is not UTF-8. -/
def BadCols (cs : List (FieldType × Bool)) (c : List Byte) : Prop :=
  ∃ (i : Nat) (ps : List (List Byte)) (vs : List FieldValue) (enc : List Byte), Cols (cs.take i) ps vs ∧ cs[i]? = some (.string, false) ∧ BadText enc ∧ c = ps.flatten ++ enc

theorem badCols_cons {t : FieldType} {n : Bool} {cs : List (FieldType × Bool)} {c : List Byte} : BadCols ((t, n) :: cs) c ↔
    (t = .string ∧ n = false ∧ BadText c) ∨ (n = true ∧ BadCols cs c) ∨ (n = false ∧ ∃ p v d, StoredValue t p v ∧ BadCols cs d ∧ c = p ++ d) := by
  constructor
  · rintro ⟨i, ps, vs, enc, h1, h2, h3, rfl⟩
    cases i with
    | zero =>
      simp only [List.take_zero] at h1
      cases h1
      simp only [List.getElem?_cons_zero, Option.some.injEq, Prod.mk.injEq] at h2
      exact .inl ⟨h2.1, h2.2, by simpa using h3⟩
    | succ i =>
      rw [List.take_succ_cons] at h1
      rw [List.getElem?_cons_succ] at h2
      cases h1 with
      | null h1 => exact .inr (.inl ⟨rfl, i, _, _, enc, h1, h2, h3, by simp⟩)
      | value hv h1 => exact .inr (.inr ⟨rfl, _, _, _, hv, ⟨i, _, _, enc, h1, h2, h3, rfl⟩, by simp⟩)
  · rintro (⟨rfl, rfl, h⟩ | ⟨rfl, i, ps, vs, enc, h1, h2, h3, rfl⟩ | ⟨rfl, p, v, d, hv, ⟨i, ps, vs, enc, h1, h2, h3, rfl⟩, rfl⟩)
    · exact ⟨0, [], [], c, .nil, rfl, h, by simp⟩
    · exact ⟨i + 1, _, _, enc, .null h1, h2, h3, by simp⟩
    · exact ⟨i + 1, _, _, enc, .value hv h1, h2, h3, by simp⟩

theorem panics_readCols : ∀ cs, PanicsOn (readCols cs) (BadCols cs)
  | [] => (PanicsOn.pure _).congr fun c => ⟨False.elim, by rintro ⟨i, ps, vs, enc, h1, h2, h3, rfl⟩; simp at h2⟩
  | (t, n) :: cs => by
    have ih : PanicsOn (Rd.bind (readCols cs) fun vs => Rd.pure vs) (BadCols cs) := by
      refine (PanicsOn.bind (good_readCols cs) (panics_readCols cs) fun _ => PanicsOn.pure _).congr fun c => by simp
    rw [readCols]
    have ih' : ∀ v : FieldValue, PanicsOn (Rd.bind (readCols cs) fun vs => Rd.pure (v :: vs)) (BadCols cs) := fun v =>
      (PanicsOn.bind (good_readCols cs) (panics_readCols cs) fun _ => PanicsOn.pure _).congr fun c => by simp
    cases n with
    | true =>
      rw [if_pos rfl, Rd.bind_pure_left]
      refine (ih' _).congr fun c => ?_
      rw [badCols_cons]; simp
    | false =>
      rw [if_neg (by simp)]
      refine (PanicsOn.bind (Good.readValue t) (panics_readValue t) ih').congr fun c => ?_
      rw [badCols_cons]
      simp only [uses_readValue_iff, true_and, Bool.false_eq_true, false_and, false_or]
      constructor
      · rintro (⟨h1, h2⟩ | ⟨v, p, d, h1, h2, h3⟩)
        · exact .inl ⟨h1, h2⟩
        · exact .inr ⟨p, v, d, h1, h2, h3⟩
      · rintro (⟨h1, h2⟩ | ⟨p, v, d, h1, h2, h3⟩)
        · exact .inl ⟨h1, h2⟩
        · exact .inr ⟨v, p, d, h1, h2, h3⟩

/-! ## The bitmap -/

theorem lowBits_get : ∀ (j : Nat) (b : Byte) (i : Nat), i < j → (lowBits j b)[i]? = some (b.getLsbD i)
  | j + 1, b, 0, _ => by
    rw [lowBits, List.getElem?_cons_zero, Option.some.injEq]
    have : (b &&& 1 = 0) ↔ b.getLsbD 0 = false := by
      have := bits_low (m := b.toNat)
      rw [BitVec.ofNat_toNat, BitVec.setWidth_eq] at this
      rw [this, BitVec.getLsbD, Nat.testBit_zero]
      simp
    cases hb : b.getLsbD 0 with
    | false => rw [this.2 hb]; rfl
    | true =>
      have : ¬ (b &&& 1 = 0) := fun h => by rw [this.1 h] at hb; cases hb
      simpa using this
  | j + 1, b, i + 1, h => by
    rw [lowBits, List.getElem?_cons_succ, lowBits_get j _ i (by omega), BitVec.getLsbD_ushiftRight, Nat.add_comm]

theorem flatBits_get : ∀ (bs : List Byte) (i : Nat), i < 8 * bs.length → (bs.flatMap (lowBits 8))[i]? = some (bitOf bs i)
  | [], i, h => by simp at h
  | b :: bs, i, h => by
    rw [List.flatMap_cons]
    by_cases hi : i < 8
    · rw [List.getElem?_append_left (by rw [lowBits_length]; exact hi), lowBits_get 8 b i hi]
      unfold bitOf
      rw [Nat.div_eq_of_lt hi, Nat.mod_eq_of_lt hi]; rfl
    · rw [List.getElem?_append_right (by rw [lowBits_length]; omega), lowBits_length, flatBits_get bs (i - 8) (by simp at h; omega)]
      unfold bitOf
      have e1 : i / 8 = (i - 8) / 8 + 1 := by omega
      have e2 : i % 8 = (i - 8) % 8 := by omega
      rw [e1, e2, List.getD_cons_succ]

theorem flatBits_length (bs : List Byte) : (bs.flatMap (lowBits 8)).length = 8 * bs.length := by
  induction bs with
  | nil => rfl
  | cons b bs ih => rw [List.flatMap_cons, List.length_append, lowBits_length, ih, List.length_cons]; omega

theorem cols_length {cs : List (FieldType × Bool)} {ps : List (List Byte)} {vs : List FieldValue} (h : Cols cs ps vs) :
    ps.length = cs.length ∧ vs.length = cs.length := by
  induction h with
  | nil => simp
  | null _ ih => simp [ih]
  | value _ _ ih => simp [ih]

theorem cols_iff : ∀ {cs : List (FieldType × Bool)} {ps : List (List Byte)} {vs : List FieldValue}, Cols cs ps vs ↔
    ps.length = cs.length ∧ vs.length = cs.length ∧ ∀ (i : Nat) t n p v, cs[i]? = some (t, n) → ps[i]? = some p → vs[i]? = some v →
      if n then p = [] ∧ v = .none else StoredValue t p v := by
  intro cs ps vs
  constructor
  · intro h
    refine ⟨(cols_length h).1, (cols_length h).2, ?_⟩
    induction h with
    | nil => intro i t n p v h; simp at h
    | null h ih =>
      intro i t n p v h1 h2 h3
      cases i with
      | zero => simp at h1 h2 h3; simp [← h1.2, h2, h3]
      | succ i => exact ih i t n p v h1 h2 h3
    | value hv h ih =>
      intro i t n p v h1 h2 h3
      cases i with
      | zero => simp at h1 h2 h3; obtain ⟨rfl, rfl⟩ := h1; subst h2 h3; simpa using hv
      | succ i => exact ih i t n p v h1 h2 h3
  · rintro ⟨h1, h2, h3⟩
    induction cs generalizing ps vs with
    | nil =>
      rw [List.eq_nil_of_length_eq_zero h1, List.eq_nil_of_length_eq_zero h2]
      exact .nil
    | cons x cs ih =>
      obtain ⟨t, n⟩ := x
      match ps, vs, h1, h2, h3 with
      | p :: ps, v :: vs, h1, h2, h3 =>
        have h0 := h3 0 t n p v rfl rfl rfl
        have ht := ih (ps := ps) (vs := vs) (by simpa using h1) (by simpa using h2) fun i t n p v a b c => h3 (i + 1) t n p v a b c
        cases n with
        | true => obtain ⟨rfl, rfl⟩ := by simpa using h0
                  exact .null ht
        | false => exact .value (by simpa using h0) ht

theorem zip_take {α β : Type} (a : List α) (b : List β) (i : Nat) : (a.zip b).take i = (a.take i).zip (b.take i) := by
  induction a generalizing b i with
  | nil => simp
  | cons x a ih =>
    cases b with
    | nil => simp
    | cons y b => cases i with
      | zero => simp
      | succ i => simp [ih]

theorem cols_fields {types : List FieldType} {bitmap : List Byte} (hb : types.length ≤ 8 * bitmap.length) (i : Nat) {ps : List (List Byte)} {vs : List FieldValue} :
    Cols ((types.zip (bitmap.flatMap (lowBits 8))).take i) ps vs ↔ StoredFields (types.take i) bitmap ps vs := by
  rw [cols_iff, StoredFields]
  have hl : ((types.zip (bitmap.flatMap (lowBits 8))).take i).length = (types.take i).length := by
    rw [List.length_take, List.length_zip, flatBits_length, List.length_take]; omega
  rw [hl]
  refine and_congr_right fun h1 => and_congr_right fun h2 => ?_
  constructor
  · intro h k t p v a b c
    have hk : k < i ∧ k < types.length := by
      have := (List.getElem?_eq_some_iff.1 a).1
      rw [List.length_take] at this; omega
    refine h k t (bitOf bitmap k) p v ?_ b c
    rw [List.getElem?_take, if_pos hk.1] at a
    rw [List.getElem?_take, if_pos hk.1, List.getElem?_zip_eq_some]
    exact ⟨a, flatBits_get bitmap k (by omega)⟩
  · intro h k t n p v a b c
    have hk : k < i ∧ k < types.length := by
      have := (List.getElem?_eq_some_iff.1 a).1
      rw [hl, List.length_take] at this; omega
    rw [List.getElem?_take, if_pos hk.1, List.getElem?_zip_eq_some, flatBits_get bitmap k (by omega)] at a
    have := h k t p v (by rw [List.getElem?_take, if_pos hk.1]; exact a.1) b c
    rwa [Option.some.inj a.2] at this

/-! ## Rows -/

/-- The part of a row after the timestamp. -/
theorem readRowBody_cols {types : List FieldType} (hne : types ≠ []) : readRowBody types =
    Rd.bind (readN ((types.length + 7) / 8)) fun bitmap => readCols (types.zip (bitmap.flatMap (lowBits 8))) := by
  have hpos := List.length_pos_iff.2 hne
  have e : 1 + (types.length - 1) / 8 = (types.length + 7) / 8 := by omega
  unfold readRowBody
  rw [e]
  refine Rd.bind_congr' _ fun s bs s' h => ?_
  have hl := (readN_inv _ _ _ _ h).2
  rw [readGroups_cols types bs [] (by simp) (by simp only [List.length_nil, Nat.sub_zero]; omega)]
  funext s
  simp only [List.nil_append, List.length_nil, List.drop_zero]
  unfold Rd.bind
  rcases readCols (types.zip (bs.flatMap (lowBits 8))) s with ⟨_ | _ | _ | _, s1⟩ <;> rfl

theorem uses_rowBody_iff {types : List FieldType} (hne : types ≠ []) {vs : List FieldValue} {c : List Byte} : Uses (readRowBody types) vs c ↔
    ∃ (bitmap : List Byte) (ps : List (List Byte)), bitmap.length = (types.length + 7) / 8 ∧ StoredFields types bitmap ps vs ∧ c = bitmap ++ ps.flatten := by
  rw [readRowBody_cols hne, uses_bind_iff (Good.readN _) fun _ => good_readCols _]
  constructor
  · rintro ⟨bs, c1, c2, h1, h2, rfl⟩
    obtain ⟨rfl, hl⟩ := uses_readN_iff.1 h1
    obtain ⟨ps, h3, rfl⟩ := uses_readCols_iff.1 h2
    have h4 := (cols_fields (types := types) (bitmap := bs) (by omega) types.length (ps := ps) (vs := vs)).1 (by
      rwa [List.take_of_length_le (by rw [List.length_zip]; omega)])
    rw [List.take_of_length_le (Nat.le_refl _)] at h4
    exact ⟨bs, ps, hl, h4, rfl⟩
  · rintro ⟨bs, ps, hl, h, rfl⟩
    have h4 := (cols_fields (types := types) (bitmap := bs) (by omega) types.length (ps := ps) (vs := vs)).2 (by
      rwa [List.take_of_length_le (Nat.le_refl _)])
    rw [List.take_of_length_le (by rw [List.length_zip]; omega)] at h4
    exact ⟨bs, bs, _, uses_readN_iff.2 ⟨rfl, hl⟩, uses_readCols_iff.2 ⟨ps, h4, rfl⟩, rfl⟩

theorem panics_rowBody {types : List FieldType} (hne : types ≠ []) : PanicsOn (readRowBody types) (fun c =>
    ∃ (bitmap : List Byte) (i : Nat) (ps : List (List Byte)) (vs : List FieldValue) (enc bs : List Byte), bitmap.length = (types.length + 7) / 8 ∧
      StoredFields (types.take i) bitmap ps vs ∧ types[i]? = some .string ∧ bitOf bitmap i = false ∧ StoredText enc bs ∧ NotUtf8 bs ∧
      c = bitmap ++ ps.flatten ++ enc) := by
  rw [readRowBody_cols hne]
  refine (PanicsOn.bind' (Good.readN _) (PanicsOn.readN _) fun _ => panics_readCols _).congr fun c => ?_
  constructor
  · rintro ⟨bm, c1, c2, h1, ⟨i, ps, vs, enc, h3, h4, ⟨bs, h5, h6⟩, rfl⟩, rfl⟩
    obtain ⟨rfl, hl⟩ := uses_readN_iff.1 h1
    rw [List.getElem?_zip_eq_some] at h4
    have hi := (List.getElem?_eq_some_iff.1 h4.1).1
    rw [flatBits_get bm i (by omega)] at h4
    exact ⟨bm, i, ps, vs, enc, bs, hl, (cols_fields (by omega) i).1 h3, h4.1, Option.some.inj h4.2, h5, h6, by simp⟩
  · rintro ⟨bm, i, ps, vs, enc, bs, hl, h3, h4, h5, h6, h7, rfl⟩
    have hi := (List.getElem?_eq_some_iff.1 h4).1
    refine ⟨bm, bm, _, uses_readN_iff.2 ⟨rfl, hl⟩, ⟨i, ps, vs, enc, (cols_fields (by omega) i).2 h3, ?_, ⟨bs, h6, h7⟩, rfl⟩, by simp⟩
    rw [List.getElem?_zip_eq_some, flatBits_get bm i (by omega), h5]
    exact ⟨h4, rfl⟩

/-- Exactly the rows of the format are delivered. -/
theorem nextRow_iff {src : DcSource} (hne : src.header.types ≠ []) {r : Row} {src' : DcSource} :
    src.nextRow = (.ok (some r), src') ↔ src'.header = src.header ∧ ∃ c, src.stream = ofBytes c ++ src'.stream ∧ IsDcRow src.header.types c r := by
  constructor
  · intro h
    unfold DcSource.nextRow at h
    rcases h1 : readU 8 src.stream with ⟨ts | _ | _ | _, s⟩ <;> rw [h1] at h <;> simp only [Prod.mk.injEq, Res.ok.injEq, reduceCtorEq, false_and] at h
    rcases h2 : readRowBody src.header.types s with ⟨vs | _ | _ | _, s'⟩ <;> rw [h2] at h <;>
      simp only [Prod.mk.injEq, Res.ok.injEq, Option.some.injEq, reduceCtorEq, false_and] at h
    obtain ⟨rfl, rfl⟩ := h
    refine ⟨rfl, ?_⟩
    obtain ⟨e1, hts⟩ := readU_inv h1
    obtain ⟨c, e2, hu⟩ := Good.readRowBody _ _ _ _ h2
    obtain ⟨bm, ps, hl, hf, rfl⟩ := (uses_rowBody_iff hne).1 hu
    refine ⟨beBytes 8 ts ++ (bm ++ ps.flatten), by rw [e1, e2]; simp [ofBytes_append], bm, ps, hl, hf, ?_⟩
    simp only
    rw [BitVec.toNat_ofNat, Nat.mod_eq_of_lt (by omega), beBytes_eq, List.append_assoc]
  · rintro ⟨hh, c, hs, bm, ps, hl, hf, rfl⟩
    have u := (uses_rowBody_iff hne).2 ⟨bm, ps, hl, hf, rfl⟩
    unfold DcSource.nextRow
    rw [hs, ← beBytes_eq, List.append_assoc, ofBytes_append, List.append_assoc, (uses_readU r.timestamp.isLt).here]
    simp only
    rw [u.here]
    simp only [BitVec.ofNat_toNat, BitVec.setWidth_eq]
    cases src'
    simp only at hh
    rw [hh]

theorem readU8_panic {k : Nat} {s s' : Stream} (h : readU k s = (.panic, s')) : False :=
  ((panics_readU k).only _ _ h).elim fun _ h => h.elim fun _ h => h.2

theorem nextRow_panic {src : DcSource} (hne : src.header.types ≠ []) :
    src.nextRow.1 = .panic ↔ ∃ c t, src.stream = ofBytes c ++ t ∧ CrashRow src.header.types c := by
  constructor
  · intro h
    unfold DcSource.nextRow at h
    rcases h1 : readU 8 src.stream with ⟨ts | _ | _ | _, s⟩ <;> rw [h1] at h <;> simp only [reduceCtorEq] at h
    · rcases h2 : readRowBody src.header.types s with ⟨vs | _ | _ | _, s'⟩ <;> rw [h2] at h <;> simp only [reduceCtorEq] at h
      obtain ⟨e1, hts⟩ := readU_inv h1
      obtain ⟨c, t, e2, bm, i, ps, vs, enc, bs, hl, a1, a2, a3, a4, a5, rfl⟩ := (panics_rowBody hne).only _ _ h2
      refine ⟨bigEndian 8 ts ++ bm ++ ps.flatten ++ enc, t, ?_, ts, bm, i, ps, vs, enc, bs, by omega, hl, a1, a2, a3, a4, a5, rfl⟩
      rw [e1, e2, beBytes_eq]; simp [ofBytes_append]
    · exact (readU8_panic h1).elim
  · rintro ⟨c, t, hs, ts, bm, i, ps, vs, enc, bs, hts, hl, a1, a2, a3, a4, a5, rfl⟩
    obtain ⟨s, hp⟩ := (panics_rowBody hne).there _ ⟨bm, i, ps, vs, enc, bs, hl, a1, a2, a3, a4, a5, rfl⟩ t
    unfold DcSource.nextRow
    rw [hs, ← beBytes_eq, List.append_assoc, List.append_assoc, ofBytes_append, List.append_assoc, (uses_readU (by omega)).here]
    simp only
    rw [← List.append_assoc, hp]

/-! ## Headers -/

theorem panics_sizedString : PanicsOn getSizedString (fun c => ∃ bs, bs.length < 2 ^ 32 ∧ NotUtf8 bs ∧ c = bigEndian 4 bs.length ++ bs) :=
  (PanicsOn.bind' (Good.readU 4) (panics_readU 4) panics_readN_utf8).congr fun c => by
    constructor
    · rintro ⟨n, c1, c2, h1, ⟨h2, rfl⟩, rfl⟩
      obtain ⟨rfl, h3⟩ := uses_readU_iff.1 h1
      exact ⟨c2, h3, h2, by rw [beBytes_eq]⟩
    · rintro ⟨bs, h1, h2, rfl⟩
      exact ⟨_, _, bs, uses_readU h1, ⟨h2, rfl⟩, by rw [beBytes_eq]⟩

theorem uses_sizedString_iff {s : Str} {c : List Byte} : Uses getSizedString s c ↔ (utf8Encode s).length < 2 ^ 32 ∧ c = sized s := by
  constructor
  · intro h
    obtain ⟨h1, h2⟩ := sizedString_inv (h.here [])
    refine ⟨h2, ?_⟩
    have := ofBytes_inj (by simpa using h1)
    simp [this, sizedString, sized, beBytes_eq, utf8Len]
  · rintro ⟨h, rfl⟩
    have := uses_sizedString h
    simpa [sizedString, sized, beBytes_eq, utf8Len] using this

/-- The end of a column's description. -/
def readHint (a : Str × Str) : Rd (Str × Str) :=
  Rd.bind (readU 4) fun hint => if hint = 2 ^ 32 - 1 ∨ hint ≤ 6 then Rd.pure a else Rd.err (.custom "unexpected display hint value")

theorem good_hint (a : Str × Str) : Good (readHint a) := (Good.readU 4).bind fun _ => by split; exact Good.pure _; exact Good.err _

theorem panics_hint (a : Str × Str) : PanicsOn (readHint a) (fun _ => False) :=
  (PanicsOn.bind' (Q := fun _ _ => False) (Good.readU 4) (panics_readU 4) fun n => by split; exact PanicsOn.pure _; exact PanicsOn.err _).congr fun c => by simp

theorem good_descriptor : Good fieldDescriptor := Good.sizedString.bind fun _ => Good.sizedString.bind fun _ => good_hint (_, _)

theorem panics_descriptor : PanicsOn fieldDescriptor (fun c => (∃ bs, bs.length < 2 ^ 32 ∧ NotUtf8 bs ∧ c = bigEndian 4 bs.length ++ bs) ∨
    ∃ (name : Str) (bs : List Byte), (utf8Encode name).length < 2 ^ 32 ∧ bs.length < 2 ^ 32 ∧ NotUtf8 bs ∧ c = sized name ++ bigEndian 4 bs.length ++ bs) := by
  refine (PanicsOn.bind Good.sizedString panics_sizedString fun name =>
    PanicsOn.bind Good.sizedString panics_sizedString fun ty => panics_hint (name, ty)).congr fun c => ?_
  refine or_congr_right ?_
  simp only [uses_sizedString_iff, false_and, and_false, exists_false, or_false]
  constructor
  · rintro ⟨a, c1, c2, ⟨h1, rfl⟩, ⟨bs, h2, h3, rfl⟩, rfl⟩
    exact ⟨a, bs, h1, h2, h3, by simp⟩
  · rintro ⟨a, bs, h1, h2, h3, rfl⟩
    exact ⟨a, _, _, ⟨h1, rfl⟩, ⟨bs, h2, h3, rfl⟩, by simp⟩

end Chopper
