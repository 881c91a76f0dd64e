import Verif.Spec.Zip
import Verif.Proofs.Reader

namespace Chopper
open Spec

/-! ## The register -/

theorem crcBit_xor (a b : BitVec 32) : crcBit (a ^^^ b) = crcBit a ^^^ crcBit b := by
  unfold crcBit
  rw [BitVec.getLsbD_xor, BitVec.ushiftRight_xor_distrib]
  cases a.getLsbD 0 <;> cases b.getLsbD 0 <;> simp
  · ac_rfl
  · rw [BitVec.xor_assoc, BitVec.xor_comm (b >>> 1), ← BitVec.xor_assoc]
  · have : ∀ x y p : BitVec 32, x ^^^ y = x ^^^ p ^^^ (y ^^^ p) := by
      intro x y p
      rw [BitVec.xor_assoc, ← BitVec.xor_assoc p, BitVec.xor_comm p, BitVec.xor_assoc y, BitVec.xor_self, BitVec.xor_zero]
    exact this _ _ _

theorem crcBit_zero {a : BitVec 32} (h : crcBit a = 0) : a = 0 := by
  unfold crcBit at h
  have htop : ∀ i, i < 32 → ((if a.getLsbD 0 then (a >>> 1) ^^^ 0xEDB88320#32 else a >>> 1) : BitVec 32).getLsbD i = false := by
    intro i _; rw [h]; simp
  cases h0 : a.getLsbD 0
  · rw [h0] at htop
    simp only [Bool.false_eq_true, if_false] at htop
    apply BitVec.eq_of_getLsbD_eq
    intro i hi
    cases i with
    | zero => simpa using h0
    | succ i =>
      have := htop i (by omega)
      rw [BitVec.getLsbD_ushiftRight, Nat.add_comm] at this
      simpa using this
  · rw [h0] at htop
    simp only [if_true] at htop
    have := htop 31 (by omega)
    rw [BitVec.getLsbD_xor, BitVec.getLsbD_ushiftRight] at this
    simp at this

theorem xor_eq_zero' {a b : BitVec 32} (h : a ^^^ b = 0) : a = b := by
  have : a ^^^ b ^^^ b = 0#32 ^^^ b := by rw [h]; rfl
  rw [BitVec.xor_assoc, BitVec.xor_self, BitVec.xor_zero, BitVec.zero_xor] at this
  exact this

theorem crcBit_inj {a b : BitVec 32} (h : crcBit a = crcBit b) : a = b := by
  apply xor_eq_zero'
  apply crcBit_zero
  rw [crcBit_xor, h, BitVec.xor_self]; rfl

theorem crcShift_eq (s : BitVec 32) (bit : Bool) : crcShift s bit = crcBit (s ^^^ (BitVec.ofBool bit).setWidth 32) := by
  have h1 : ((1#32) >>> 1) = 0#32 := by decide
  unfold crcShift crcBit
  rw [BitVec.getLsbD_xor, BitVec.ushiftRight_xor_distrib]
  cases bit <;> cases s.getLsbD 0 <;> simp

theorem crcShift_inj {s t : BitVec 32} {bit : Bool} (h : crcShift s bit = crcShift t bit) : s = t := by
  rw [crcShift_eq, crcShift_eq] at h
  have := crcBit_inj h
  have h2 : s ^^^ (BitVec.ofBool bit).setWidth 32 ^^^ (BitVec.ofBool bit).setWidth 32 =
      t ^^^ (BitVec.ofBool bit).setWidth 32 ^^^ (BitVec.ofBool bit).setWidth 32 := by rw [this]
  rwa [BitVec.xor_assoc, BitVec.xor_self, BitVec.xor_zero, BitVec.xor_assoc, BitVec.xor_self, BitVec.xor_zero] at h2

theorem foldl_crcShift_inj {s t : BitVec 32} : ∀ (l : List Bool), l.foldl crcShift s = l.foldl crcShift t → s = t := by
  intro l
  induction l generalizing s t with
  | nil => exact id
  | cons b l ih => intro h; exact crcShift_inj (ih h)

/-! ## Blocks of at most 32 bits -/

/-- The bits as a number. -/
def bitWord : List Bool → BitVec 32
  | [] => 0
  | b :: l => (BitVec.ofBool b).setWidth 32 ^^^ (bitWord l <<< 1)

theorem bitWord_getLsbD : ∀ (l : List Bool) (i : Nat), i < 32 → (bitWord l).getLsbD i = l.getD i false
  | [], i, _ => by simp [bitWord]
  | b :: l, 0, _ => by simp [bitWord]
  | b :: l, i + 1, h => by
    have := bitWord_getLsbD l i (by omega)
    rw [BitVec.getLsbD_eq_getElem (by omega)] at this
    simp [bitWord, h, this]

theorem crcBit_shl {w : BitVec 32} (h : w.getLsbD 31 = false) : crcBit (w <<< 1) = w := by
  unfold crcBit
  have : (w <<< 1).getLsbD 0 = false := by simp
  rw [this]
  simp only [Bool.false_eq_true, if_false]
  apply BitVec.eq_of_getLsbD_eq
  intro i hi
  rw [BitVec.getLsbD_ushiftRight, BitVec.getLsbD_shiftLeft]
  by_cases h31 : i = 31
  · subst h31; rw [h]; simp
  · have : 1 + i < 32 := by omega
    simp [this]

/-- `n` register steps. -/
def crcSteps : Nat → BitVec 32 → BitVec 32
  | 0, s => s
  | n + 1, s => crcSteps n (crcBit s)

theorem crcSteps_inj {a b : BitVec 32} : ∀ (n : Nat), crcSteps n a = crcSteps n b → a = b := by
  intro n
  induction n generalizing a b with
  | zero => exact id
  | succ n ih => intro h; exact crcBit_inj (ih h)

theorem foldl_crcShift_word : ∀ (l : List Bool) (s : BitVec 32), l.length ≤ 32 →
    l.foldl crcShift s = crcSteps l.length (s ^^^ bitWord l)
  | [], s, _ => by simp [crcSteps, bitWord]
  | b :: l, s, h => by
    have hl : l.length ≤ 31 := by simp at h; omega
    have hz : (bitWord l).getLsbD 31 = false := by
      rw [bitWord_getLsbD _ _ (by omega)]
      simp [List.getD, List.getElem?_eq_none hl]
    rw [List.foldl_cons, foldl_crcShift_word l _ (by omega), crcShift_eq]
    simp only [List.length_cons, crcSteps, bitWord]
    rw [← BitVec.xor_assoc, crcBit_xor (s ^^^ _), crcBit_shl hz]

theorem bitWord_byte (b : Byte) : bitWord ((List.range 8).map fun i => b.getLsbD i) = b.setWidth 32 := by
  apply BitVec.eq_of_getLsbD_eq
  intro i hi
  rw [bitWord_getLsbD _ _ hi, BitVec.getLsbD_setWidth]
  by_cases h8 : i < 8
  · simp [List.getD, h8, hi]
  · rw [BitVec.getLsbD_of_ge b i (by omega)]
    simp [List.getD, h8]

/-- The model's byte step processes the eight bits of the byte. -/
theorem crcByte_bits (s : BitVec 32) (b : Byte) : ((List.range 8).map fun i => b.getLsbD i).foldl crcShift s = crcByte s b := by
  rw [foldl_crcShift_word _ _ (by simp), bitWord_byte]
  simp [crcSteps, crcByte]

theorem foldl_crcByte : ∀ (bs : List Byte) (s : BitVec 32), bs.foldl crcByte s = (bitsOf bs).foldl crcShift s
  | [], s => rfl
  | b :: bs, s => by
    rw [List.foldl_cons, foldl_crcByte bs]
    simp only [bitsOf, List.flatMap_cons, List.foldl_append]
    rw [crcByte_bits]

theorem hasher_crc32 (bs : List Byte) : (Hasher.new.update bs).finish = Spec.crc32 bs := by
  simp only [Hasher.new, Hasher.update, Hasher.finish, Spec.crc32, foldl_crcByte]
  rfl

theorem update_append (h : Hasher) (a b : List Byte) : (h.update a).update b = h.update (a ++ b) := by
  simp [Hasher.update]

/-! ## Bursts -/

theorem bitWord_inj {u v : List Bool} (hl : u.length = v.length) (h32 : u.length ≤ 32) (h : bitWord u = bitWord v) : u = v := by
  apply List.ext_getElem hl
  intro i h1 h2
  have h3 := bitWord_getLsbD u i (by omega)
  have h4 := bitWord_getLsbD v i (by omega)
  rw [h, h4] at h3
  simpa [List.getD, List.getElem?_eq_getElem h1, List.getElem?_eq_getElem h2] using h3.symm

theorem xor_left_inj' {s a b : BitVec 32} (h : s ^^^ a = s ^^^ b) : a = b := by
  have : s ^^^ (s ^^^ a) = s ^^^ (s ^^^ b) := by rw [h]
  rwa [← BitVec.xor_assoc, BitVec.xor_self, BitVec.zero_xor, ← BitVec.xor_assoc, BitVec.xor_self, BitVec.zero_xor] at this

theorem crc32_burst {d d' : List Byte} (h : BurstOf 32 d d') : Spec.crc32 d ≠ Spec.crc32 d' := by
  obtain ⟨p, u, v, q, h1, h2, hl, h32, hne⟩ := h
  intro he
  unfold Spec.crc32 at he
  rw [h1, h2] at he
  rw [BitVec.xor_comm, BitVec.xor_comm (List.foldl _ _ (p ++ v ++ q))] at he
  have he := xor_left_inj' he
  simp only [List.foldl_append] at he
  have := foldl_crcShift_inj q he
  rw [foldl_crcShift_word u _ h32, foldl_crcShift_word v _ (by omega), hl] at this
  exact hne (bitWord_inj hl h32 (xor_left_inj' (crcSteps_inj _ this)))

theorem bitsOf_append (a b : List Byte) : bitsOf (a ++ b) = bitsOf a ++ bitsOf b := by simp [bitsOf]

theorem bitsOf_byte_inj {x y : Byte} (h : bitsOf [x] = bitsOf [y]) : x = y := by
  apply BitVec.eq_of_getLsbD_eq
  intro i hi
  have : (bitsOf [x])[i]? = (bitsOf [y])[i]? := by rw [h]
  simpa [bitsOf, hi] using this

/-- One changed byte is a burst of at most 8 bits. -/
theorem burst_byte (a b : List Byte) {x y : Byte} (h : x ≠ y) : BurstOf 8 (a ++ x :: b) (a ++ y :: b) := by
  refine ⟨bitsOf a, bitsOf [x], bitsOf [y], bitsOf b, ?_, ?_, by simp [bitsOf], by simp [bitsOf], fun e => h (bitsOf_byte_inj e)⟩
  · rw [← bitsOf_append, ← bitsOf_append]; simp
  · rw [← bitsOf_append, ← bitsOf_append]; simp

theorem burst_mono {k m : Nat} (h : k ≤ m) {d d' : List Byte} (hb : BurstOf k d d') : BurstOf m d d' := by
  obtain ⟨p, u, v, q, h1, h2, h3, h4, h5⟩ := hb
  exact ⟨p, u, v, q, h1, h2, h3, by omega, h5⟩

/-- Up to four consecutive changed bytes are a burst of at most 32 bits. -/
theorem burst_bytes (a b : List Byte) {x y : List Byte} (hl : x.length = y.length) (h4 : x.length ≤ 4) (h : x ≠ y) :
    BurstOf 32 (a ++ x ++ b) (a ++ y ++ b) := by
  have hlen : ∀ z : List Byte, (bitsOf z).length = 8 * z.length := by
    intro z; induction z with
    | nil => rfl
    | cons c z ih => simp only [bitsOf, List.flatMap_cons, List.length_append, List.length_map, List.length_range, List.length_cons] at *; omega
  have hinj : ∀ z w : List Byte, z.length = w.length → bitsOf z = bitsOf w → z = w := by
    intro z
    induction z with
    | nil => intro w hw _; cases w <;> simp_all
    | cons c z ih =>
      intro w hw he
      cases w with
      | nil => simp at hw
      | cons c' w =>
        have e1 : bitsOf (c :: z) = bitsOf [c] ++ bitsOf z := bitsOf_append [c] z
        have e2 : bitsOf (c' :: w) = bitsOf [c'] ++ bitsOf w := bitsOf_append [c'] w
        rw [e1, e2] at he
        have := List.append_inj he (by rw [hlen, hlen]; simp)
        rw [bitsOf_byte_inj this.1, ih w (by simpa using hw) this.2]
  exact ⟨bitsOf a, bitsOf x, bitsOf y, bitsOf b, by simp [bitsOf_append], by simp [bitsOf_append], by rw [hlen, hlen, hl],
    by rw [hlen]; omega, fun e => h (hinj x y hl e)⟩

/-! ## The checking reader -/

/-- One call. -/
theorem crcRead_cases (r : CrcReader) (n : Nat) :
    (∃ bs r', r.read n = (.ok bs, r') ∧ bs ++ r'.inner.data = r.inner.data ∧ bs.length ≤ n ∧ r'.hasher = r.hasher.update bs ∧ r'.crc32 = r.crc32 ∧
      (0 < n → bs = [] → (r.inner.data = [] ∧ r.inner.ending = none) ∧ r.hasher.finish = r.crc32) ∧ (NoFail r.inner → NoFail r'.inner)) ∨
    (∃ e r', r.read n = (.err (.io e), r') ∧ r'.inner.data = r.inner.data ∧ r'.hasher = r.hasher ∧ r'.crc32 = r.crc32 ∧
      (CanFail r.inner e ∨ (e = .invalidData ∧ 0 < n ∧ r.inner.data = [] ∧ r.hasher.finish ≠ r.crc32)) ∧
      (NoFail r.inner → NoFail r'.inner) ∧ (∀ x, CanFail r'.inner x → CanFail r.inner x)) := by
  have hsub := Inner.read_canFail r.inner n
  unfold CrcReader.read
  rcases Inner.read_cases r.inner n with ⟨bs, r', h1, h2, h3, h4, h5⟩ | ⟨e, r', h1, h2, h3, h4⟩
  · simp only [h1]
    by_cases hc : bs.length = 0 ∧ n ≠ 0 ∧ r.hasher.finish ≠ r.crc32
    · rw [if_pos hc]
      right
      obtain ⟨c1, c2, c3⟩ := hc
      have hbs : bs = [] := List.length_eq_zero_iff.mp c1
      subst hbs
      have hd := (h4 (by omega) rfl).1
      exact ⟨.invalidData, _, rfl, by simpa using h2, rfl, rfl, Or.inr ⟨rfl, by omega, hd, c3⟩, h5.1, by rw [h1] at hsub; exact hsub⟩
    · rw [if_neg hc]
      left
      refine ⟨bs, _, rfl, h2, h3, rfl, rfl, ?_, h5.1⟩
      intro hn hb
      refine ⟨h4 hn hb, ?_⟩
      subst hb
      exact Classical.byContradiction fun hne => hc ⟨rfl, by omega, hne⟩
  · simp only [h1]
    right
    exact ⟨e, _, rfl, h2, rfl, rfl, Or.inl h3, fun hn => absurd h3 (hn e), h4.1⟩

/-- Reading to the end: all bytes, and then the check. -/
theorem crc_toEnd (r : CrcReader) (hn : NoFail r.inner) (out : List Byte) (e : Option Err) (h : ReadsToEnd CrcReader.read r out e) :
    out = r.inner.data ∧ (e = none ↔ (r.hasher.update out).finish = r.crc32) ∧ (e ≠ none → e = some (.io .invalidData)) := by
  induction h with
  | @done s s' n hn0 hr =>
    rcases crcRead_cases s n with ⟨bs, r', h1, h2, h3, h4, h5, h6, h7⟩ | ⟨e, r', h1, h2, h3, h4, h5, h6, _⟩
    · rw [hr] at h1; simp at h1
      obtain ⟨rfl, rfl⟩ := h1
      obtain ⟨g1, g2⟩ := h6 hn0 rfl
      refine ⟨g1.1.symm, by simp [Hasher.update] ; exact g2, by simp⟩
    · rw [hr] at h1; simp at h1
  | @error s s' n e hn0 hr =>
    rcases crcRead_cases s n with ⟨bs, r', h1, _⟩ | ⟨e', r', h1, h2, h3, h4, h5, h6, _⟩
    · rw [hr] at h1; simp at h1
    · rw [hr] at h1; simp at h1
      obtain ⟨rfl, rfl⟩ := h1
      rcases h5 with h5 | ⟨rfl, _, hd, hne⟩
      · exact absurd h5 (hn e')
      · refine ⟨hd.symm, ?_, by simp⟩
        simp [Hasher.update]
        exact hne
  | @more s s' n bs out e hn0 hr hbs hrest ih =>
    rcases crcRead_cases s n with ⟨bs', r', h1, h2, h3, h4, h5, h6, h7⟩ | ⟨e', r', h1, _⟩
    · rw [hr] at h1; simp at h1
      obtain ⟨rfl, rfl⟩ := h1
      obtain ⟨i1, i2, i3⟩ := ih (h7 hn)
      rw [h4, update_append, h5] at i2
      exact ⟨by rw [i1, h2], i2, i3⟩
    · rw [hr] at h1; simp at h1

/-- Reading to the end is possible with any positive buffer size. -/
theorem crc_toEnd_exists (n : Nat) (hn : 0 < n) : ∀ (m : Nat) (r : CrcReader), r.inner.data.length ≤ m →
    ∃ out e, ReadsToEnd CrcReader.read r out e
  | m, r, hm => by
    rcases crcRead_cases r n with ⟨bs, r', h1, h2, h3, h4, h5, h6, h7⟩ | ⟨e, r', h1, _⟩
    · by_cases hbs : bs = []
      · subst hbs; exact ⟨[], none, .done hn h1⟩
      · have hlt : r'.inner.data.length < r.inner.data.length := by
          rw [← h2]; simp; exact List.length_pos_iff.mpr hbs
        cases m with
        | zero => omega
        | succ m =>
          obtain ⟨out, e, hr⟩ := crc_toEnd_exists n hn m r' (by omega)
          exact ⟨_, _, .more hn h1 hbs hr⟩
    · exact ⟨[], _, .error hn h1⟩

end Chopper
