import Verif.Proofs.Crc

namespace Chopper
open Spec

/-! ## Numbers in files -/

theorem leVal_lt : ∀ bs : List Byte, leVal bs < 256 ^ bs.length
  | [] => by simp [leVal]
  | b :: bs => by
    have := leVal_lt bs
    have := b.isLt
    simp only [leVal, List.length_cons, Nat.pow_succ]
    omega

theorem leBytes_length : ∀ (n v : Nat), (leBytes n v).length = n
  | 0, _ => rfl
  | n + 1, v => by simp [leBytes, leBytes_length n]

theorem leVal_leBytes : ∀ (n v : Nat), v < 256 ^ n → leVal (leBytes n v) = v
  | 0, v, h => by simp at h; simp [leBytes, leVal, h]
  | n + 1, v, h => by
    have : v / 256 < 256 ^ n := by rw [Nat.pow_succ] at h; omega
    simp only [leBytes, leVal, leVal_leBytes n _ this, BitVec.toNat_ofNat]
    omega

theorem leBytes_leVal : ∀ bs : List Byte, leBytes bs.length (leVal bs) = bs
  | [] => rfl
  | b :: bs => by
    have hb := b.isLt
    have h1 : (b.toNat + 256 * leVal bs) / 256 = leVal bs := by omega
    have h2 : BitVec.ofNat 8 (b.toNat + 256 * leVal bs) = b := by
      apply BitVec.eq_of_toNat_eq
      rw [BitVec.toNat_ofNat]; omega
    simp only [List.length_cons, leVal, leBytes, h1, h2, leBytes_leVal bs]

/-- The number in the `n` bytes at `pos`. -/
def leAt (file : List Byte) (pos n : Nat) : Nat := leVal ((file.drop pos).take n)

theorem at_len {file bs : List Byte} {off : Nat} (h : At file off bs) (hb : bs ≠ []) : off + bs.length ≤ file.length := by
  have : ((file.drop off).take bs.length).length = bs.length := by rw [h]
  have hp := List.length_pos_iff.mpr hb
  simp at this
  omega

theorem at_append {file a b : List Byte} {off : Nat} : At file off (a ++ b) ↔ At file off a ∧ At file (off + a.length) b := by
  unfold At
  rw [List.length_append, List.take_add, List.drop_drop]
  constructor
  · intro h
    have hl : ((file.drop off).take a.length).length = a.length := by
      have : ((file.drop off).take a.length ++ ((file.drop (off + a.length)).take b.length)).length = a.length + b.length := by rw [h]; simp
      simp at this ⊢
      omega
    exact ⟨(List.append_inj h hl).1, (List.append_inj h hl).2⟩
  · rintro ⟨h1, h2⟩; rw [h1, h2]

theorem leAt_of_at {file : List Byte} {off n v : Nat} (h : At file off (leBytes n v)) (hv : v < 256 ^ n) : leAt file off n = v := by
  unfold At at h
  rw [leBytes_length] at h
  rw [leAt, h, leVal_leBytes n v hv]

theorem at_of_leAt {file : List Byte} {off n : Nat} (h : off + n ≤ file.length) : At file off (leBytes n (leAt file off n)) := by
  have hl : ((file.drop off).take n).length = n := by simp; omega
  unfold At leAt
  rw [leBytes_length]
  have := leBytes_leVal ((file.drop off).take n)
  rw [hl] at this
  exact this.symm

theorem leAt_lt {file : List Byte} {off n : Nat} (h : off + n ≤ file.length) : leAt file off n < 256 ^ n := by
  have := leVal_lt ((file.drop off).take n)
  have hl : ((file.drop off).take n).length = n := by simp; omega
  rw [hl] at this
  exact this

/-- The four byte signatures. -/
theorem sig_iff {file : List Byte} {off v : Nat} (hv : v < 256 ^ 4) : (off + 4 ≤ file.length ∧ leAt file off 4 = v) ↔ At file off (leBytes 4 v) := by
  constructor
  · rintro ⟨h1, h2⟩
    have := at_of_leAt h1
    rwa [h2] at this
  · intro h
    refine ⟨?_, leAt_of_at h hv⟩
    have := at_len h (by simp [leBytes])
    rwa [leBytes_length] at this

theorem sigLocal : leBytes 4 0x04034b50 = [0x50, 0x4b, 3, 4] := by decide
theorem sigCentral : leBytes 4 0x02014b50 = [0x50, 0x4b, 1, 2] := by decide
theorem sigEnd : leBytes 4 0x06054b50 = [0x50, 0x4b, 5, 6] := by decide
theorem sigEnd64 : leBytes 4 0x06064b50 = [0x50, 0x4b, 6, 6] := by decide
theorem sigLoc64 : leBytes 4 0x07064b50 = [0x50, 0x4b, 6, 7] := by decide

/-! ## File operations -/

variable {α β : Type}

theorem skLe_eq (file : List Byte) (n pos : Nat) (hn : n ≠ 0) : skLe file n pos =
    if pos + n ≤ file.length then .ok (leAt file pos n, pos + n) else .err (.io .unexpectedEof) := by
  unfold skLe Sk.bind skReadExact
  rw [if_neg hn]
  split <;> rfl

theorem sk_bind_eq (x : Sk α) (f : α → Sk β) : (x >>= f) = Sk.bind x f := rfl

theorem sk_pure (a : α) (pos : Nat) (r : α × Nat) : Sk.pure a pos = .ok r ↔ r = (a, pos) := by
  simp [Sk.pure, eq_comm]

theorem sk_bind (x : Sk α) (f : α → Sk β) (pos : Nat) (r : β × Nat) :
    Sk.bind x f pos = .ok r ↔ ∃ a p, x pos = .ok (a, p) ∧ f a p = .ok r := by
  unfold Sk.bind
  rw [Res.bind_eq_ok]
  constructor
  · rintro ⟨⟨a, p⟩, h1, h2⟩; exact ⟨a, p, h1, h2⟩
  · rintro ⟨a, p, h1, h2⟩; exact ⟨(a, p), h1, h2⟩

theorem sk_bind_of {x : Sk α} {f : α → Sk β} {pos p : Nat} {a : α} (h : x pos = .ok (a, p)) : Sk.bind x f pos = f a p := by
  unfold Sk.bind; rw [h]; rfl

theorem sk_bind_err {x : Sk α} {f : α → Sk β} {pos : Nat} {e : Err} (h : x pos = .err e) : Sk.bind x f pos = .err e := by
  unfold Sk.bind; rw [h]; rfl

theorem skLe_of {file : List Byte} {n pos : Nat} (hn : n ≠ 0) (h : pos + n ≤ file.length) : skLe file n pos = .ok (leAt file pos n, pos + n) := by
  rw [skLe_eq _ _ _ hn, if_pos h]
theorem skLe_err {file : List Byte} {n pos : Nat} (hn : n ≠ 0) (h : ¬ pos + n ≤ file.length) : skLe file n pos = .err (.io .unexpectedEof) := by
  rw [skLe_eq _ _ _ hn, if_neg h]

theorem sk_leN (file : List Byte) (n : Nat) (hn : n ≠ 0) (f : Nat → Sk β) (pos : Nat) (r : β × Nat) :
    Sk.bind (skLe file n) f pos = .ok r ↔ pos + n ≤ file.length ∧ f (leAt file pos n) (pos + n) = .ok r := by
  by_cases h : pos + n ≤ file.length
  · rw [sk_bind_of (skLe_of hn h)]; simp [h]
  · rw [sk_bind_err (skLe_err hn h)]; simp [h]

theorem sk_le2 (file : List Byte) (f : Nat → Sk β) (pos : Nat) (r : β × Nat) :
    Sk.bind (skLe file 2) f pos = .ok r ↔ pos + 2 ≤ file.length ∧ f (leAt file pos 2) (pos + 2) = .ok r := sk_leN _ _ (by omega) _ _ _
theorem sk_le4 (file : List Byte) (f : Nat → Sk β) (pos : Nat) (r : β × Nat) :
    Sk.bind (skLe file 4) f pos = .ok r ↔ pos + 4 ≤ file.length ∧ f (leAt file pos 4) (pos + 4) = .ok r := sk_leN _ _ (by omega) _ _ _
theorem sk_le8 (file : List Byte) (f : Nat → Sk β) (pos : Nat) (r : β × Nat) :
    Sk.bind (skLe file 8) f pos = .ok r ↔ pos + 8 ≤ file.length ∧ f (leAt file pos 8) (pos + 8) = .ok r := sk_leN _ _ (by omega) _ _ _

theorem sk_forward (n : Nat) (f : Unit → Sk β) (pos : Nat) (r : β × Nat) :
    Sk.bind (skForward n) f pos = .ok r ↔ pos + n < maxOffset ∧ f () (pos + n) = .ok r := by
  by_cases h : pos + n < maxOffset
  · rw [sk_bind_of (a := ()) (p := pos + n) (by unfold skForward; rw [if_pos h])]; simp [h]
  · rw [sk_bind_err (e := .io .other) (by unfold skForward; rw [if_neg h])]; simp [h]

theorem sk_start (n : Nat) (f : Unit → Sk β) (pos : Nat) (r : β × Nat) :
    Sk.bind (skStart n) f pos = .ok r ↔ n < maxOffset ∧ f () n = .ok r := by
  by_cases h : n < maxOffset
  · rw [sk_bind_of (a := ()) (p := n) (by unfold skStart; rw [if_pos h])]; simp [h]
  · rw [sk_bind_err (e := .io .other) (by unfold skStart; rw [if_neg h])]; simp [h]

theorem sk_back (file : List Byte) (n : Nat) (f : Unit → Sk β) (pos : Nat) (r : β × Nat) :
    Sk.bind (skBack file n) f pos = .ok r ↔ n ≤ file.length ∧ f () (file.length - n) = .ok r := by
  by_cases h : n ≤ file.length
  · rw [sk_bind_of (a := ()) (p := file.length - n) (by unfold skBack; rw [if_pos h])]; simp [h]
  · rw [sk_bind_err (e := .io .other) (by unfold skBack; rw [if_neg h])]; simp [h]

theorem sk_exact (file : List Byte) (n : Nat) (f : List Byte → Sk β) (pos : Nat) (r : β × Nat) (hp : pos ≤ file.length) :
    Sk.bind (skReadExact file n) f pos = .ok r ↔ pos + n ≤ file.length ∧ f ((file.drop pos).take n) (pos + n) = .ok r := by
  by_cases hn : n = 0
  · subst hn
    rw [sk_bind_of (a := []) (p := pos) (by simp [skReadExact])]
    simp [hp]
  · by_cases h : pos + n ≤ file.length
    · rw [sk_bind_of (a := (file.drop pos).take n) (p := pos + n) (by unfold skReadExact; rw [if_neg hn, if_pos h])]; simp [h]
    · rw [sk_bind_err (e := .io .unexpectedEof) (by unfold skReadExact; rw [if_neg hn, if_neg h])]; simp [h]

theorem sk_err (r : α × Nat) (pos : Nat) : (zipErr : Sk α) pos = .ok r ↔ False := by simp [zipErr, Sk.fail]

theorem sk_ite (c : Prop) [Decidable c] (x y : Sk α) (pos : Nat) (r : α × Nat) :
    (if c then x else y) pos = .ok r ↔ (c ∧ x pos = .ok r) ∨ (¬ c ∧ y pos = .ok r) := by
  split <;> simp_all

/-! ## Never panics, never hangs -/

/-- The function returns a value or an I/O error. -/
def Returns (x : Sk α) : Prop := ∀ pos, (∃ r, x pos = .ok r) ∨ ∃ e, x pos = .err (.io e)

theorem returns_bind {x : Sk α} {f : α → Sk β} (hx : Returns x) (hf : ∀ a, Returns (f a)) : Returns (Sk.bind x f) := by
  intro pos
  unfold Sk.bind
  rcases hx pos with ⟨⟨a, p⟩, h⟩ | ⟨e, h⟩
  · rw [h]; exact hf a p
  · rw [h]; exact .inr ⟨e, rfl⟩

theorem returns_pure (a : α) : Returns (Sk.pure a) := fun pos => .inl ⟨_, rfl⟩
theorem returns_zipErr : Returns (zipErr : Sk α) := fun _ => .inr ⟨_, rfl⟩
theorem returns_le (file : List Byte) (n : Nat) : Returns (skLe file n) := by
  intro pos
  unfold skLe Sk.bind skReadExact
  split
  · exact .inl ⟨_, rfl⟩
  · split
    · exact .inl ⟨_, rfl⟩
    · exact .inr ⟨_, rfl⟩
theorem returns_exact (file : List Byte) (n : Nat) : Returns (skReadExact file n) := by
  intro pos
  unfold skReadExact
  split
  · exact .inl ⟨_, rfl⟩
  · split
    · exact .inl ⟨_, rfl⟩
    · exact .inr ⟨_, rfl⟩
theorem returns_forward (n : Nat) : Returns (skForward n) := by
  intro pos; unfold skForward; split
  · exact .inl ⟨_, rfl⟩
  · exact .inr ⟨_, rfl⟩
theorem returns_start (n : Nat) : Returns (skStart n) := by
  intro pos; unfold skStart; split
  · exact .inl ⟨_, rfl⟩
  · exact .inr ⟨_, rfl⟩
theorem returns_back (file : List Byte) (n : Nat) : Returns (skBack file n) := by
  intro pos; unfold skBack; split
  · exact .inl ⟨_, rfl⟩
  · exact .inr ⟨_, rfl⟩
theorem returns_ite (c : Prop) [Decidable c] {x y : Sk α} (hx : Returns x) (hy : Returns y) : Returns (if c then x else y) := by
  split
  · exact hx
  · exact hy

theorem returns_findLoop (file : List Byte) (maxBack : Nat) : ∀ n, Returns (findEocdrLoop file maxBack n)
  | 0 => returns_zipErr
  | n + 1 => by
    unfold findEocdrLoop
    exact returns_bind (returns_back _ _) fun _ => returns_bind (returns_le _ _) fun _ =>
      returns_ite _ (returns_pure _) (returns_findLoop file maxBack n)

theorem returns_find (file : List Byte) : Returns (findEocdr file) :=
  returns_bind (returns_back _ _) fun _ => returns_findLoop _ _ _

theorem returns_eocdr (file : List Byte) : Returns (eocdrRead file) := by
  unfold eocdrRead
  simp only [sk_bind_eq]
  repeat (refine returns_bind (returns_le _ _) fun _ => ?_)
  exact returns_bind (returns_forward _) fun _ => returns_ite _ returns_zipErr (returns_ite _ returns_zipErr (returns_pure _))

theorem returns_eocdl64 (file : List Byte) : Returns (readEocdl64 file) := by
  unfold readEocdl64
  simp only [sk_bind_eq]
  repeat (refine returns_bind (returns_le _ _) fun _ => ?_)
  exact returns_ite _ returns_zipErr (returns_pure _)

theorem returns_eocdr64 (file : List Byte) : Returns (readEocdr64 file) := by
  unfold readEocdr64
  simp only [sk_bind_eq]
  repeat (refine returns_bind (returns_le _ _) fun _ => ?_)
  exact returns_ite _ returns_zipErr (returns_ite _ returns_zipErr (returns_pure _))

theorem returns_start_cd (file : List Byte) (e : Eocdr) : Returns (getStartOfCentralDir file e) := by
  intro pos
  unfold getStartOfCentralDir
  rcases returns_back file (4 + 16 + 4 + 18 + e.commentLen) pos with ⟨⟨_, p⟩, h⟩ | ⟨_, h⟩
  · simp only [h]
    simp only [sk_bind_eq]
    refine returns_bind (returns_le _ _) (fun _ => returns_ite _ (returns_pure _) ?_) p
    exact returns_bind (returns_eocdl64 _) fun _ => returns_bind (returns_start _) fun _ => returns_bind (returns_le _ _) fun _ =>
      returns_ite _ returns_zipErr (returns_eocdr64 _)
  · simp only [h]; exact .inl ⟨_, rfl⟩

theorem returns_sat (file : List Byte) (v d : Nat) : Returns (readIfSaturated file v d) :=
  returns_ite _ (returns_bind (returns_le _ _) fun _ => returns_pure _) (returns_pure _)

theorem returns_zip64Sub (file : List Byte) (z : Sizes) : Returns (readZip64Sub file z) := by
  unfold readZip64Sub
  simp only [sk_bind_eq]
  exact returns_bind (returns_sat _ _ _) fun _ => returns_bind (returns_sat _ _ _) fun _ => returns_bind (returns_sat _ _ _) fun _ => returns_pure _

theorem sat_pos {file : List Byte} {v d pos : Nat} {a : Nat × Nat} {p : Nat} (h : readIfSaturated file v d pos = .ok (a, p)) : pos ≤ p := by
  unfold readIfSaturated at h
  rw [sk_ite, sk_le8, sk_pure, sk_pure] at h
  simp only [Prod.mk.injEq] at h
  omega

theorem zip64Sub_pos {file : List Byte} {z : Sizes} {pos : Nat} {a : Sizes × Nat} {p : Nat} (h : readZip64Sub file z pos = .ok (a, p)) : pos ≤ p := by
  unfold readZip64Sub at h
  simp only [sk_bind_eq] at h
  rw [sk_bind] at h
  obtain ⟨a1, p1, h1, h⟩ := h
  rw [sk_bind] at h
  obtain ⟨a2, p2, h2, h⟩ := h
  rw [sk_bind] at h
  obtain ⟨a3, p3, h3, h⟩ := h
  rw [sk_pure] at h
  have := sat_pos h1; have := sat_pos h2; have := sat_pos h3
  simp only [Prod.mk.injEq] at h
  omega

/-- The loop over the extra field stops within the fuel: each iteration reads at least four bytes of the file. -/
theorem returns_extra (file : List Byte) (len : Nat) : ∀ (fuel total : Nat) (z : Sizes) (pos : Nat), 0 < fuel → file.length < pos + 4 * fuel →
    (∃ r, readExtraLoop file len fuel total z pos = .ok r) ∨ ∃ e, readExtraLoop file len fuel total z pos = .err (.io e)
  | 0, total, z, pos, h0, h => by omega
  | fuel + 1, total, z, pos, h0, h => by
    unfold readExtraLoop
    simp only [sk_bind_eq]
    by_cases hc : total < len
    · rw [if_pos hc]
      by_cases h4 : pos + 4 ≤ file.length
      · have e1 : skLe file 2 pos = .ok (leAt file pos 2, pos + 2) := by rw [skLe_eq _ _ _ (by omega), if_pos (by omega)]
        have e2 : skLe file 2 (pos + 2) = .ok (leAt file (pos + 2) 2, pos + 4) := by rw [skLe_eq _ _ _ (by omega), if_pos (by omega)]
        rw [sk_bind_of e1, sk_bind_of e2]
        have hr : Returns (readSub file (leAt file pos 2) z) :=
          returns_ite _ (returns_zip64Sub _ _) (returns_pure _)
        have hp : ∀ a p, (readSub file (leAt file pos 2) z) (pos + 4) = .ok (a, p) → pos + 4 ≤ p := by
          intro a p hx
          unfold readSub at hx
          rw [sk_ite] at hx
          rcases hx with ⟨_, hx⟩ | ⟨_, hx⟩
          · exact zip64Sub_pos hx
          · rw [sk_pure] at hx; simp only [Prod.mk.injEq] at hx; omega
        rcases hr (pos + 4) with ⟨⟨⟨z', dr⟩, p⟩, hx⟩ | ⟨e, hx⟩
        · have := hp _ _ hx
          rw [sk_bind_of hx]
          simp only []
          by_cases hd : dr > leAt file (pos + 2) 2
          · rw [if_pos hd]; exact returns_zipErr p
          · rw [if_neg hd]
            rcases returns_forward (leAt file (pos + 2) 2 - dr) p with ⟨⟨_, p'⟩, hf⟩ | ⟨e, hf⟩
            · have hp' : p ≤ p' := by
                unfold skForward at hf
                split at hf <;> simp at hf
                omega
              rw [sk_bind_of hf]
              exact returns_extra file len fuel _ _ p' (by omega) (by omega)
            · right; exact ⟨e, by rw [sk_bind_err hf]⟩
        · right; exact ⟨e, by rw [sk_bind_err hx]⟩
      · right
        unfold Sk.bind
        rw [skLe_eq _ _ _ (by omega)]
        by_cases h2 : pos + 2 ≤ file.length
        · rw [if_pos h2]; simp only [Res.bind_ok]; rw [skLe_eq _ _ _ (by omega), if_neg (by omega)]; exact ⟨_, rfl⟩
        · rw [if_neg h2]; exact ⟨_, rfl⟩
    · rw [if_neg hc]; exact .inl ⟨_, rfl⟩

theorem returns_cdHeader (lib : ZipLib) (file : List Byte) : Returns (cdHeaderRead lib file) := by
  unfold cdHeaderRead
  simp only [sk_bind_eq]
  refine returns_bind (returns_le _ _) fun _ => returns_ite _ returns_zipErr ?_
  repeat (refine returns_bind (returns_le _ _) fun _ => ?_)
  refine returns_bind (returns_exact _ _) fun _ => returns_bind ?_ fun _ => returns_bind (returns_forward _) fun _ =>
    returns_ite _ returns_zipErr (returns_ite _ returns_zipErr (returns_pure _))
  intro pos
  exact returns_extra _ _ _ _ _ pos (by omega) (by omega)

theorem returns_openZip (lib : ZipLib) (file : List Byte) : Returns (openZip lib file) := by
  unfold openZip
  simp only [sk_bind_eq]
  refine returns_bind (returns_find _) fun _ => returns_bind (returns_eocdr _) fun _ => returns_bind (returns_start_cd _ _) fun _ =>
    returns_bind (returns_start _) fun _ => returns_bind (returns_cdHeader _ _) fun h => returns_bind (returns_start _) fun _ =>
    returns_bind (returns_le _ _) fun _ => returns_ite _ returns_zipErr ?_
  refine returns_bind (returns_forward _) fun _ => returns_bind (returns_le _ _) fun _ => returns_bind (returns_le _ _) fun _ =>
    returns_bind (returns_forward _) fun _ => returns_bind (returns_forward _) fun _ => ?_
  intro pos
  unfold zipReader
  simp only []
  split
  · exact .inl ⟨_, rfl⟩
  · exact .inl ⟨_, rfl⟩
  · exact .inl ⟨_, rfl⟩
  · exact .inr ⟨_, rfl⟩

/-! ## The search for the end record -/

theorem findLoop_ok (file : List Byte) (maxBack : Nat) (hm : maxBack ≤ file.length) : ∀ (n pos q : Nat), n + 4 ≤ maxBack →
    (findEocdrLoop file maxBack n pos = .ok ((), q) ↔
      ∃ b, maxBack - n ≤ b ∧ b < maxBack ∧ q = file.length - b + 4 ∧ At file (file.length - b) [0x50, 0x4b, 5, 6] ∧
        ∀ b', maxBack - n ≤ b' → b' < b → ¬ At file (file.length - b') [0x50, 0x4b, 5, 6])
  | 0, pos, q, h => by
    simp only [findEocdrLoop, sk_err, false_iff]
    rintro ⟨b, h1, h2, _⟩
    omega
  | n + 1, pos, q, h => by
    have ih := findLoop_ok file maxBack hm n
    simp only [findEocdrLoop]
    rw [sk_back, sk_le4, sk_ite, sk_pure]
    have hsig := sig_iff (file := file) (off := file.length - (maxBack - (n + 1))) (v := 0x06054b50) (by omega)
    rw [sigEnd] at hsig
    rw [ih _ _ (by omega)]
    constructor
    · rintro ⟨h1, h2, h3⟩
      rcases h3 with ⟨h3, h4⟩ | ⟨h3, b, h4, h5, h6, h7, h8⟩
      · refine ⟨maxBack - (n + 1), by omega, by omega, by simpa using h4, hsig.mp ⟨h2, h3⟩, by omega⟩
      · refine ⟨b, by omega, h5, h6, h7, ?_⟩
        intro b' hb1 hb2
        by_cases he : b' = maxBack - (n + 1)
        · subst he; intro ha; exact h3 (hsig.mpr ha).2
        · exact h8 b' (by omega) hb2
    · rintro ⟨b, h4, h5, h6, h7, h8⟩
      have hl : file.length - (maxBack - (n + 1)) + 4 ≤ file.length := by omega
      refine ⟨by omega, hl, ?_⟩
      by_cases he : b = maxBack - (n + 1)
      · subst he; left; exact ⟨(hsig.mpr h7).2, by rw [h6]⟩
      · right
        refine ⟨?_, b, by omega, h5, h6, h7, fun b' hb1 hb2 => h8 b' (by omega) hb2⟩
        intro hv
        exact h8 _ (Nat.le_refl _) (by omega) (hsig.mp ⟨hl, hv⟩)

/-- The search finds the last signature. -/
theorem findEocdr_ok (file : List Byte) (pos q : Nat) : findEocdr file pos = .ok ((), q) ↔
    ∃ eo, q = eo + 4 ∧ 0 < eo ∧ file.length < eo + 2 ^ 20 ∧ At file eo [0x50, 0x4b, 5, 6] ∧ LastEnd file eo := by
  unfold findEocdr
  rw [sk_back]
  have h20 : (1 <<< 20 : Nat) = 2 ^ 20 := by decide
  rw [h20]
  simp only [Nat.zero_le, true_and]
  by_cases h4 : 4 ≤ min file.length (2 ^ 20)
  · rw [findLoop_ok file _ (by omega) _ _ _ (by omega)]
    constructor
    · rintro ⟨b, h1, h2, h3, h5, h6⟩
      have hlen := at_len h5 (by simp)
      simp only [List.length_cons, List.length_nil] at hlen
      refine ⟨file.length - b, h3, by omega, by omega, h5, ?_⟩
      intro p hp ha
      have := at_len ha (by simp)
      simp only [List.length_cons, List.length_nil] at this
      refine h6 (file.length - p) (by omega) (by omega) ?_
      rwa [show file.length - (file.length - p) = p by omega]
    · rintro ⟨eo, h1, h2, h3, h5, h6⟩
      have hlen := at_len h5 (by simp)
      simp only [List.length_cons, List.length_nil] at hlen
      have he : file.length - (file.length - eo) = eo := by omega
      refine ⟨file.length - eo, by omega, by omega, by omega, by rwa [he], ?_⟩
      intro b' hb1 hb2
      exact h6 _ (by omega)
  · have : min file.length (2 ^ 20) - 4 = 0 := by omega
    rw [this]
    simp only [findEocdrLoop, sk_err, false_iff]
    rintro ⟨eo, h1, h2, h3, h5, h6⟩
    have hlen := at_len h5 (by simp)
    simp only [List.length_cons, List.length_nil] at hlen
    omega

/-! ## Records -/

theorem eocdrRead_ok (file : List Byte) (pos : Nat) (e : Eocdr) (q : Nat) : eocdrRead file pos = .ok (e, q) ↔
    pos + 18 ≤ file.length ∧ pos + 18 + leAt file (pos + 16) 2 < maxOffset ∧
    leAt file pos 2 = 0 ∧ leAt file (pos + 2) 2 = 0 ∧ leAt file (pos + 4) 2 = 1 ∧ leAt file (pos + 6) 2 = 1 ∧
    e = ⟨leAt file (pos + 8) 4, leAt file (pos + 12) 4, leAt file (pos + 16) 2⟩ ∧ q = pos + 18 + leAt file (pos + 16) 2 := by
  unfold eocdrRead
  simp only [sk_bind_eq, sk_le2, sk_le4, sk_forward, sk_ite, sk_err, sk_pure, Prod.mk.injEq, Nat.add_assoc, Nat.reduceAdd, and_false, false_or]
  constructor
  · rintro ⟨_, _, _, _, _, _, h, hf, h1, h2, h3, h4⟩
    refine ⟨h, hf, ?_, ?_, ?_, ?_, h3, h4⟩ <;> omega
  · rintro ⟨h, hf, h1, h2, h3, h4, h5, h6⟩
    refine ⟨by omega, by omega, by omega, by omega, by omega, by omega, h, hf, by omega, by omega, h5, h6⟩

theorem readEocdl64_ok (file : List Byte) (pos off q : Nat) : readEocdl64 file pos = .ok (off, q) ↔
    pos + 16 ≤ file.length ∧ leAt file pos 4 = 0 ∧ leAt file (pos + 12) 4 = 1 ∧ off = leAt file (pos + 4) 8 ∧ q = pos + 16 := by
  unfold readEocdl64
  simp only [sk_bind_eq, sk_le8, sk_le4, sk_ite, sk_err, sk_pure, Prod.mk.injEq, Nat.add_assoc, Nat.reduceAdd, and_false, false_or]
  constructor
  · rintro ⟨_, _, h, h1, h2, h3⟩
    refine ⟨h, ?_, ?_, h2, h3⟩ <;> omega
  · rintro ⟨h, h1, h2, h3, h4⟩
    exact ⟨by omega, by omega, h, by omega, h3, h4⟩

theorem readEocdr64_ok (file : List Byte) (pos off q : Nat) : readEocdr64 file pos = .ok (off, q) ↔
    pos + 52 ≤ file.length ∧ leAt file (pos + 12) 4 = 0 ∧ leAt file (pos + 16) 4 = 0 ∧ leAt file (pos + 20) 8 = 1 ∧ leAt file (pos + 28) 8 = 1 ∧
    off = leAt file (pos + 44) 8 ∧ q = pos + 52 := by
  unfold readEocdr64
  simp only [sk_bind_eq, sk_le8, sk_le4, sk_le2, sk_ite, sk_err, sk_pure, Prod.mk.injEq, Nat.add_assoc, Nat.reduceAdd, and_false, false_or]
  constructor
  · rintro ⟨_, _, _, _, _, _, _, _, h, h1, h2, h3, h4⟩
    refine ⟨h, ?_, ?_, ?_, ?_, h3, h4⟩ <;> omega
  · rintro ⟨h, h1, h2, h3, h4, h5, h6⟩
    exact ⟨by omega, by omega, by omega, by omega, by omega, by omega, by omega, by omega, h, by omega, by omega, h5, h6⟩

/-- Where the central directory is looked for. -/
theorem getStart_ok (file : List Byte) (e : Eocdr) (pos cd : Nat) :
    (∃ q, getStartOfCentralDir file e pos = .ok (cd, q)) ↔
      let lo := file.length - (42 + e.commentLen)
      (¬ (42 + e.commentLen ≤ file.length ∧ leAt file lo 4 = 0x07064b50) ∧ cd = e.cdOffset) ∨
      (42 + e.commentLen ≤ file.length ∧ leAt file lo 4 = 0x07064b50 ∧ leAt file (lo + 4) 4 = 0 ∧ leAt file (lo + 16) 4 = 1 ∧
        let zo := leAt file (lo + 8) 8
        zo < maxOffset ∧ zo + 56 ≤ file.length ∧ leAt file zo 4 = 0x06064b50 ∧ leAt file (zo + 16) 4 = 0 ∧ leAt file (zo + 20) 4 = 0 ∧
        leAt file (zo + 24) 8 = 1 ∧ leAt file (zo + 32) 8 = 1 ∧ cd = leAt file (zo + 48) 8) := by
  unfold getStartOfCentralDir
  simp only [show 4 + 16 + 4 + 18 + e.commentLen = 42 + e.commentLen by omega]
  have hb : skBack file (42 + e.commentLen) pos =
      if 42 + e.commentLen ≤ file.length then .ok ((), file.length - (42 + e.commentLen)) else .err (.io .other) := rfl
  by_cases hl : 42 + e.commentLen ≤ file.length
  · rw [if_pos hl] at hb
    simp only [hb]
    simp only [sk_bind_eq, sk_le4, sk_ite, sk_pure, Prod.mk.injEq]
    constructor
    · rintro ⟨q, h1, h | h⟩
      · left; exact ⟨fun hx => h.1 hx.2, h.2.1⟩
      · right
        obtain ⟨h2, h⟩ := h
        have h2 : leAt file (file.length - (42 + e.commentLen)) 4 = 0x07064b50 := Classical.not_not.mp h2
        rw [sk_bind] at h
        obtain ⟨zo, p, h3, h⟩ := h
        rw [readEocdl64_ok] at h3
        obtain ⟨g1, g2, g3, g4, g5⟩ := h3
        rw [sk_start, sk_le4, sk_ite] at h
        simp only [sk_err, and_false, false_or] at h
        obtain ⟨k1, k2, k3, k4⟩ := h
        rw [readEocdr64_ok] at k4
        simp only [Nat.add_assoc, Nat.reduceAdd] at *
        subst g4
        obtain ⟨m1, m2, m3, m4, m5, m6, _⟩ := k4
        exact ⟨hl, h2, g2, g3, k1, by omega, Classical.not_not.mp k3, m2, m3, m4, m5, m6⟩
    · rintro (⟨h1, h2⟩ | ⟨_, h2, h3, h4, h5, h6, h7, h8, h9, h10, h11, h12⟩)
      · exact ⟨_, by omega, Or.inl ⟨fun hx => h1 ⟨hl, hx⟩, h2, rfl⟩⟩
      · refine ⟨leAt file (file.length - (42 + e.commentLen) + 8) 8 + 4 + 52, by omega, Or.inr ⟨fun hx => hx h2, ?_⟩⟩
        rw [sk_bind]
        refine ⟨leAt file (file.length - (42 + e.commentLen) + 8) 8, file.length - (42 + e.commentLen) + 4 + 16, ?_, ?_⟩
        · rw [readEocdl64_ok]
          simp only [Nat.add_assoc, Nat.reduceAdd]
          exact ⟨by omega, h3, h4, trivial, trivial⟩
        · rw [sk_start, sk_le4, sk_ite]
          simp only [sk_err, and_false, false_or]
          refine ⟨h5, by omega, fun hx => hx h7, ?_⟩
          rw [readEocdr64_ok]
          simp only [Nat.add_assoc, Nat.reduceAdd]
          exact ⟨by omega, h8, h9, h10, h11, h12, trivial⟩
  · rw [if_neg hl] at hb
    simp only [hb]
    constructor
    · rintro ⟨q, h⟩; simp at h; left; exact ⟨fun hx => hl hx.1, h.1.symm⟩
    · rintro (⟨_, h2⟩ | ⟨h1, _⟩)
      · exact ⟨pos, by rw [h2]⟩
      · exact absurd h1 hl

/-- The central directory header. -/
theorem cdHeader_ok (lib : ZipLib) (file : List Byte) (cd : Nat) (h : CdHeader) (q : Nat) : cdHeaderRead lib file cd = .ok (h, q) ↔
    cd + 46 + leAt file (cd + 28) 2 ≤ file.length ∧ leAt file cd 4 = 0x02014b50 ∧
    leAt file (cd + 8) 2 &&& 1 = 0 ∧ (leAt file (cd + 34) 2 = 0 ∨ leAt file (cd + 34) 2 = 0xffff) ∧
    h.method = leAt file (cd + 10) 2 ∧ h.crc32 = leAt file (cd + 16) 4 ∧
    h.name = zipName lib (leAt file (cd + 8) 2) ((file.drop (cd + 46)).take (leAt file (cd + 28) 2)) ∧
    ∃ p, readExtraLoop file (leAt file (cd + 30) 2) (file.length + 1) 0 ⟨leAt file (cd + 24) 4, leAt file (cd + 20) 4, leAt file (cd + 42) 4⟩
        (cd + 46 + leAt file (cd + 28) 2) = .ok (h.sizes, p) ∧ p + leAt file (cd + 32) 2 < maxOffset ∧ q = p + leAt file (cd + 32) 2 := by
  unfold cdHeaderRead
  simp only [sk_bind_eq, sk_le2, sk_le4, sk_ite, sk_err, Nat.add_assoc, Nat.reduceAdd, and_false, false_or]
  constructor
  · rintro ⟨_, hs, _, _, _, _, _, _, _, _, _, _, _, _, _, _, _, h46, hr⟩
    rw [sk_exact _ _ _ _ _ h46] at hr
    obtain ⟨hn, hr⟩ := hr
    rw [sk_bind] at hr
    obtain ⟨z, p, hx, hr⟩ := hr
    rw [sk_forward, sk_ite, sk_ite, sk_pure] at hr
    simp only [sk_err, and_false, false_or, Prod.mk.injEq] at hr
    obtain ⟨hp, h1, h2, rfl, rfl⟩ := hr
    simp only [Nat.add_assoc] at *
    refine ⟨hn, by omega, by omega, by omega, trivial, trivial, trivial, p, hx, hp, rfl⟩
  · rintro ⟨hn, hs, h1, h2, h3, h4, h5, p, hx, hp, hq⟩
    have h46 : cd + 46 ≤ file.length := by omega
    refine ⟨by omega, by omega, by omega, by omega, by omega, by omega, by omega, by omega, by omega, by omega, by omega, by omega, by omega,
      by omega, by omega, by omega, by omega, h46, ?_⟩
    rw [sk_exact _ _ _ _ _ h46]
    refine ⟨by omega, ?_⟩
    rw [sk_bind]
    refine ⟨h.sizes, p, by simpa only [Nat.add_assoc] using hx, ?_⟩
    rw [sk_forward, sk_ite, sk_ite, sk_pure]
    simp only [sk_err, and_false, false_or, Prod.mk.injEq]
    refine ⟨hp, by omega, by omega, ?_, hq⟩
    obtain ⟨a, b, c, d⟩ := h
    simp only at h3 h4 h5
    rw [h3, h4, h5]

end Chopper
