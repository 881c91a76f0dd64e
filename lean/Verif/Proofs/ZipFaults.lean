import Verif.Spec.ZipFaults
import Verif.Proofs.Zip4

/-!
# Zip archives on a failing file: simulation of the functions without failures
-/
namespace Chopper
open Spec

variable {α β : Type}

/-- From position `pos`, whatever fails: `y` reports a failure, or does what `x` does. -/
def SimAt (pos : Nat) (x : Sk α) (y : SkF α) : Prop := ∀ fs : Faults,
  (∃ e, some e ∈ fs ∧ y (pos, fs) = .err (.io e)) ∨ ∃ fs', fs' <:+ fs ∧ y (pos, fs) = (x pos).bind fun (a, p) => .ok (a, (p, fs'))

def Sim (x : Sk α) (y : SkF α) : Prop := ∀ pos, SimAt pos x y

theorem Sim.pure (a : α) : Sim (Sk.pure a) (SkF.pure a) := fun _ fs => .inr ⟨fs, List.suffix_refl _, rfl⟩

theorem Sim.err : Sim (zipErr : Sk α) fErr := fun _ fs => .inr ⟨fs, List.suffix_refl _, rfl⟩

theorem Sim.faulty (x : Sk α) : Sim x (Chopper.faulty x) := by
  intro pos fs
  match fs with
  | [] => exact .inr ⟨[], List.suffix_refl _, rfl⟩
  | none :: fs => exact .inr ⟨fs, List.suffix_cons _ _, rfl⟩
  | some e :: fs => exact .inl ⟨e, by simp, rfl⟩

theorem SimAt.bind {pos : Nat} {x : Sk α} {y : SkF α} {f : α → Sk β} {g : α → SkF β} (h : SimAt pos x y)
    (hf : ∀ a p, x pos = .ok (a, p) → SimAt p (f a) (g a)) : SimAt pos (Sk.bind x f) (SkF.bind y g) := by
  intro fs
  rcases h fs with ⟨e, he, hy⟩ | ⟨fs', hs, hy⟩
  · exact .inl ⟨e, he, by simp only [SkF.bind, hy]; rfl⟩
  · cases hx : x pos with
    | ok r =>
      obtain ⟨a, p⟩ := r
      rw [hx] at hy
      rcases hf a p hx fs' with ⟨e, he, hg⟩ | ⟨fs'', hs', hg⟩
      · exact .inl ⟨e, hs.subset he, by simp only [SkF.bind, hy, Res.bind_ok]; exact hg⟩
      · exact .inr ⟨fs'', hs'.trans hs, by simp only [SkF.bind, Sk.bind, hy, hx, Res.bind_ok]; exact hg⟩
    | err e => rw [hx] at hy; exact .inr ⟨fs', hs, by simp only [SkF.bind, Sk.bind, hy, hx]; rfl⟩
    | panic => rw [hx] at hy; exact .inr ⟨fs', hs, by simp only [SkF.bind, Sk.bind, hy, hx]; rfl⟩
    | diverge => rw [hx] at hy; exact .inr ⟨fs', hs, by simp only [SkF.bind, Sk.bind, hy, hx]; rfl⟩

theorem Sim.bind {x : Sk α} {y : SkF α} {f : α → Sk β} {g : α → SkF β} (h : Sim x y) (hf : ∀ a, Sim (f a) (g a)) :
    Sim (Sk.bind x f) (SkF.bind y g) := fun pos => (h pos).bind fun a p _ => hf a p

theorem Sim.bind' {x : Sk α} {y : SkF α} {f : α → Sk β} {g : α → SkF β} (h : Sim x y) (hf : ∀ a, Sim (f a) (g a)) :
    Sim (x >>= f) (y >>= g) := h.bind hf

theorem SimAt.bind' {pos : Nat} {x : Sk α} {y : SkF α} {f : α → Sk β} {g : α → SkF β} (h : SimAt pos x y)
    (hf : ∀ a p, x pos = .ok (a, p) → SimAt p (f a) (g a)) : SimAt pos (x >>= f) (y >>= g) := h.bind hf

theorem Sim.ite {c : Prop} [Decidable c] {x x' : Sk α} {y y' : SkF α} (h : Sim x y) (h' : Sim x' y') :
    Sim (if c then x else x') (if c then y else y') := by
  split
  · exact h
  · exact h'

theorem Sim.exact (file : List Byte) (n : Nat) : Sim (skReadExact file n) (fReadExact file n) := by
  unfold fReadExact
  by_cases h : n = 0
  · subst h
    rw [if_pos rfl]
    intro pos fs
    exact .inr ⟨fs, List.suffix_refl _, rfl⟩
  · rw [if_neg h]; exact .faulty _

theorem Sim.le (file : List Byte) (n : Nat) : Sim (skLe file n) (fLe file n) := (Sim.exact file n).bind fun _ => .pure _

theorem Sim.start (n : Nat) : Sim (skStart n) (fStart n) := .faulty _
theorem Sim.forward (n : Nat) : Sim (skForward n) (fForward n) := .faulty _
theorem Sim.back (file : List Byte) (n : Nat) : Sim (skBack file n) (fBack file n) := .faulty _

macro "simsteps" : tactic => `(tactic| repeat (first
  | exact Sim.pure _ | exact Sim.err | exact Sim.le _ _ | exact Sim.start _ | exact Sim.forward _ | exact Sim.back _ _ | exact Sim.exact _ _
  | assumption | refine Sim.bind' ?_ (fun _ => ?_) | refine Sim.bind ?_ (fun _ => ?_) | refine Sim.ite ?_ ?_))

theorem sim_isZip (file : List Byte) : Sim (isZip file) (isZipF file) := by unfold isZip isZipF; simsteps

theorem sim_findLoop (file : List Byte) (maxBack : Nat) : ∀ n, Sim (findEocdrLoop file maxBack n) (findEocdrLoopF file maxBack n)
  | 0 => .err
  | n + 1 => by
    have ih := sim_findLoop file maxBack n
    unfold findEocdrLoop findEocdrLoopF
    simsteps

theorem sim_find (file : List Byte) : Sim (findEocdr file) (findEocdrF file) :=
  (Sim.back _ _).bind fun _ => sim_findLoop _ _ _

theorem sim_eocdr (file : List Byte) : Sim (eocdrRead file) (eocdrReadF file) := by unfold eocdrRead eocdrReadF; simsteps

theorem sim_eocdl64 (file : List Byte) : Sim (readEocdl64 file) (readEocdl64F file) := by unfold readEocdl64 readEocdl64F; simsteps

theorem sim_eocdr64 (file : List Byte) : Sim (readEocdr64 file) (readEocdr64F file) := by unfold readEocdr64 readEocdr64F; simsteps

theorem sim_sat (file : List Byte) (v d : Nat) : Sim (readIfSaturated file v d) (readIfSaturatedF file v d) := by
  unfold readIfSaturated readIfSaturatedF; simsteps

theorem sim_zip64Sub (file : List Byte) (z : Sizes) : Sim (readZip64Sub file z) (readZip64SubF file z) := by
  unfold readZip64Sub readZip64SubF
  refine Sim.bind' (sim_sat _ _ _) fun (u, r) => Sim.bind' (sim_sat _ _ _) fun (c, r) => Sim.bind' (sim_sat _ _ _) fun (o, r) => .pure _

theorem sim_sub (file : List Byte) (id : Nat) (z : Sizes) : Sim (readSub file id z) (readSubF file id z) :=
  Sim.ite (sim_zip64Sub _ _) (.pure _)

theorem sim_extra (file : List Byte) (len : Nat) : ∀ (fuel total : Nat) (z : Sizes),
    Sim (readExtraLoop file len fuel total z) (readExtraLoopF file len fuel total z)
  | 0, _, _ => fun _ fs => .inr ⟨fs, List.suffix_refl _, rfl⟩
  | fuel + 1, total, z => by
    unfold readExtraLoop readExtraLoopF
    refine Sim.ite ?_ (.pure _)
    refine Sim.bind' (.le _ _) fun id => Sim.bind' (.le _ _) fun dataSize => Sim.bind' (sim_sub _ _ _) fun (z', r) => Sim.ite .err ?_
    exact Sim.bind' (.forward _) fun _ => sim_extra file len fuel _ _

theorem sim_cdHeader (lib : ZipLib) (file : List Byte) (pos : Nat) (hp : pos < maxOffset) :
    SimAt pos (cdHeaderRead lib file) (cdHeaderReadF lib file) := by
  have hrest : ∀ y, (do fForward 0; y : SkF CdHeader) = cdHeaderReadF lib file → Sim (cdHeaderRead lib file) y →
      SimAt pos (cdHeaderRead lib file) (cdHeaderReadF lib file) := by
    intro y hy hs fs
    rw [← hy]
    rcases Sim.forward 0 pos fs with ⟨e, he, h1⟩ | ⟨fs', hs', h1⟩
    · refine .inl ⟨e, he, ?_⟩
      show SkF.bind _ _ _ = _
      simp only [SkF.bind, h1]; rfl
    · have h2 : skForward 0 pos = .ok ((), pos) := by simp [skForward, hp]
      rw [h2] at h1
      have h3 : (do fForward 0; y : SkF CdHeader) (pos, fs) = y (pos, fs') := by
        show SkF.bind _ _ _ = _
        simp only [SkF.bind, h1, Res.bind_ok]
      rw [h3]
      rcases hs pos fs' with ⟨e, he, h4⟩ | ⟨fs'', hs'', h4⟩
      · exact .inl ⟨e, hs'.subset he, h4⟩
      · exact .inr ⟨fs'', hs''.trans hs', h4⟩
  refine hrest _ rfl ?_
  have hx := sim_extra file
  unfold cdHeaderRead
  refine Sim.bind' (.le _ _) fun _ => Sim.ite .err ?_
  iterate 16 refine Sim.bind' (.le _ _) fun _ => ?_
  refine Sim.bind' (.exact _ _) fun _ => Sim.bind' (hx _ _ _ _) fun _ => ?_
  simsteps

theorem sim_reader (lib : ZipLib) (file : List Byte) (h : CdHeader) : Sim (zipReader lib file h) (zipReaderF lib file h) :=
  fun _ fs => .inr ⟨fs, List.suffix_refl _, rfl⟩

/-- `getStartOfCentralDir` after its first seek. -/
def afterSeek (file : List Byte) (eocdr : Eocdr) : Sk Nat := do
  let sig ← skLe file 4
  if sig ≠ 0x07064b50 then Sk.pure eocdr.cdOffset
  else do
    let off ← readEocdl64 file
    skStart off
    let sig ← skLe file 4
    if sig ≠ 0x06064b50 then zipErr else readEocdr64 file

theorem sim_afterSeek (file : List Byte) (e : Eocdr) : Sim (afterSeek file e) (afterSeekF file e) := by
  have h1 := sim_eocdl64 file
  have h2 := sim_eocdr64 file
  unfold afterSeek afterSeekF
  simsteps

/-- The rest of `openZip` once the place of the central directory is known. -/
def fromCentral (lib : ZipLib) (file : List Byte) (start : Nat) : Sk (CrcReader × Str) := do
  skStart start
  let h ← cdHeaderRead lib file
  skStart h.sizes.off
  let sig ← skLe file 4
  if sig ≠ 0x04034b50 then zipErr
  else do
    skForward 22
    let nameLen ← skLe file 2
    let extraLen ← skLe file 2
    skForward nameLen
    skForward extraLen
    zipReader lib file h

def fromCentralF (lib : ZipLib) (file : List Byte) (start : Nat) : SkF (CrcReader × Str) := do
  fStart start
  let h ← cdHeaderReadF lib file
  fStart h.sizes.off
  let sig ← fLe file 4
  if sig ≠ 0x04034b50 then fErr
  else do
    fForward 22
    let nameLen ← fLe file 2
    let extraLen ← fLe file 2
    fForward nameLen
    fForward extraLen
    zipReaderF lib file h

theorem sim_fromCentral (lib : ZipLib) (file : List Byte) (start : Nat) : Sim (fromCentral lib file start) (fromCentralF lib file start) := by
  intro pos
  unfold fromCentral fromCentralF
  refine SimAt.bind' (Sim.start _ pos) ?_
  intro _ p hp
  have hp' : p < maxOffset := by
    unfold skStart at hp
    split at hp
    · simp at hp; omega
    · simp at hp
  refine SimAt.bind' (sim_cdHeader lib file p hp') ?_
  intro h p' _
  have hr := sim_reader lib file h
  have : Sim (do skStart h.sizes.off
                 let sig ← skLe file 4
                 if sig ≠ 0x04034b50 then zipErr
                 else do
                   skForward 22
                   let nameLen ← skLe file 2
                   let extraLen ← skLe file 2
                   skForward nameLen
                   skForward extraLen
                   zipReader lib file h)
      (do fStart h.sizes.off
          let sig ← fLe file 4
          if sig ≠ 0x04034b50 then fErr
          else do
            fForward 22
            let nameLen ← fLe file 2
            let extraLen ← fLe file 2
            fForward nameLen
            fForward extraLen
            zipReaderF lib file h) := by simsteps
  exact this p'

theorem fromCentral_pos (lib : ZipLib) (file : List Byte) (start p q : Nat) : fromCentral lib file start p = fromCentral lib file start q := by
  unfold fromCentral
  simp only [sk_bind_eq, Sk.bind, skStart]

theorem getStart_eq (file : List Byte) (e : Eocdr) (pos : Nat) : getStartOfCentralDir file e pos =
    if 42 + e.commentLen ≤ file.length then afterSeek file e (file.length - (42 + e.commentLen)) else .ok (e.cdOffset, pos) := by
  unfold getStartOfCentralDir skBack
  by_cases h : 42 + e.commentLen ≤ file.length
  · have : 4 + 16 + 4 + 18 + e.commentLen ≤ file.length := by omega
    rw [if_pos h, if_pos this]
    have e1 : 4 + 16 + 4 + 18 + e.commentLen = 42 + e.commentLen := by omega
    simp only [e1]
    rfl
  · have : ¬ 4 + 16 + 4 + 18 + e.commentLen ≤ file.length := by omega
    rw [if_neg h, if_neg this]

/-- `getStartOfCentralDirF`: a failure is reported, or it does what it does without failures, or its first seek failed and the
directory is looked for where the end record says. -/
theorem getStartF (file : List Byte) (e : Eocdr) (pos : Nat) (fs : Faults) :
    (∃ k, some k ∈ fs ∧ getStartOfCentralDirF file e (pos, fs) = .err (.io k)) ∨
    (∃ fs', fs' <:+ fs ∧ getStartOfCentralDirF file e (pos, fs) = (getStartOfCentralDir file e pos).bind fun (a, p) => .ok (a, (p, fs'))) ∨
    (∃ fs', fs' <:+ fs ∧ (∃ k, some k ∈ fs) ∧ 42 + e.commentLen ≤ file.length ∧ getStartOfCentralDirF file e (pos, fs) = .ok (e.cdOffset, (pos, fs'))) := by
  rw [getStart_eq]
  have e1 : 4 + 16 + 4 + 18 + e.commentLen = 42 + e.commentLen := by omega
  unfold getStartOfCentralDirF
  rw [e1]
  by_cases h : 42 + e.commentLen ≤ file.length
  · rw [if_pos h]
    have hb : skBack file (42 + e.commentLen) pos = .ok ((), file.length - (42 + e.commentLen)) := by simp [skBack, h]
    match fs with
    | some k :: fs =>
      refine .inr (.inr ⟨fs, List.suffix_cons _ _, ⟨k, by simp⟩, h, ?_⟩)
      simp only [fBack, Chopper.faulty, List.tail_cons]
    | none :: fs =>
      have : fBack file (42 + e.commentLen) (pos, none :: fs) = .ok ((), (file.length - (42 + e.commentLen), fs)) := by
        simp only [fBack, Chopper.faulty, hb, Res.bind_ok]
      rw [this]
      simp only
      rcases sim_afterSeek file e (file.length - (42 + e.commentLen)) fs with ⟨k, hk, hy⟩ | ⟨fs', hs, hy⟩
      · exact .inl ⟨k, by simp [hk], hy⟩
      · exact .inr (.inl ⟨fs', hs.trans (List.suffix_cons _ _), hy⟩)
    | [] =>
      have : fBack file (42 + e.commentLen) (pos, []) = .ok ((), (file.length - (42 + e.commentLen), [])) := by
        simp only [fBack, Chopper.faulty, hb, Res.bind_ok]
      rw [this]
      simp only
      rcases sim_afterSeek file e (file.length - (42 + e.commentLen)) [] with ⟨k, hk, hy⟩ | ⟨fs', hs, hy⟩
      · exact .inl ⟨k, by simp [hk], hy⟩
      · exact .inr (.inl ⟨fs', hs, hy⟩)
  · rw [if_neg h]
    have hb : skBack file (42 + e.commentLen) pos = .err (.io .other) := by simp [skBack, h]
    refine .inr (.inl ⟨fs.tail, List.tail_suffix _, ?_⟩)
    match fs with
    | some k :: fs => simp only [fBack, Chopper.faulty, List.tail_cons, Res.bind_ok]
    | none :: fs => simp only [fBack, Chopper.faulty, hb, List.tail_cons, Res.bind_ok]; rfl
    | [] => simp only [fBack, Chopper.faulty, hb, List.tail_nil, Res.bind_ok]; rfl

theorem openZip_parts (lib : ZipLib) (file : List Byte) : openZip lib file =
    Sk.bind (findEocdr file) fun _ => Sk.bind (eocdrRead file) fun e => Sk.bind (getStartOfCentralDir file e) fun s => fromCentral lib file s := rfl

theorem openZipF_parts (lib : ZipLib) (file : List Byte) : openZipF lib file =
    SkF.bind (findEocdrF file) fun _ => SkF.bind (eocdrReadF file) fun e => SkF.bind (getStartOfCentralDirF file e) fun s => fromCentralF lib file s := rfl

theorem answer_of_bind {r : Res (α × Nat)} {fs : Faults} : answer (r.bind fun (a, p) => .ok (a, (p, fs))) = answer r := by
  cases r <;> rfl

/-- Opening: a failure is reported, or the result is the one without failures, or the first seek of `get_start_of_central_dir_offset` failed
and everything else worked. -/
theorem openZipF_cases (lib : ZipLib) (file : List Byte) (pos : Nat) (fs : Faults) :
    (∃ k, some k ∈ fs ∧ openZipF lib file (pos, fs) = .err (.io k)) ∨
    answer (openZipF lib file (pos, fs)) = answer (openZip lib file pos) ∨
    (∃ p1 e p2, (∃ k, some k ∈ fs) ∧ findEocdr file pos = .ok ((), p1) ∧ eocdrRead file p1 = .ok (e, p2) ∧ 42 + e.commentLen ≤ file.length ∧
      answer (openZipF lib file (pos, fs)) = answer (fromCentral lib file e.cdOffset 0)) := by
  rw [openZipF_parts, openZip_parts]
  rcases sim_find file pos fs with ⟨k, hk, hy⟩ | ⟨fs1, hs1, hy⟩
  · exact .inl ⟨k, hk, by simp only [SkF.bind, hy]; rfl⟩
  cases hx : findEocdr file pos with
  | ok r =>
    obtain ⟨⟨⟩, p1⟩ := r
    rw [hx] at hy
    simp only [SkF.bind, Sk.bind, hy, hx, Res.bind_ok]
    rcases sim_eocdr file p1 fs1 with ⟨k, hk, hy1⟩ | ⟨fs2, hs2, hy1⟩
    · exact .inl ⟨k, hs1.subset hk, by simp only [hy1]; rfl⟩
    cases hx1 : eocdrRead file p1 with
    | ok r =>
      obtain ⟨e, p2⟩ := r
      rw [hx1] at hy1
      simp only [hy1, Res.bind_ok]
      rcases getStartF file e p2 fs2 with ⟨k, hk, hy2⟩ | ⟨fs3, hs3, hy2⟩ | ⟨fs3, hs3, ⟨k0, hk0⟩, hl, hy2⟩
      · exact .inl ⟨k, hs1.subset (hs2.subset hk), by simp only [hy2]; rfl⟩
      · cases hx2 : getStartOfCentralDir file e p2 with
        | ok r =>
          obtain ⟨s, p3⟩ := r
          rw [hx2] at hy2
          simp only [hy2, Res.bind_ok]
          rcases sim_fromCentral lib file s p3 fs3 with ⟨k, hk, hy3⟩ | ⟨fs4, hs4, hy3⟩
          · exact .inl ⟨k, hs1.subset (hs2.subset (hs3.subset hk)), hy3⟩
          · exact .inr (.inl (by rw [hy3, answer_of_bind]))
        | err k => rw [hx2] at hy2; simp only [hy2]; exact .inr (.inl rfl)
        | panic => rw [hx2] at hy2; simp only [hy2]; exact .inr (.inl rfl)
        | diverge => rw [hx2] at hy2; simp only [hy2]; exact .inr (.inl rfl)
      · simp only [hy2, Res.bind_ok]
        rcases sim_fromCentral lib file e.cdOffset p2 fs3 with ⟨k, hk, hy3⟩ | ⟨fs4, hs4, hy3⟩
        · exact .inl ⟨k, hs1.subset (hs2.subset (hs3.subset hk)), hy3⟩
        · refine .inr (.inr ⟨p1, e, p2, ⟨k0, hs1.subset (hs2.subset hk0)⟩, rfl, hx1, hl, ?_⟩)
          rw [hy3, answer_of_bind, fromCentral_pos lib file _ p2 0]
    | err k => rw [hx1] at hy1; simp only [hy1]; exact .inr (.inl rfl)
    | panic => rw [hx1] at hy1; simp only [hy1]; exact .inr (.inl rfl)
    | diverge => rw [hx1] at hy1; simp only [hy1]; exact .inr (.inl rfl)
  | err k => rw [hx] at hy; simp only [SkF.bind, Sk.bind, hy, hx]; exact .inr (.inl rfl)
  | panic => rw [hx] at hy; simp only [SkF.bind, Sk.bind, hy, hx]; exact .inr (.inl rfl)
  | diverge => rw [hx] at hy; simp only [SkF.bind, Sk.bind, hy, hx]; exact .inr (.inl rfl)

/-- `openZip` is the directory search followed by `fromCentral`. -/
theorem openZip_from {lib : ZipLib} {file : List Byte} {pos p1 p2 p3 s : Nat} {e : Eocdr} (h1 : findEocdr file pos = .ok ((), p1))
    (h2 : eocdrRead file p1 = .ok (e, p2)) (h3 : getStartOfCentralDir file e p2 = .ok (s, p3)) :
    openZip lib file pos = fromCentral lib file s 0 := by
  rw [openZip_parts]
  simp only [Sk.bind, h1, h2, h3, Res.bind_ok]
  exact fromCentral_pos _ _ _ _ _

theorem single_start {file : List Byte} {L : Layout} {name : Str} {usize : Nat} {content : List Byte} (h : SingleFile file L name usize content) :
    ∃ q, getStartOfCentralDir file ⟨L.cdSize, L.cdOff32, L.comment.length⟩ (L.eo + 4 + 18 + L.comment.length) = .ok (L.cd, q) := by
  have hsize := h.size
  have hmax : maxOffset = 2 ^ 63 := rfl
  obtain ⟨e1, e2, e3, e4, e5, e6, e7, e8, e9⟩ := eocd_fields h.endAt (by omega) (by omega) (by omega) (by omega) h.cdSize h.cdOff32 h.comment
  obtain ⟨c1, c2, c3, c4, c5, c6, c7, c8, c9, c10, c11, c12, c13, c14, c15⟩ := central_fields h.centralOk h.centralAt
  have hord := h.order
  rw [central_length _ h.centralOk] at hord
  have hcl := h.endLast
  have hcb := h.comment
  have hcc := h.centralOk.comment
  rw [getStart_ok]
  simp only
  have hlo : file.length - (42 + L.comment.length) = L.eo - 20 := by omega
  rw [hlo]
  rcases h.central with ⟨hno, hoff⟩ | ⟨hge, zo, pre, cs, hpre, hcs, hzo, hloc, hz⟩
  · left
    refine ⟨?_, hoff.symm⟩
    rintro ⟨_, hx⟩
    apply hno
    rw [← sigLoc64]
    exact (sig_iff (by omega)).mp ⟨by omega, hx⟩
  · right
    have hl1 := at_len hloc (by simp [locatorBytes])
    simp only [locatorBytes, at_append, List.length_append, leBytes_length, List.length_cons, List.length_nil, Nat.reduceAdd] at hloc hl1
    obtain ⟨⟨⟨l1, l2⟩, l3⟩, l4⟩ := hloc
    have hl2 := at_len hz (by simp [eocd64Bytes])
    simp only [eocd64Bytes, at_append, List.length_append, leBytes_length, List.length_cons, List.length_nil, hpre, Nat.reduceAdd] at hz hl2
    obtain ⟨⟨⟨⟨⟨⟨⟨z1, z2⟩, z3⟩, z4⟩, z5⟩, z6⟩, z7⟩, z8⟩ := hz
    have hzo' : leAt file (L.eo - 20 + 8) 8 = zo := leAt_of_at l3 (by omega)
    rw [hzo']
    refine ⟨by omega, ?_, leAt_of_at l2 (by omega), leAt_of_at l4 (by omega), by omega, by omega, ?_, leAt_of_at z3 (by omega),
      leAt_of_at z4 (by omega), leAt_of_at z5 (by omega), leAt_of_at z6 (by omega), (leAt_of_at z8 (by omega)).symm⟩
    · rw [← sigLoc64] at l1; exact leAt_of_at l1 (by omega)
    · rw [← sigEnd64] at z1; exact leAt_of_at z1 (by omega)

theorem single_end {file : List Byte} {L : Layout} {name : Str} {usize : Nat} {content : List Byte} (h : SingleFile file L name usize content)
    (hlast : LastEnd file L.eo) {pos p1 p2 : Nat} {e : Eocdr} (h1 : findEocdr file pos = .ok ((), p1)) (h2 : eocdrRead file p1 = .ok (e, p2)) :
    e = ⟨L.cdSize, L.cdOff32, L.comment.length⟩ ∧ p2 = L.eo + 4 + 18 + L.comment.length := by
  obtain ⟨e1, e2, e3, e4, e5, e6, e7, e8, e9⟩ := eocd_fields h.endAt (by omega) (by omega) (by omega) (by omega) h.cdSize h.cdOff32 h.comment
  obtain ⟨eo, rfl, _, _, h4, h5⟩ := (findEocdr_ok file pos p1).1 h1
  have := lastEnd_unique h4 e1 h5 hlast
  subst this
  rw [eocdrRead_ok] at h2
  simp only [Nat.add_assoc, Nat.reduceAdd] at h2
  rw [e7, e8, e9] at h2
  exact ⟨h2.2.2.2.2.2.2.1, by have := h2.2.2.2.2.2.2.2; omega⟩

/-- Nothing is found behind the end of the file. -/
theorem fromCentral_beyond (lib : ZipLib) (file : List Byte) (s : Nat) (hs : s < maxOffset) (h : file.length < s + 4) (p : Nat) :
    fromCentral lib file s p = .err (.io .unexpectedEof) := by
  unfold fromCentral
  simp only [sk_bind_eq]
  rw [sk_bind_of (show skStart s p = .ok ((), s) by simp [skStart, hs])]
  refine sk_bind_err ?_
  unfold cdHeaderRead
  simp only [sk_bind_eq]
  refine sk_bind_err ?_
  rw [skLe_eq _ _ _ (by omega), if_neg (by omega)]

end Chopper
