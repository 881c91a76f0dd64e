import Verif.Proofs.MultiFile2

/-!
# Properties of multi-file inputs: C47, C48, C49
-/
namespace Chopper.Props
open Chopper Spec

/-! ### C47: columns are aligned by name -/

theorem nodup_length_le {α : Type} [DecidableEq α] : ∀ {a b : List α}, a.Nodup → (∀ x ∈ a, x ∈ b) → a.length ≤ b.length
  | [], _, _, _ => by simp
  | x :: a, b, hn, hs => by
    have h1 := nodup_length_le (a := a) (b := b.erase x) (List.nodup_cons.1 hn).2 (fun y hy => by
      have hne : y ≠ x := by rintro rfl; exact (List.nodup_cons.1 hn).1 hy
      exact (List.mem_erase_of_ne hne).2 (hs y (by simp [hy])))
    have h2 := List.length_erase_of_mem (hs x (by simp))
    have h3 : 0 < b.length := List.length_pos_of_mem (hs x (by simp))
    simp only [List.length_cons]
    omega

/-- **C47 (which headers are accepted).** With distinct names, the header of a file is accepted exactly if it has every expected column with the expected
type, whatever the order and whatever other columns there are; otherwise the result is an error, never a panic. -/
theorem C47_accepted_iff (ref file : Header) (hr : WellFormed ref) (hf : WellFormed file) (hdr : ref.names.Nodup) (hdf : file.names.Nodup) :
    ((∃ m, swapMap ref file = .ok m) ↔ Compatible ref file) ∧ (¬ Compatible ref file → ∃ e, swapMap ref file = .err (.custom e)) := by
  have hback : (∃ m, swapMap ref file = .ok m) → Compatible ref file := fun ⟨m, h⟩ => swapMap_ok_compatible hr hf h
  refine ⟨⟨hback, ?_⟩, ?_⟩
  · intro hc
    -- at least as many columns
    have hle : ref.names.length ≤ file.names.length := by
      refine nodup_length_le hdr ?_
      intro n hn
      obtain ⟨i, hi, rfl⟩ := List.mem_iff_getElem.1 hn
      obtain ⟨j, hj, _⟩ := hc i ref.names[i] (ref.types[i]'(by rw [hr]; exact hi)) (List.getElem?_eq_getElem hi) (List.getElem?_eq_getElem _)
      exact List.mem_of_getElem? hj
    obtain ⟨⟨m, ident⟩, hx⟩ := swapLoop_accepts ref.types ref.names 0 file.names file.types hf (by rw [hr]; omega) (by omega) hdr (by simpa using hdf)
      (fun k name ty h1 h2 => by
        obtain ⟨j, h3, h4⟩ := hc k name ty h1 (by simpa using h2)
        exact ⟨j, by omega, h3, h4⟩)
    unfold swapMap
    rw [if_neg (by omega), hx]
    exact ⟨_, rfl⟩
  · intro hn
    rcases swapMap_spec hr hf with h | ⟨m, h, _⟩
    · exact h
    · exact absurd (hback ⟨m, h⟩) hn

/-- **C47 (values).** If the header of a file is accepted, every row of the file becomes a row whose value under each expected name is the value the
file's row has under that name (and the types agree). -/
theorem C47_values (ref : Header) (f : FileSource) (m : List Nat) (hr : WellFormed ref) (hf : GoodFile f) (h : swapMap ref f.header = .ok m) (row : Row)
    (hrow : row ∈ f.source.rows) : ∃ row', alignRow m row = .ok row' ∧ Aligned ref f.header row row' :=
  swapMap_maps hr hf h row hrow

/-- With distinct names in the file `Aligned` determines the values under the expected names. -/
theorem C47_determined (ref file : Header) (hdf : file.names.Nodup) (row row1 row2 : Row) (h1 : Aligned ref file row row1) (h2 : Aligned ref file row row2) :
    row1.timestamp = row2.timestamp ∧ ∀ i : Nat, i < ref.names.length → row1.values[i]? = row2.values[i]? := by
  refine ⟨h1.1.trans h2.1.symm, fun i hi => ?_⟩
  obtain ⟨j1, v1, a1, a2, a3, a4⟩ := h1.2 i ref.names[i] (List.getElem?_eq_getElem hi)
  obtain ⟨j2, v2, b1, b2, b3, b4⟩ := h2.2 i ref.names[i] (List.getElem?_eq_getElem hi)
  obtain ⟨l1, e1⟩ := List.getElem?_eq_some_iff.1 a1
  obtain ⟨l2, e2⟩ := List.getElem?_eq_some_iff.1 b1
  have : j1 = j2 := (List.getElem_inj (h₀ := l1) (h₁ := l2) hdf).1 (e1.trans e2.symm)
  subst this
  rw [a3] at b3
  rw [a4, b4, b3]

/-- A file with other column order and an extra column between, against the expected columns. -/
def exRef : Header := ⟨[['a'], ['b']], [.int, .string]⟩
def exFile : Header := ⟨[['b'], ['x'], ['a']], [.string, .int, .int]⟩
example : WellFormed exRef ∧ WellFormed exFile ∧ exRef.names.Nodup ∧ exFile.names.Nodup := by
  refine ⟨rfl, rfl, by decide, by decide⟩
example : swapMap exRef exFile = .ok [2, 2] := by decide +kernel
example : alignRow [2, 2] ⟨7, [.string ['s'], .int 1, .int 2]⟩ = .ok ⟨7, [.int 2, .string ['s']]⟩ := by decide +kernel

/-! ### C48: rows have exactly the common header's columns -/

/-- The full property C48. -/
def C48_full : Prop := ∀ (ref : Header) (f : FileSource) (m : List Nat) (row row' : Row), WellFormed ref → GoodFile f → swapMap ref f.header = .ok m →
  row ∈ f.source.rows → alignRow m row = .ok row' → row'.values.length = ref.names.length

/-- **C48, partial.** The row has the common header's width if the file has exactly as many columns as the common header, or if some column is not at its
expected position.  Missing: files whose first columns are the expected ones in order, followed by others, for which the property is false
(`C48_never_truncated`). -/
theorem C48_width_partial (ref : Header) (f : FileSource) (m : List Nat) (row row' : Row) (hr : WellFormed ref) (hf : GoodFile f) (h : swapMap ref f.header = .ok m)
    (hrow : row ∈ f.source.rows) (ha : alignRow m row = .ok row')
    (hc : f.header.names.length = ref.names.length ∨ ∃ i : Nat, i < ref.names.length ∧ ref.names[i]? ≠ f.header.names[i]?) :
    row'.values.length = ref.names.length := by
  rcases swapMap_spec hr hf.2.1 with ⟨e, h'⟩ | ⟨m', h', _, hle, p, hp, hpl, hrows⟩
  · rw [h] at h'; simp at h'
  rw [h] at h'
  simp only [Res.ok.injEq] at h'
  subst h'
  obtain ⟨row'', g1, _, g2, _⟩ := hrows row (hf.2.2 row hrow)
  rw [ha] at g1
  simp only [Res.ok.injEq] at g1
  subst g1
  rw [g2]
  split
  · rename_i hm
    rcases hc with hc | ⟨i, hi, hne⟩
    · exact hc
    · exfalso
      -- an empty map means the columns are in place
      subst hm
      unfold swapMap at h
      rw [if_neg (by omega)] at h
      obtain ⟨⟨m, ident⟩, hx, hm⟩ := Res.bind_eq_ok.1 h
      rcases swapLoop_spec ref.types ref.names 0 f.header.names f.header.types hf.2.1 (by rw [hr]; omega) (by omega) with ⟨e, h'⟩ | ⟨m1, ident1, h1, hlen, h2, h3, h3', names', types', h4, h5, h6, h7⟩
      · rw [hx] at h'; simp at h'
      rw [hx] at h1
      simp only [Res.ok.injEq, Prod.mk.injEq] at h1
      obtain ⟨rfl, rfl⟩ := h1
      cases ident with
      | true =>
        have := h3 rfl _ f.header.names rfl
        rw [h4] at this
        simp only [Res.ok.injEq] at this
        have h7 := (h7 i hi).1
        rw [this, Nat.zero_add] at h7
        exact hne h7.symm
      | false =>
        simp only [Bool.false_eq_true, if_false, Res.ok.injEq] at hm
        exact h3' rfl hm
  · rfl

theorem swapLoop_identity (refTypes : List FieldType) : ∀ (rest : List Str) (idx : Nat) (names : List Str) (types : List FieldType),
    types.length = names.length → refTypes.length = idx + rest.length →
    (∀ k : Nat, k < rest.length → names[idx + k]? = rest[k]? ∧ types[idx + k]? = refTypes[idx + k]?) → ∃ m, swapLoop refTypes idx rest names types = .ok (m, true)
  | [], _, _, _, _, _, _ => ⟨[], rfl⟩
  | name :: rest, idx, names, types, ht, hr, h => by
    simp only [List.length_cons] at hr
    obtain ⟨h1, h2⟩ := h 0 (by simp)
    simp only [Nat.add_zero, List.getElem?_cons_zero] at h1 h2
    obtain ⟨m, hm⟩ := swapLoop_identity refTypes rest (idx + 1) names types ht (by omega) (fun k hk => by
      have := h (k + 1) (by simp; omega)
      rw [show idx + 1 + k = idx + (k + 1) from by omega]
      simpa using this)
    obtain ⟨hl, he⟩ := List.getElem?_eq_some_iff.1 h1
    have hf : (names.drop idx).findIdx? (· == name) = some 0 := by
      rw [List.findIdx?_eq_some_iff_getElem]
      exact ⟨by rw [List.length_drop]; omega, by simp [he], by simp⟩
    refine ⟨idx :: m, ?_⟩
    rw [swapLoop, hf]
    simp only [Nat.add_zero]
    rw [h2, List.getElem?_eq_getElem (by omega : idx < refTypes.length)]
    simp only [Res.unwrap_some, Res.bind_ok, ne_eq, not_true, if_false, hm]

/-- **C48 is false**: whenever a file has the expected columns in order, followed by further ones, it is accepted and its rows keep the further values. -/
theorem C48_never_truncated (ref : Header) (extraNames : List Str) (extraTypes : List FieldType) (row : Row) (hr : WellFormed ref)
    (hf : extraTypes.length = extraNames.length) (_hrow : row.values.length = ref.names.length + extraNames.length) :
    ∃ m, swapMap ref ⟨ref.names ++ extraNames, ref.types ++ extraTypes⟩ = .ok m ∧ alignRow m row = .ok row := by
  have hr' : ref.types.length = ref.names.length := hr
  obtain ⟨m, hm⟩ := swapLoop_identity ref.types ref.names 0 (ref.names ++ extraNames) (ref.types ++ extraTypes) (by simp [hr', hf]) (by omega) (fun k hk => by
    rw [Nat.zero_add, List.getElem?_append_left hk, List.getElem?_append_left (by omega)]
    exact ⟨rfl, rfl⟩)
  refine ⟨[], ?_, rfl⟩
  unfold swapMap
  rw [if_neg (by simp)]
  simp only [hm, Res.bind_ok, if_true]

theorem C48_counterexample : ¬ C48_full := by
  intro h
  obtain ⟨m, h1, h2⟩ := C48_never_truncated ⟨[['a']], [.int]⟩ [['b']] [.int] ⟨0, [.int 1, .int 2]⟩ rfl rfl rfl
  have := h ⟨[['a']], [.int]⟩ ⟨⟨[['a'], ['b']], [.int, .int]⟩, ⟨[⟨0, [.int 1, .int 2]⟩], .eof⟩⟩ m _ _ rfl ⟨rfl, rfl, by simp⟩ h1 (by simp) h2
  simp at this

/-! ### C49: the input is the concatenation of its files -/

theorem pathBefore_antisymm {a b : List Byte} (hab : PathBefore a b) (hba : PathBefore b a) : a = b := by
  have h1 := (pathLe_iff a b).2 hab
  have h2 := (pathLe_iff b a).2 hba
  clear hab hba
  induction a generalizing b with
  | nil => cases b with
    | nil => rfl
    | cons => simp [pathLe] at h2
  | cons x xs ih =>
    cases b with
    | nil => simp [pathLe] at h1
    | cons y ys =>
      simp only [pathLe] at h1 h2
      by_cases e : x = y
      · subst e
        simp only [if_true] at h1 h2
        rw [ih h1 h2]
      · have e' : ¬ y = x := fun h => e h.symm
        rw [if_neg e, decide_eq_true_iff, BitVec.lt_def] at h1
        rw [if_neg e', decide_eq_true_iff, BitVec.lt_def] at h2
        omega

/-- **C49 (order).** The files of a directory are read in ascending order of their names: `order` is what the successive requests for a path
give, whatever the order of the listing; sub-directories are left out. -/
theorem C49_order (isDir : List Byte → Bool) (entries : List (List Byte)) :
    ∃ order, filesInDir isDir (some (entries.map some)) = .ok order ∧ order.Perm (entries.filter (fun e => !isDir e)) ∧ order.Pairwise PathBefore ∧
      ∀ entries' : List (List Byte), entries'.Perm entries → filesInDir isDir (some (entries'.map some)) = .ok order := by
  have hid : ∀ l : List (List Byte), (l.map some).filterMap id = l := by
    intro l; induction l with
    | nil => rfl
    | cons a l ih => simp [ih]
  obtain ⟨order, h1, h2, h3⟩ := filesInDir_spec isDir (entries.map some)
  rw [hid] at h2
  refine ⟨order, h1, h2, h3, ?_⟩
  intro entries' hp
  obtain ⟨order', g1, g2, g3⟩ := filesInDir_spec isDir (entries'.map some)
  rw [hid] at g2
  have hperm : order'.Perm order := g2.trans ((hp.filter _).trans h2.symm)
  have : order' = order := List.Perm.eq_of_pairwise (le := PathBefore) (fun a b _ _ hab hba => pathBefore_antisymm hab hba) g3 h3 hperm
  rw [g1, this]

/-- **C49 (concatenation).** If every file of the directory can be opened, is read to its end and has a header acceptable to the first file's header, then the
directory input has the first file's header and its rows are the (aligned) rows of the files, each file completely before the next, in the order of `C49_order`. -/
theorem C49_concatenation (openFile : List Byte → Res (Option FileSource)) (isDir : List Byte → Bool) (entries : List (List Byte)) (order : List (List Byte))
    (ho : filesInDir isDir (some (entries.map some)) = .ok order)
    (hgood : ∀ p ∈ order, ∃ f, openFile p = .ok (some f) ∧ GoodFile f ∧ f.header.names.Nodup)
    (hcomp : ∀ p f q g, order.head? = some p → openFile p = .ok (some f) → q ∈ order → openFile q = .ok (some g) → Compatible f.header g.header) :
    ∃ src, openDir openFile isDir (some (entries.map some)) = .ok src ∧
      (∀ p f, order.head? = some p → openFile p = .ok (some f) → src.header = f.header) ∧
      ∃ rows fin, Yields (MultiFile.nextRow openFile) src rows fin ∧ (MultiFile.nextRow openFile fin).1 = .ok none ∧
        Concatenation openFile src.header order rows := by
  unfold openDir
  rw [ho]
  cases order with
  | nil =>
    refine ⟨_, rfl, by simp, [], _, .nil _, rfl, .nil⟩
  | cons p ps =>
    obtain ⟨f, h1, h2, h3⟩ := hgood p (by simp)
    refine ⟨⟨ps, f.header, [], some f⟩, ?_, ?_, ?_⟩
    · simp [MultiFile.new, openPath, h1]
    · intro p' f' hp' hf'
      simp only [List.head?_cons, Option.some.injEq] at hp'
      subst hp'
      rw [h1] at hf'
      simp only [Res.ok.injEq, Option.some.injEq] at hf'
      rw [hf']
    · have hgp : GoodPaths openFile f.header ps := by
        intro q hq
        obtain ⟨g, g1, g2, g3⟩ := hgood q (by simp [hq])
        obtain ⟨m, hm⟩ := (C47_accepted_iff f.header g.header h2.2.1 g2.2.1 h3 g3).1.2 (hcomp p f q g rfl h1 (by simp [hq]) g1)
        exact ⟨g, m, g1, g2, hm⟩
      obtain ⟨rows1, rest, fin, k1, k2, k3, m', hdr', k4⟩ := multi_yields openFile f.header h2.2.1 [] ps [] f h2 (self_maps h2) hgp
      refine ⟨rows1 ++ rest, fin, by simpa using k1, ?_, .cons h1 k2 k3⟩
      rw [k4]; rfl

/-- **C49/C47 (failures).** If the first files are fine and the next one cannot be opened, or lacks an expected column or has it with another type, then all rows
of the first files are delivered and after them the error is reported. -/
theorem C49_failure (openFile : List Byte → Res (Option FileSource)) (p : List Byte) (f : FileSource) (ps : List (List Byte)) (bad : List Byte) (rest : List (List Byte))
    (h1 : openFile p = .ok (some f)) (h2 : GoodFile f) (h3 : f.header.names.Nodup)
    (hps : ∀ q ∈ ps, ∃ g, openFile q = .ok (some g) ∧ GoodFile g ∧ g.header.names.Nodup ∧ Compatible f.header g.header)
    (hbad : (∃ e, openFile bad = .err e) ∨ openFile bad = .ok none ∨
      ∃ g, openFile bad = .ok (some g) ∧ WellFormed g.header ∧ ¬ Compatible f.header g.header) :
    ∃ src, MultiFile.new openFile (p :: ps ++ bad :: rest) none = .ok src ∧ src.header = f.header ∧
      ∃ rows fin e, Yields (MultiFile.nextRow openFile) src rows fin ∧ (MultiFile.nextRow openFile fin).1 = .err e ∧
        Concatenation openFile f.header (p :: ps) rows ∧ (∀ e', openFile bad = .err e' → e = e') := by
  refine ⟨⟨ps ++ bad :: rest, f.header, [], some f⟩, by simp [MultiFile.new, openPath, h1], rfl, ?_⟩
  have hgp : GoodPaths openFile f.header ps := by
    intro q hq
    obtain ⟨g, g1, g2, g3, g4⟩ := hps q hq
    obtain ⟨m, hm⟩ := (C47_accepted_iff f.header g.header h2.2.1 g2.2.1 h3 g3).1.2 g4
    exact ⟨g, m, g1, g2, hm⟩
  obtain ⟨rows1, rows2, fin, k1, k2, k3, m', hdr', k4⟩ := multi_yields openFile f.header h2.2.1 (bad :: rest) ps [] f h2 (self_maps h2) hgp
  have herr : ∃ e, (MultiFile.nextRow openFile ⟨bad :: rest, f.header, m', some ⟨hdr', ⟨[], .eof⟩⟩⟩).1 = .err e ∧
      (∀ e', openFile bad = .err e' → e = e') := by
    unfold MultiFile.nextRow
    simp only
    rw [multiNext]
    simp only [Source.nextRow]
    rcases hbad with ⟨e, hb⟩ | hb | ⟨g, hb, hw, hn⟩
    · exact ⟨e, by simp only [openPath, hb, Res.bind_err], by simp [hb]⟩
    · exact ⟨_, by simp only [openPath, hb, Res.bind_ok]; rfl, by simp [hb]⟩
    · rcases swapMap_spec h2.2.1 hw with ⟨e, h⟩ | ⟨m, h, _⟩
      · exact ⟨_, by simp only [openPath, hb, Res.bind_ok, h]; rfl, by simp [hb]⟩
      · exact absurd (swapMap_ok_compatible h2.2.1 hw h) hn
  obtain ⟨e, he, he'⟩ := herr
  exact ⟨rows1 ++ rows2, fin, e, k1, by rw [k4, he], .cons h1 k2 k3, he'⟩

/-- **C49 (a file that crashes its opener).** If opening a file crashes (a panic in a reader while the header is read), all rows of the files before it are delivered and then the crash shows:
it is not taken for the end of the input. -/
theorem C49_open_crash (openFile : List Byte → Res (Option FileSource)) (p : List Byte) (f : FileSource) (ps : List (List Byte)) (bad : List Byte) (rest : List (List Byte))
    (h1 : openFile p = .ok (some f)) (h2 : GoodFile f) (h3 : f.header.names.Nodup)
    (hps : ∀ q ∈ ps, ∃ g, openFile q = .ok (some g) ∧ GoodFile g ∧ g.header.names.Nodup ∧ Compatible f.header g.header) (hbad : openFile bad = .panic) :
    ∃ src rows fin, MultiFile.new openFile (p :: ps ++ bad :: rest) none = .ok src ∧ Yields (MultiFile.nextRow openFile) src rows fin ∧
      Concatenation openFile f.header (p :: ps) rows ∧ (MultiFile.nextRow openFile fin).1 = .panic := by
  refine ⟨⟨ps ++ bad :: rest, f.header, [], some f⟩, ?_⟩
  have hgp : GoodPaths openFile f.header ps := by
    intro q hq
    obtain ⟨g, g1, g2, g3, g4⟩ := hps q hq
    obtain ⟨m, hm⟩ := (C47_accepted_iff f.header g.header h2.2.1 g2.2.1 h3 g3).1.2 g4
    exact ⟨g, m, g1, g2, hm⟩
  obtain ⟨rows1, rows2, fin, k1, k2, k3, m', hdr', k4⟩ := multi_yields openFile f.header h2.2.1 (bad :: rest) ps [] f h2 (self_maps h2) hgp
  refine ⟨rows1 ++ rows2, fin, by simp [MultiFile.new, openPath, h1], k1, .cons h1 k2 k3, ?_⟩
  rw [k4]
  unfold MultiFile.nextRow
  simp only
  rw [multiNext]
  simp only [Source.nextRow, openPath, hbad, Res.bind]

/-- **C49 (a file that breaks off).** If a file fails after some rows (a read error, a malformed record) or crashes its reader, all rows of the files before it and its own rows up to the
failure are delivered, and then this very failure is reported: it is not taken for the end of the file and the files after it are not read. -/
theorem C49_broken {P : Type} (openFile : P → Res (Option FileSource)) (before : List P) (bad : P) (rest : List P) (g : FileSource) (hb : openFile bad = .ok (some g))
    (hw : WellFormed g.header) (hrows : ∀ row ∈ g.source.rows, row.values.length = g.header.names.length) (hn : g.header.names.Nodup)
    (hgood : ∀ q ∈ before, ∃ f, openFile q = .ok (some f) ∧ GoodFile f ∧ f.header.names.Nodup)
    (hcomp : ∀ p f q h, before.head? = some p → openFile p = .ok (some f) → q ∈ before ++ [bad] → openFile q = .ok (some h) → Compatible f.header h.header) :
    ∃ src rows fin, MultiFile.new openFile (before ++ bad :: rest) none = .ok src ∧ Yields (MultiFile.nextRow openFile) src rows fin ∧
      Concatenation openFile src.header (before ++ [bad]) rows ∧
      (∀ e, g.source.ending = .fail e → (MultiFile.nextRow openFile fin).1 = .err e) ∧ (g.source.ending = .crash → (MultiFile.nextRow openFile fin).1 = .panic) := by
  have hg : GoodFile ⟨g.header, ⟨g.source.rows, .eof⟩⟩ := ⟨rfl, hw, hrows⟩
  have hend : ∀ (ref : Header) (m : List Nat), (∀ e, g.source.ending = .fail e → (MultiFile.nextRow openFile ⟨rest, ref, m, some ⟨g.header, ⟨[], g.source.ending⟩⟩⟩).1 = .err e) ∧
      (g.source.ending = .crash → (MultiFile.nextRow openFile ⟨rest, ref, m, some ⟨g.header, ⟨[], g.source.ending⟩⟩⟩).1 = .panic) := by
    intro ref m
    unfold MultiFile.nextRow
    simp only
    rw [multiNext]
    exact ⟨fun e he => by simp [Source.nextRow, he], fun he => by simp [Source.nextRow, he]⟩
  cases before with
  | nil =>
    obtain ⟨rows', h1, h2, _⟩ := file_yields openFile g.header rest [] g.header g.source.ending g.source.rows (self_maps (f := ⟨g.header, ⟨g.source.rows, .eof⟩⟩) hg)
    refine ⟨⟨rest, g.header, [], some g⟩, rows', _, by simp [MultiFile.new, openPath, hb], h2, ?_, (hend _ _).1, (hend _ _).2⟩
    have := Concatenation.cons (ref := g.header) hb h1 .nil
    simpa using this
  | cons p ps =>
    obtain ⟨f, f1, f2, f3⟩ := hgood p (by simp)
    have hgp : GoodPaths openFile f.header ps := by
      intro q hq
      obtain ⟨h, g1, g2, g3⟩ := hgood q (by simp [hq])
      obtain ⟨m, hm⟩ := (C47_accepted_iff f.header h.header f2.2.1 g2.2.1 f3 g3).1.2 (hcomp p f q h rfl f1 (by simp [hq]) g1)
      exact ⟨h, m, g1, g2, hm⟩
    obtain ⟨mb, hmb⟩ := (C47_accepted_iff f.header g.header f2.2.1 hw f3 hn).1.2 (hcomp p f bad g rfl f1 (by simp) hb)
    obtain ⟨rows1, rows2, fin, k1, k2, k3, m', hdr', k4⟩ := multi_yields openFile f.header f2.2.1 (bad :: rest) ps [] f f2 (self_maps f2) hgp
    obtain ⟨rows', h1, h2, _⟩ := file_yields openFile f.header rest mb g.header g.source.ending g.source.rows
      (swapMap_maps (f := ⟨g.header, ⟨g.source.rows, .eof⟩⟩) f2.2.1 hg hmb)
    have hnext : MultiFile.nextRow openFile fin = MultiFile.nextRow openFile ⟨rest, f.header, mb, some g⟩ := by
      rw [k4]
      unfold MultiFile.nextRow
      simp only
      rw [multiNext]
      simp only [Source.nextRow, openPath, hb, Res.bind_ok, hmb]
    obtain ⟨fin', w1, w2⟩ := yields_same hnext h2
    refine ⟨⟨ps ++ bad :: rest, f.header, [], some f⟩, rows1 ++ rows2 ++ rows', fin', by simp [MultiFile.new, openPath, f1], yields_append k1 w1, ?_, ?_, ?_⟩
    · have happ : ∀ {qs : List P} {a b : List Row}, Concatenation openFile f.header qs a → Concatenation openFile f.header [bad] b →
          Concatenation openFile f.header (qs ++ [bad]) (a ++ b) := by
        intro qs a b h1 h2
        induction h1 with
        | nil => exact h2
        | cons x y _ ih => rw [List.append_assoc]; exact .cons x y ih
      exact happ (.cons f1 k2 k3) (by simpa using Concatenation.cons (ref := f.header) hb h1 .nil)
    · intro e he; rw [w2]; exact (hend _ _).1 e he
    · intro he; rw [w2]; exact (hend _ _).2 he

/-- **C49 (unreadable entries).** Entries of a directory that cannot be read are left out; a directory that cannot be listed at all is an error. -/
theorem C49_unreadable (openFile : List Byte → Res (Option FileSource)) (isDir : List Byte → Bool) (entries : List (Option (List Byte))) :
    openDir openFile isDir (some entries) = openDir openFile isDir (some ((entries.filter Option.isSome).map fun e => some (e.getD []))) ∧
    openDir openFile isDir none = .err (.io .other) := by
  have h : ∀ l : List (Option (List Byte)), ((l.filter Option.isSome).map fun e => some (e.getD [])).filterMap id = l.filterMap id := by
    intro l; induction l with
    | nil => rfl
    | cons a l ih => cases a with
      | none => simpa using ih
      | some x => simp [List.filterMap_cons]; simpa using ih
  refine ⟨?_, rfl⟩
  simp only [openDir, filesInDir, readDir, h]

/-- **C49/C47 (external header).** With an external header that every file satisfies, the header is the external one and the rows of all files, the first
one included, are aligned to it. -/
theorem C49_external {P : Type} (openFile : P → Res (Option FileSource)) (ref : Header) (p : P) (ps : List P) (hr : WellFormed ref) (hn : ref.names.Nodup)
    (hgood : ∀ q ∈ p :: ps, ∃ g, openFile q = .ok (some g) ∧ GoodFile g ∧ g.header.names.Nodup ∧ Compatible ref g.header) :
    ∃ src, MultiFile.new openFile (p :: ps) (some ref) = .ok src ∧ src.header = ref ∧
      ∃ rows fin, Yields (MultiFile.nextRow openFile) src rows fin ∧ (MultiFile.nextRow openFile fin).1 = .ok none ∧
        Concatenation openFile ref (p :: ps) rows := by
  obtain ⟨f, h1, h2, h3, h4⟩ := hgood p (by simp)
  obtain ⟨m, hm⟩ := (C47_accepted_iff ref f.header hr h2.2.1 hn h3).1.2 h4
  refine ⟨⟨ps, ref, m, some f⟩, by simp [MultiFile.new, openPath, h1, hm], rfl, ?_⟩
  have hgp : GoodPaths openFile ref ps := by
    intro q hq
    obtain ⟨g, g1, g2, g3, g4⟩ := hgood q (by simp [hq])
    obtain ⟨m, hm⟩ := (C47_accepted_iff ref g.header hr g2.2.1 hn g3).1.2 g4
    exact ⟨g, m, g1, g2, hm⟩
  obtain ⟨rows1, rest, fin, k1, k2, k3, m', hdr', k4⟩ := multi_yields openFile ref hr [] ps m f h2
    (fun row hrow => C47_values ref f m hr h2 hm row hrow) hgp
  refine ⟨rows1 ++ rest, fin, by simpa using k1, ?_, .cons h1 k2 k3⟩
  rw [k4]; rfl

/-- With an external header that the first file does not satisfy, the input cannot be opened. -/
theorem C49_external_mismatch {P : Type} (openFile : P → Res (Option FileSource)) (ref : Header) (p : P) (ps : List P) (f : FileSource) (hr : WellFormed ref)
    (h1 : openFile p = .ok (some f)) (hf : WellFormed f.header) (hc : ¬ Compatible ref f.header) :
    ∃ e, MultiFile.new openFile (p :: ps) (some ref) = .err (.custom e) := by
  rcases swapMap_spec hr hf with ⟨e, h⟩ | ⟨m, h, _⟩
  · exact ⟨e, by simp [MultiFile.new, openPath, h1, h]⟩
  · exact absurd (swapMap_ok_compatible hr hf h) hc

/-- A directory with three files, one of them empty, listed out of order. -/
def exOpen : List Byte → Res (Option FileSource)
  | [49] => .ok (some ⟨exRef, ⟨[⟨1, [.int 1, .string ['p']]⟩], .eof⟩⟩)
  | [50] => .ok (some ⟨exRef, ⟨[], .eof⟩⟩)
  | _ => .ok (some ⟨exFile, ⟨[⟨3, [.string ['q'], .int 0, .int 2]⟩], .eof⟩⟩)

/-- The second file crashes its opener. -/
example : ∃ src rows fin, MultiFile.new (fun k : List Byte => if k = [50] then .panic else exOpen [49]) [[49], [50], [51]] none = .ok src ∧
    Yields (MultiFile.nextRow fun k : List Byte => if k = [50] then .panic else exOpen [49]) src rows fin ∧ Concatenation (fun k : List Byte => if k = [50] then .panic else exOpen [49]) exRef [[49]] rows ∧
    (MultiFile.nextRow (fun k : List Byte => if k = [50] then .panic else exOpen [49]) fin).1 = .panic :=
  C49_open_crash (fun k : List Byte => if k = [50] then .panic else exOpen [49]) [49] ⟨exRef, ⟨[⟨1, [.int 1, .string ['p']]⟩], .eof⟩⟩ [] [50] [[51]] rfl ⟨rfl, rfl, by simp [exRef]⟩ (by decide) (by simp) rfl

/-- The second of three files fails after one row. -/
example : ∃ src rows fin, MultiFile.new (fun k : Nat => if k = 1 then .ok (some ⟨exRef, ⟨[⟨1, [.int 1, .string ['p']]⟩], .fail (.io .other)⟩⟩) else exOpen [49]) [0, 1, 2] none = .ok src ∧
    Yields (MultiFile.nextRow fun k : Nat => if k = 1 then .ok (some ⟨exRef, ⟨[⟨1, [.int 1, .string ['p']]⟩], .fail (.io .other)⟩⟩) else exOpen [49]) src rows fin ∧
    (MultiFile.nextRow (fun k : Nat => if k = 1 then .ok (some ⟨exRef, ⟨[⟨1, [.int 1, .string ['p']]⟩], .fail (.io .other)⟩⟩) else exOpen [49]) fin).1 = .err (.io .other) := by
  obtain ⟨src, rows, fin, h1, h2, _, h3, _⟩ := C49_broken (fun k : Nat => if k = 1 then .ok (some ⟨exRef, ⟨[⟨1, [.int 1, .string ['p']]⟩], .fail (.io .other)⟩⟩) else exOpen [49]) [0] 1 [2]
    ⟨exRef, ⟨[⟨1, [.int 1, .string ['p']]⟩], .fail (.io .other)⟩⟩ rfl rfl (by simp [exRef]) (by decide)
    (by intro q hq; simp only [List.mem_cons, List.not_mem_nil, or_false] at hq; subst hq; exact ⟨_, rfl, ⟨rfl, rfl, by simp [exRef]⟩, by decide⟩)
    (by
      intro p f q h hp hf hq hh
      simp only [List.head?_cons, Option.some.injEq] at hp
      subst hp
      simp only [List.cons_append, List.nil_append, List.mem_cons, List.not_mem_nil, or_false] at hq
      have hf' : f.header = exRef := by cases hf; rfl
      have hh' : h.header = exRef := by
        rcases hq with rfl | rfl
        · cases hh; rfl
        · cases hh; rfl
      rw [hf', hh']
      exact fun i name ty h1 h2 => ⟨i, h1, h2⟩)
  exact ⟨src, rows, fin, h1, h2, h3 _ rfl⟩

example : filesInDir (fun e => e == [52]) (some ([[51], [52], [49], [50]].map some)) = .ok [[49], [50], [51]] := by
  simp [filesInDir, readDir, List.mergeSort, pathLe]
example : ∀ p ∈ [[49], [50], [(51 : Byte)]], ∃ f, exOpen p = .ok (some f) ∧ GoodFile f ∧ f.header.names.Nodup := by
  intro p hp
  simp only [List.mem_cons, List.not_mem_nil, or_false] at hp
  rcases hp with rfl | rfl | rfl
  · exact ⟨_, rfl, ⟨rfl, rfl, by simp [exRef]⟩, by decide⟩
  · exact ⟨_, rfl, ⟨rfl, rfl, by simp [exRef]⟩, by decide⟩
  · exact ⟨_, rfl, ⟨rfl, rfl, by simp [exFile]⟩, by decide⟩
example : Compatible exRef exFile := (C47_accepted_iff exRef exFile rfl rfl (by decide) (by decide)).1.1 ⟨[2, 2], by decide +kernel⟩

end Chopper.Props
