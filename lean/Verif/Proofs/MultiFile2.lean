import Verif.Proofs.MultiFile

/-!
# Reading the files one after the other; the paths of a directory
-/
namespace Chopper
open Spec

theorem yields_append {σ : Type} {next : σ → Res (Option Row) × σ} {s s' s'' : σ} {a b : List Row} (h1 : Yields next s a s') (h2 : Yields next s' b s'') :
    Yields next s (a ++ b) s'' := by
  induction h1 with
  | nil => exact h2
  | cons x _ ih => exact .cons x (ih h2)

/-- States with the same next step deliver the same rows. -/
theorem yields_same {σ : Type} {next : σ → Res (Option Row) × σ} {s t t' : σ} {rows : List Row} (h : next s = next t) (hy : Yields next t rows t') :
    ∃ s', Yields next s rows s' ∧ next s' = next t' := by
  cases hy with
  | nil => exact ⟨s, .nil _, h⟩
  | cons a b => exact ⟨_, .cons (h.trans a) b, rfl⟩

variable {P : Type}

/-- The map turns every row of the file into an aligned one. -/
def MapsRows (ref : Header) (f : FileSource) (m : List Nat) : Prop :=
  ∀ row ∈ f.source.rows, ∃ row', alignRow m row = .ok row' ∧ Aligned ref f.header row row'

theorem file_yields (openFile : P → Res (Option FileSource)) (ref : Header) (paths : List P) (m : List Nat) (hdr : Header) (ending : Ending) : ∀ (rows : List Row),
    MapsRows ref ⟨hdr, ⟨rows, ending⟩⟩ m →
    ∃ rows', AlignedRows ref hdr rows rows' ∧
      Yields (MultiFile.nextRow openFile) ⟨paths, ref, m, some ⟨hdr, ⟨rows, ending⟩⟩⟩ rows' ⟨paths, ref, m, some ⟨hdr, ⟨[], ending⟩⟩⟩ ∧
      (∀ (k : Nat) row row', rows[k]? = some row → rows'[k]? = some row' → alignRow m row = .ok row')
  | [], _ => ⟨[], ⟨rfl, by simp⟩, .nil _, by simp⟩
  | row :: rows, h => by
    obtain ⟨row', h1, h2⟩ := h row (by simp)
    obtain ⟨rows', h3, h4, h5⟩ := file_yields openFile ref paths m hdr ending rows (fun r hr => h r (by simp at hr ⊢; exact .inr hr))
    refine ⟨row' :: rows', ⟨by simp [h3.1], ?_⟩, .cons ?_ h4, ?_⟩
    · intro k r r' q1 q2
      cases k with
      | zero =>
        simp only [List.getElem?_cons_zero, Option.some.injEq] at q1 q2
        subst q1 q2; exact h2
      | succ k => exact h3.2 k r r' (by simpa using q1) (by simpa using q2)
    · unfold MultiFile.nextRow multiNext
      simp only [Source.nextRow, h1]
    · intro k r r' q1 q2
      cases k with
      | zero =>
        simp only [List.getElem?_cons_zero, Option.some.injEq] at q1 q2
        subst q1 q2; exact h1
      | succ k => exact h5 k r r' (by simpa using q1) (by simpa using q2)

theorem swapMap_maps {ref : Header} {f : FileSource} {m : List Nat} (hr : WellFormed ref) (hf : GoodFile f) (h : swapMap ref f.header = .ok m) : MapsRows ref f m := by
  intro row hrow
  rcases swapMap_spec hr hf.2.1 with ⟨e, h'⟩ | ⟨m', h', _, hle, p, hp, hpl, hrows⟩
  · rw [h] at h'; simp at h'
  rw [h] at h'
  simp only [Res.ok.injEq] at h'
  subst h'
  obtain ⟨row', g1, g2, g3, g4⟩ := hrows row (hf.2.2 row hrow)
  refine ⟨row', g1, g2, ?_⟩
  intro i name hi
  have hil : i < ref.names.length := (List.getElem?_eq_some_iff.1 hi).1
  obtain ⟨j, hj⟩ : ∃ j, p[i]? = some j := ⟨p[i]'(by omega), List.getElem?_eq_getElem _⟩
  obtain ⟨q1, q2⟩ := hp i j hj
  have hv : j < row.values.length := by rw [hf.2.2 row hrow]; exact q1
  refine ⟨j, row.values[j], by rw [(q2 hil).1, hi], (q2 hil).2.symm, List.getElem?_eq_getElem hv, ?_⟩
  rw [g4 i j hil hj, List.getElem?_eq_getElem hv]

theorem self_maps {f : FileSource} (hf : GoodFile f) : MapsRows f.header f [] := by
  intro row hrow
  refine ⟨row, rfl, rfl, ?_⟩
  intro i name hi
  have hil : i < f.header.names.length := (List.getElem?_eq_some_iff.1 hi).1
  have hv : i < row.values.length := by rw [hf.2.2 row hrow]; exact hil
  exact ⟨i, row.values[i], hi, rfl, List.getElem?_eq_getElem hv, List.getElem?_eq_getElem hv⟩

/-- All these paths open to good files whose header is accepted. -/
def GoodPaths (openFile : P → Res (Option FileSource)) (ref : Header) (ps : List P) : Prop :=
  ∀ p ∈ ps, ∃ f m, openFile p = .ok (some f) ∧ GoodFile f ∧ swapMap ref f.header = .ok m

theorem multi_yields (openFile : P → Res (Option FileSource)) (ref : Header) (hr : WellFormed ref) (tl : List P) : ∀ (ps : List P) (m : List Nat) (f : FileSource),
    GoodFile f → MapsRows ref f m → GoodPaths openFile ref ps →
    ∃ rows1 rest fin, Yields (MultiFile.nextRow openFile) ⟨ps ++ tl, ref, m, some f⟩ (rows1 ++ rest) fin ∧
      AlignedRows ref f.header f.source.rows rows1 ∧ Concatenation openFile ref ps rest ∧
      (∃ m' hdr', MultiFile.nextRow openFile fin = MultiFile.nextRow openFile ⟨tl, ref, m', some ⟨hdr', ⟨[], .eof⟩⟩⟩)
  | [], m, f, hf, hm, _ => by
    obtain ⟨hdr, rows, ending⟩ := f
    obtain ⟨rows', h1, h2, _⟩ := file_yields openFile ref tl m hdr ending rows hm
    have he : ending = .eof := hf.1
    exact ⟨rows', [], _, by simpa using h2, h1, .nil, m, hdr, by rw [he]⟩
  | p :: ps, m, f, hf, hm, hps => by
    obtain ⟨hdr, rows, ending⟩ := f
    have he : ending = .eof := hf.1
    obtain ⟨rows', h1, h2, _⟩ := file_yields openFile ref (p :: ps ++ tl) m hdr ending rows hm
    obtain ⟨f', m', g1, g2, g3⟩ := hps p (by simp)
    obtain ⟨rows1, rest, fin, k1, k2, k3, k4⟩ := multi_yields openFile ref hr tl ps m' f' g2 (swapMap_maps hr g2 g3) (fun q hq => hps q (by simp [hq]))
    have hnext : MultiFile.nextRow openFile ⟨p :: ps ++ tl, ref, m, some ⟨hdr, ⟨[], ending⟩⟩⟩ = MultiFile.nextRow openFile ⟨ps ++ tl, ref, m', some f'⟩ := by
      unfold MultiFile.nextRow
      simp only [List.cons_append]
      rw [multiNext]
      simp only [Source.nextRow, he, openPath, g1, Res.bind_ok, g3]
    obtain ⟨fin', w1, w2⟩ := yields_same hnext k1
    refine ⟨rows', rows1 ++ rest, fin', yields_append h2 w1, h1, .cons g1 k2 k3, ?_⟩
    obtain ⟨a, b, c⟩ := k4
    exact ⟨a, b, w2.trans c⟩

/-! ## Sorting -/

theorem pathLe_total : ∀ a b, (pathLe a b || pathLe b a) = true
  | [], _ => by simp [pathLe]
  | _ :: _, [] => by simp [pathLe]
  | a :: as, b :: bs => by
    simp only [pathLe]
    by_cases h : a = b
    · subst h; simpa using pathLe_total as bs
    · have h' : ¬ b = a := fun e => h e.symm
      have hn : a.toNat ≠ b.toNat := fun e => h (BitVec.eq_of_toNat_eq e)
      simp only [h, h', if_false, Bool.or_eq_true, decide_eq_true_eq, BitVec.lt_def]
      omega

theorem pathLe_trans : ∀ a b c, pathLe a b = true → pathLe b c = true → pathLe a c = true
  | [], _, _, _, _ => by simp [pathLe]
  | _ :: _, [], _, h, _ => by simp [pathLe] at h
  | _ :: _, _ :: _, [], _, h => by simp [pathLe] at h
  | a :: as, b :: bs, c :: cs, h1, h2 => by
    simp only [pathLe] at *
    by_cases hab : a = b
    · subst hab
      by_cases hac : a = c
      · subst hac
        simp only [if_true] at *
        exact pathLe_trans as bs cs h1 h2
      · simp only [hac, if_false] at *
        exact h2
    · rw [if_neg hab, decide_eq_true_iff, BitVec.lt_def] at h1
      by_cases hbc : b = c
      · subst hbc
        rw [if_neg hab, decide_eq_true_iff, BitVec.lt_def]; exact h1
      · rw [if_neg hbc, decide_eq_true_iff, BitVec.lt_def] at h2
        have hac : ¬ a = c := by rintro rfl; omega
        rw [if_neg hac, decide_eq_true_iff, BitVec.lt_def]; omega

theorem pathLe_iff : ∀ a b, pathLe a b = true ↔ PathBefore a b
  | [], b => by
    simp only [pathLe, true_iff]
    exact .inl ⟨b, rfl⟩
  | x :: as, [] => by
    simp only [pathLe, Bool.false_eq_true, false_iff, PathBefore]
    rintro (⟨c, h⟩ | ⟨c, u, v, ax, bx, h, h', _⟩)
    · simp at h
    · simp at h'
  | x :: as, y :: bs => by
    simp only [pathLe]
    by_cases h : x = y
    · subst h
      rw [if_pos rfl, pathLe_iff as bs]
      constructor
      · rintro (⟨c, h⟩ | ⟨c, u, v, ax, bx, h, h', hlt⟩)
        · exact .inl ⟨c, by simp [h]⟩
        · exact .inr ⟨x :: c, u, v, ax, bx, by simp [h], by simp [h'], hlt⟩
      · rintro (⟨c, h⟩ | ⟨c, u, v, ax, bx, h, h', hlt⟩)
        · exact .inl ⟨c, by simpa using h⟩
        · cases c with
          | nil =>
            simp only [List.nil_append, List.cons.injEq] at h h'
            rw [← h.1, ← h'.1] at hlt
            omega
          | cons d c =>
            simp only [List.cons_append, List.cons.injEq] at h h'
            exact .inr ⟨c, u, v, ax, bx, h.2, h'.2, hlt⟩
    · rw [if_neg h, decide_eq_true_iff, BitVec.lt_def]
      constructor
      · intro hlt
        exact .inr ⟨[], x, y, as, bs, rfl, rfl, hlt⟩
      · rintro (⟨c, h'⟩ | ⟨c, u, v, ax, bx, h1, h2, hlt⟩)
        · simp only [List.cons_append, List.cons.injEq] at h'
          exact absurd h'.1.symm h
        · cases c with
          | nil =>
            simp only [List.nil_append, List.cons.injEq] at h1 h2
            rw [h1.1, h2.1]; exact hlt
          | cons d c =>
            simp only [List.cons_append, List.cons.injEq] at h1 h2
            exact absurd (h1.1.trans h2.1.symm) h

theorem filesInDir_spec (isDir : List Byte → Bool) (entries : List (Option (List Byte))) :
    ∃ order, filesInDir isDir (some entries) = .ok order ∧ order.Perm ((entries.filterMap id).filter (fun e => !isDir e)) ∧
      order.Pairwise (fun a b => PathBefore a b) := by
  refine ⟨_, rfl, ?_, ?_⟩
  · exact (List.reverse_perm _).trans (List.mergeSort_perm _ _)
  · rw [List.pairwise_reverse]
    have := List.pairwise_mergeSort (le := fun a b => pathLe b a) (fun a b c h1 h2 => pathLe_trans c b a h2 h1) (fun a b => by rw [Bool.or_comm]; exact pathLe_total a b)
      ((entries.filterMap id).filter (fun e => !isDir e))
    exact this.imp (fun h => (pathLe_iff _ _).1 h)

end Chopper
