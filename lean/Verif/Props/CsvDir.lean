import Verif.Spec.CsvDir
import Verif.Props.CsvCut

/-! # C112: a directory of files as one input -/
namespace Chopper.Props
open Chopper Chopper.Spec Chopper.Chrono

theorem swapMap_self {h : Header} (hw : WellFormed h) : swapMap h h = .ok [] := by
  have hw' : h.types.length = h.names.length := hw
  obtain ⟨m, hm⟩ := swapLoop_identity h.types h.names 0 h.names h.types hw' (by simpa using hw') (fun k _ => by simp)
  unfold swapMap
  rw [if_neg (by omega), hm]
  rfl

theorem same_file_yields {P : Type} (openFile : P → Res (Option FileSource)) (ref : Header) (paths : List P) (hdr : Header) : ∀ rows : List Row,
    Yields (MultiFile.nextRow openFile) ⟨paths, ref, [], some ⟨hdr, ⟨rows, .eof⟩⟩⟩ rows ⟨paths, ref, [], some ⟨hdr, ⟨[], .eof⟩⟩⟩
  | [] => .nil _
  | row :: rows => by
    refine .cons ?_ (same_file_yields openFile ref paths hdr rows)
    unfold MultiFile.nextRow multiNext
    simp only [Source.nextRow, alignRow, List.isEmpty_nil, if_true]

/-- Files with the same header are read one after the other, their rows unchanged. -/
theorem same_yields {P : Type} (openFile : P → Res (Option FileSource)) {ref : Header} (hw : WellFormed ref) : ∀ (files : List (P × List Row)) (rows : List Row),
    (∀ f ∈ files, openFile f.1 = .ok (some ⟨ref, ⟨f.2, .eof⟩⟩)) →
    ∃ fin, Yields (MultiFile.nextRow openFile) ⟨files.map (·.1), ref, [], some ⟨ref, ⟨rows, .eof⟩⟩⟩ (rows ++ files.flatMap (·.2)) fin ∧ (MultiFile.nextRow openFile fin).1 = .ok none
  | [], rows, _ => by
    refine ⟨_, by simpa using same_file_yields openFile ref [] ref rows, ?_⟩
    unfold MultiFile.nextRow multiNext
    simp only [Source.nextRow]
  | f :: files, rows, h => by
    obtain ⟨fin, h1, h2⟩ := same_yields openFile hw files f.2 (fun g hg => h g (by simp [hg]))
    have hnext : MultiFile.nextRow openFile ⟨f.1 :: files.map (·.1), ref, [], some ⟨ref, ⟨[], .eof⟩⟩⟩ =
        MultiFile.nextRow openFile ⟨files.map (·.1), ref, [], some ⟨ref, ⟨f.2, .eof⟩⟩⟩ := by
      conv => lhs; unfold MultiFile.nextRow multiNext
      simp only [Source.nextRow, openPath, h f (by simp), Res.bind_ok, swapMap_self hw]
      rfl
    obtain ⟨fin', h3, h4⟩ := yields_same hnext h1
    refine ⟨fin', ?_, by rw [h4]; exact h2⟩
    rw [List.flatMap_cons]
    exact yields_append (same_file_yields openFile ref _ ref rows) h3

/-- **C112 (rows).** A directory, all of whose files have the same header and are read to their ends, is one input with this header, and its rows are the rows of the files, unchanged, file after file
in the order of the file names. -/
theorem C112_rows (inp : Inputs FileSource) (w : World) (dir : Str) (fmt : InputFormat) (paths : List Str) (hh : DirHolds w dir paths) (header : Header) (hw : WellFormed header)
    (rows : List (List Row)) (hne : paths ≠ []) (hlen : paths.length = rows.length)
    (hopen : ∀ (i : Nat) p rs, paths[i]? = some p → rows[i]? = some rs → createFromInput inp w ⟨.path p, fmt⟩ = .ok ⟨header, ⟨rs, .eof⟩⟩) :
    createFromInput inp w ⟨.path dir, fmt⟩ = .ok ⟨header, ⟨rows.flatten, .eof⟩⟩ := by
  obtain ⟨entries, hlist, hperm⟩ := hh.entries
  have ho : filesInDir w.isDir (w.listing (utf8Encode dir)) = .ok (paths.map utf8Encode) := by
    obtain ⟨order', h1, h2, h3⟩ := filesInDir_spec w.isDir entries
    have : order' = paths.map utf8Encode :=
      List.Perm.eq_of_pairwise (le := PathBefore) (fun a b _ _ hab hba => pathBefore_antisymm hab hba) h3 hh.order (h2.trans hperm.symm)
    rw [hlist, h1, this]
  have hopen' : ∀ f ∈ (paths.map utf8Encode).zip rows, createFromPath inp f.1 fmt = .ok (some ⟨header, ⟨f.2, .eof⟩⟩) := by
    intro f hf
    obtain ⟨i, hi, rfl⟩ := List.getElem_of_mem hf
    have hp : i < paths.length := by simp at hi; omega
    have hr : i < rows.length := by omega
    have := hopen i paths[i] rows[i] (List.getElem?_eq_getElem hp) (List.getElem?_eq_getElem hr)
    have hnd : w.isDir (utf8Encode paths[i]) = false := by
      have : utf8Encode paths[i] ∈ (entries.filterMap id).filter fun e => !w.isDir e := hperm.mem_iff.1 (List.mem_map.2 ⟨_, List.getElem_mem hp, rfl⟩)
      simpa using (List.mem_filter.1 this).2
    change createFromPathInput inp w (utf8Encode paths[i]) fmt = _ at this
    unfold createFromPathInput at this
    rw [hnd] at this
    simp only [Bool.false_eq_true, if_false, Res.bind_eq_ok] at this
    obtain ⟨o, h1, h2⟩ := this
    simp only [List.getElem_zip, List.getElem_map]
    cases o with
    | none => cases h2
    | some s =>
      cases h2
      exact h1
  change createFromPathInput inp w (utf8Encode dir) fmt = _
  unfold createFromPathInput openDir
  rw [hh.isDir, if_pos rfl, ho, Res.bind_ok]
  obtain ⟨p, ps, rfl⟩ := List.exists_cons_of_ne_nil hne
  cases rows with
  | nil => cases hlen
  | cons r rs =>
    have hl : ps.length = rs.length := by simpa using hlen
    obtain ⟨fin, h1, h2⟩ := same_yields (fun p => createFromPath inp p fmt) hw ((ps.map utf8Encode).zip rs) r (fun f hf => hopen' f (List.mem_cons_of_mem _ hf))
    have hfst : ((ps.map utf8Encode).zip rs).map (·.1) = ps.map utf8Encode := List.map_fst_zip (by simp [hl])
    have hsnd : ((ps.map utf8Encode).zip rs).flatMap (·.2) = rs.flatten := by
      rw [List.flatMap_def]
      congr 1
      exact List.map_snd_zip (by simp [hl])
    rw [hfst, hsnd] at h1
    have hfirst := hopen' (utf8Encode p, r) (by simp)
    unfold MultiFile.new
    simp only [List.map_cons, openPath, hfirst, Res.bind_ok]
    have hrun : RunsAs (MultiFile.nextRow fun p => createFromPath inp p fmt) (⟨ps.map utf8Encode, header, [], some ⟨header, ⟨r, .eof⟩⟩⟩ : MultiFile Path) ⟨r ++ rs.flatten, .eof⟩ :=
      ⟨fin, h1, by rw [h2]⟩
    have heq := runsAs_unique (multi_toFile_runs (fun p => createFromPath inp p fmt) _) hrun
    unfold MultiFile.toFile at heq ⊢
    simp only at heq ⊢
    rw [heq]
    rfl

theorem flatten_rows (time : List Str → Nanos) (tables : List (List (List Str))) :
    (tables.map fun t => t.map fun rec => (⟨time rec, rec.map .string⟩ : Row)).flatten = tables.flatten.map fun rec => ⟨time rec, rec.map .string⟩ := by
  rw [List.map_flatten]

theorem cut_dir_opens {k : Computer} {dir : Str} {paths : List Str} {output : Option Str} {zone : Str} {z : TzSpans} {b e : Option Str} {tb te : Option Int} {col : TimestampCol}
    {names : List Str} {tables : List (List (List Str))} {time : List Str → Int} {dev : Device} (h : CutRun k paths output zone z col names tables time dev) (hd : DirHolds k.world dir paths)
    (hb : Bound z b tb) (he : Bound z e te) :
    ∃ st, parseSettings k.env (cutArgs [dir] output zone b e) = .ok st ∧ st.outCfg.delimiter = [','] ∧ st.outCfg.printTimeCol = false ∧
      Opens k.env st ([tables.flatten].map (tableFile names fun rec => BitVec.ofInt 64 (time rec))) ∧ ∀ ts : Nanos, inRange st.range ts = true ↔ Between tb te ts.toNat := by
  obtain ⟨st, h1, h2, h3, h4, h5, h6⟩ := cut_settings h.zoneKnown h.zoneOrder [dir] (by simp) output hb he
  refine ⟨st, h1, h4, h5, ?_, h6⟩
  -- the files one by one
  have hsep : ∀ (i : Nat) p recs, paths[i]? = some p → tables[i]? = some recs →
      createFromInput (newInputs k.env.csv k.env.dec k.env.zip k.env.world (some st.inCfg) k.env.userFactories k.env.userTransports) k.env.world ⟨.path p, .auto⟩ =
        .ok (tableFile names (fun rec => BitVec.ofInt 64 (time rec)) recs) := by
    obtain ⟨st', g1, g2, g3, g4, g5, g6⟩ := cut_settings h.zoneKnown h.zoneOrder paths h.here.1 output hb he
    obtain ⟨st'', q1, q2, q3, q4, q5, q6⟩ := cut_reads h hb he
    obtain rfl : st' = st'' := Res.ok.inj (g1.symm.trans q1)
    have ho := read_opens (e := k.env) ⟨rfl, rfl⟩ q4 q5
    intro i p recs hp ht
    have hcfg : st.inCfg = st'.inCfg := h3.trans g3.symm
    rw [hcfg]
    refine ho.2 i ⟨.path p, .auto⟩ _ ?_ ?_
    · rw [g2, (assignFormats_get [.auto] .auto paths 0).2 i _ hp]
      cases i <;> rfl
    · rw [List.getElem?_map, ht]; rfl
  have := C112_rows (newInputs k.env.csv k.env.dec k.env.zip k.env.world (some st.inCfg) k.env.userFactories k.env.userTransports) k.env.world dir .auto paths hd
    ⟨names, List.replicate names.length .string⟩ (by simp [WellFormed]) (tables.map fun t => t.map fun rec => ⟨BitVec.ofInt 64 (time rec), rec.map .string⟩) h.here.1
    (by rw [List.length_map]; exact h.here.2.1) (by
      intro i p rs hp hr
      rw [List.getElem?_map] at hr
      cases ht : tables[i]? with
      | none => rw [ht] at hr; cases hr
      | some recs =>
        rw [ht] at hr
        obtain rfl := Option.some.inj hr
        exact hsep i p recs hp ht)
  rw [flatten_rows] at this
  refine ⟨by rw [h2]; rfl, ?_⟩
  intro i inp f hi hf
  rw [h2] at hi
  match i, hi, hf with
  | 0, hi, hf =>
    obtain rfl := Option.some.inj hf
    obtain rfl : (⟨.path dir, .auto⟩ : Input) = inp := Option.some.inj hi
    exact this
  | _ + 1, hi, hf => cases hf

theorem flat_times {k : Computer} {paths : List Str} {output : Option Str} {zone : Str} {z : TzSpans} {col : TimestampCol}
    {names : List Str} {tables : List (List (List Str))} {time : List Str → Int} {dev : Device} (h : CutRun k paths output zone z col names tables time dev) :
    ∀ rec ∈ tables.flatten, 0 ≤ time rec ∧ time rec < 2 ^ 63 := by
  intro rec hr
  obtain ⟨table, ht, hr⟩ := List.mem_flatten.1 hr
  obtain ⟨fmt, htimes⟩ := h.times table ht
  exact (htimes rec hr).2

/-- **C112 (cut).** A directory of CSV files that follow one another in time is cut like one file: what remains are exactly the records of all files that lie in the period, in the order of the file names; files
without records in the period do not matter. -/
theorem C112_directory (k : Computer) (dir : Str) (paths : List Str) (output : Option Str) (zone : Str) (z : TzSpans) (b e : Option Str) (tb te : Option Int) (col : TimestampCol)
    (names : List Str) (tables : List (List (List Str))) (time : List Str → Int) (dev : Device) (h : CutRun k paths output zone z col names tables time dev) (hd : DirHolds k.world dir paths)
    (hb : Bound z b tb) (he : Bound z e te) (hsorted : tables.flatten.Pairwise fun x y => time x ≤ time y) (hsome : ∃ rec ∈ tables.flatten, Between tb te (time rec)) :
    ∃ out, (chopperCli k.env (cutArgs [dir] output zone b e)).result = .ok () ∧ (chopperCli k.env (cutArgs [dir] output zone b e)).output = some out ∧
      out.taken = dev.taken ++ utf8Encode (csvText ',' (names :: tables.flatten.filter fun rec => Between tb te (time rec))) := by
  obtain ⟨st, h1, h2, h3, h4, hrange⟩ := cut_dir_opens h hd hb he
  have hin := flat_times h
  refine cut_one (st := st) ⟨h1, h2, h3, h4, ?_, ?_, h.device, h.reliable⟩ hrange hin
  · simp only [List.mem_singleton, forall_eq]
    exact hsorted.imp_of_mem fun {x y} hx hy hxy => (nanos_le (hin x hx).1 (hin x hx).2 (hin y hy).1 (hin y hy).2).2 hxy
  · simp only [List.mem_singleton, forall_eq]
    obtain ⟨rec, hr, hb⟩ := hsome
    exact ⟨rec, hr, (hrange _).2 (by rw [nanos_toNat (hin rec hr).1 (hin rec hr).2]; exact hb)⟩

/-- Lists in time order with the same entries at each time are the same. -/
theorem sorted_by_unique {α : Type} (time : α → Int) : ∀ (a b : List α), a.Pairwise (fun x y => time x ≤ time y) → b.Pairwise (fun x y => time x ≤ time y) →
    (∀ t, a.filter (fun x => time x = t) = b.filter (fun x => time x = t)) → a = b
  | [], [], _, _, _ => rfl
  | [], y :: b, _, _, h => by have := h (time y); simp at this
  | x :: a, [], _, _, h => by have := h (time x); simp at this
  | x :: a, y :: b, h1, h2, h => by
    have hx : x ∈ y :: b := by
      have hm : x ∈ (y :: b).filter (fun r => time r = time x) := by rw [← h]; simp
      exact (List.mem_filter.1 hm).1
    have hy : y ∈ x :: a := by
      have hm : y ∈ (x :: a).filter (fun r => time r = time y) := by rw [h]; simp
      exact (List.mem_filter.1 hm).1
    have le1 : time y ≤ time x := by
      rcases List.mem_cons.1 hx with rfl | hx
      · exact Int.le_refl _
      · exact (List.pairwise_cons.1 h2).1 x hx
    have le2 : time x ≤ time y := by
      rcases List.mem_cons.1 hy with rfl | hy
      · exact Int.le_refl _
      · exact (List.pairwise_cons.1 h1).1 y hy
    have ht : time x = time y := by omega
    have hxy : x = y := by
      have := h (time x)
      simp only [List.filter_cons, decide_true, if_true, ht] at this
      exact (List.cons.inj this).1
    subst hxy
    congr 1
    refine sorted_by_unique time a b (List.pairwise_cons.1 h1).2 (List.pairwise_cons.1 h2).2 fun t => ?_
    have := h t
    simp only [List.filter_cons] at this
    split at this
    · exact (List.cons.inj this).2
    · exact this

/-- If at most one of the lists has entries, the order of the lists does not matter. -/
theorem flatten_perm {α : Type} {l l' : List (List α)} (h : l.Perm l') (hp : l.Pairwise fun a b => a = [] ∨ b = []) : l.flatten = l'.flatten := by
  induction h with
  | nil => rfl
  | cons x _ ih => rw [List.flatten_cons, List.flatten_cons, ih (List.pairwise_cons.1 hp).2]
  | swap x y l =>
    rcases (List.pairwise_cons.1 hp).1 x (by simp) with rfl | rfl <;> simp
  | trans p q ih1 ih2 =>
    rw [ih1 hp, ih2 ((p.pairwise_iff (fun {a b} (hab : a = [] ∨ b = []) => hab.symm)).1 hp)]

/-- The same files, given in another order. -/
theorem cut_perm {k : Computer} {paths : List Str} {output : Option Str} {zone : Str} {z : TzSpans} {col : TimestampCol}
    {names : List Str} {tables : List (List (List Str))} {time : List Str → Int} {dev : Device} (h : CutRun k paths output zone z col names tables time dev)
    {given : List Str} {tables' : List (List (List Str))} (hlen : given.length = tables'.length) (hperm : (given.zip tables').Perm (paths.zip tables)) :
    tables'.Perm tables ∧ CutRun k given output zone z col names tables' time dev := by
  have hp : tables'.Perm tables := by
    have := hperm.map (·.2)
    rwa [List.map_snd_zip (by omega), List.map_snd_zip (by have := h.here.2.1; omega)] at this
  have hm : ∀ {t}, t ∈ tables' → t ∈ tables := fun ht => hp.mem_iff.1 ht
  refine ⟨hp, ⟨h.contract, h.zoneKnown, h.zoneOrder, ⟨?_, hlen, ?_⟩, fun t ht => h.plain t (hm ht), ⟨h.widths.1, fun t ht => h.widths.2 t (hm ht)⟩, h.nameChars, fun t ht => h.twoLines t (hm ht),
    fun t ht => h.headed t (hm ht), h.column, fun t ht => h.times t (hm ht), fun t ht => h.sorted t (hm ht), h.device, h.reliable⟩⟩
  · intro e
    have h1 := h.here.2.1
    have h2 := hp.length_eq
    have h3 : paths.length ≠ 0 := fun e => h.here.1 (List.length_eq_zero_iff.1 e)
    rw [e] at hlen
    simp at hlen
    omega
  · intro i s recs hs hr
    obtain ⟨i1, e1⟩ := List.getElem?_eq_some_iff.1 hs
    obtain ⟨i2, e2⟩ := List.getElem?_eq_some_iff.1 hr
    have hmem : (s, recs) ∈ given.zip tables' := by
      rw [← e1, ← e2]
      exact List.mem_iff_getElem.2 ⟨i, by simp; omega, by simp⟩
    obtain ⟨j, hj, ej⟩ := List.getElem_of_mem (hperm.mem_iff.1 hmem)
    have hj' : j < paths.length ∧ j < tables.length := by simp at hj; omega
    rw [List.getElem_zip, Prod.mk.injEq] at ej
    exact h.here.2.2 j s recs (by rw [List.getElem?_eq_getElem hj'.1, ej.1]) (by rw [List.getElem?_eq_getElem hj'.2, ej.2])

/-- **C112 (as separate inputs).** If moreover no two files share a time and every file has a record in the period, giving the files one by one, in whatever order, writes the same bytes. -/
theorem C112_as_files (k : Computer) (dir : Str) (paths : List Str) (output : Option Str) (zone : Str) (z : TzSpans) (b e : Option Str) (tb te : Option Int) (col : TimestampCol)
    (names : List Str) (tables : List (List (List Str))) (time : List Str → Int) (dev : Device) (h : CutRun k paths output zone z col names tables time dev) (hd : DirHolds k.world dir paths)
    (hb : Bound z b tb) (he : Bound z e te) (happart : tables.Pairwise fun s t => ∀ x ∈ s, ∀ y ∈ t, time x < time y) (hsome : ∀ recs ∈ tables, ∃ rec ∈ recs, Between tb te (time rec))
    (given : List Str) (tables' : List (List (List Str))) (hlen : given.length = tables'.length) (hperm : (given.zip tables').Perm (paths.zip tables)) :
    ∃ out out', (chopperCli k.env (cutArgs [dir] output zone b e)).result = .ok () ∧ (chopperCli k.env (cutArgs [dir] output zone b e)).output = some out ∧
      (chopperCli k.env (cutArgs given output zone b e)).result = .ok () ∧ (chopperCli k.env (cutArgs given output zone b e)).output = some out' ∧ out'.taken = out.taken := by
  have happ : tables.flatten.Pairwise fun x y => time x ≤ time y := by
    rw [List.pairwise_flatten]
    exact ⟨h.sorted, happart.imp fun hst x hx y hy => by have := hst x hx y hy; omega⟩
  obtain ⟨hp, h'⟩ := cut_perm h hlen hperm
  obtain ⟨out, h1, h2, h3⟩ := C112_directory k dir paths output zone z b e tb te col names tables time dev h hd hb he happ (by
    cases tables with
    | nil =>
      have h1 := h.here.2.1
      have h3 : paths.length ≠ 0 := fun e => h.here.1 (List.length_eq_zero_iff.1 e)
      simp at h1
      exact absurd (by rw [h1]; rfl) h3
    | cons t ts =>
      obtain ⟨rec, hr, hb⟩ := hsome t (by simp)
      exact ⟨rec, List.mem_flatten.2 ⟨t, by simp, hr⟩, hb⟩)
  obtain ⟨out', recs, g1, g2, g3, g4, g5⟩ := C111_merge k given output zone z b e tb te col names tables' time dev h' hb he (fun t ht => hsome t (hp.mem_iff.1 ht))
  refine ⟨out, out', h1, h2, g1, g2, ?_⟩
  have : recs = tables.flatten.filter fun rec => Between tb te (time rec) := by
    refine sorted_by_unique time _ _ g4 (happ.sublist List.filter_sublist) fun t => ?_
    rw [g5, List.filter_filter, List.filter_flatten, List.flatMap_def]
    refine (flatten_perm (l := tables'.reverse.map _) ((tables'.reverse_perm.trans hp).map _) ?_).trans ?_
    · rw [(tables'.reverse_perm.map _ |>.trans (hp.map _)).pairwise_iff (fun {a b} (hab : a = [] ∨ b = []) => hab.symm), List.pairwise_map]
      refine happart.imp fun {s u} hsu => ?_
      by_cases hs : ∃ x ∈ s, time x = t
      · obtain ⟨x, hx, rfl⟩ := hs
        refine .inr (List.filter_eq_nil_iff.2 fun y hy => ?_)
        have := hsu x hx y hy
        simp only [decide_eq_true_eq, not_and]
        omega
      · refine .inl (List.filter_eq_nil_iff.2 fun y hy hc => hs ⟨y, hy, ?_⟩)
        simp only [decide_eq_true_eq] at hc
        exact hc.1
    · congr 1
      apply List.map_congr_left
      intro table _
      apply List.filter_congr
      intro rec _
      simp
  rw [g3, h3, this]

/-- **C112 (nothing in the period).** A directory without any record in the period is no success. -/
theorem C112_nothing (k : Computer) (dir : Str) (paths : List Str) (output : Option Str) (zone : Str) (z : TzSpans) (b e : Option Str) (tb te : Option Int) (col : TimestampCol)
    (names : List Str) (tables : List (List (List Str))) (time : List Str → Int) (dev : Device) (h : CutRun k paths output zone z col names tables time dev) (hd : DirHolds k.world dir paths)
    (hb : Bound z b tb) (he : Bound z e te) (hn : ∀ rec ∈ tables.flatten, ¬ Between tb te (time rec)) : (chopperCli k.env (cutArgs [dir] output zone b e)).result ≠ .ok () := by
  obtain ⟨st, h1, _, _, h4, hrange⟩ := cut_dir_opens h hd hb he
  refine C21_tool_never_succeeds k.env _ st _ h1 h4 _ (List.mem_map.2 ⟨_, List.mem_singleton.2 rfl, rfl⟩) ?_
  intro r hr
  obtain ⟨rec, hrec, rfl⟩ := List.mem_map.1 hr
  obtain ⟨a0, a1⟩ := flat_times h rec hrec
  rw [Bool.eq_false_iff]
  intro hin
  rw [hrange, nanos_toNat a0 a1] at hin
  exact hn rec hrec hin

/-! ### Example: the year 2019 of a directory with two files -/
def dirTables : List (List (List Str)) := [cutRecs.take 1, cutRecs.drop 1]
def dirA : Str := "days/1.csv".toList
def dirB : Str := "days/2.csv".toList
def dirWorld (a b : List Byte) : World :=
  ⟨fun p => p == utf8Encode dirA || p == utf8Encode dirB || p == utf8Encode "days".toList, fun p => p == utf8Encode "days".toList || p == utf8Encode "days/old".toList,
   fun p => if p = utf8Encode dirA then some ⟨a, [.bytes 5], none⟩ else if p = utf8Encode dirB then some ⟨b, [], none⟩ else none,
   fun _ => some [some (utf8Encode dirB), none, some (utf8Encode "days/old".toList), some (utf8Encode dirA)], fun _ => .err (.io .other), ⟨[], [], none⟩⟩
def dirComputer (a b : List Byte) : Computer := { cutComputer [] with world := dirWorld a b }

theorem dir_fileA (a b : List Byte) (recs : List (List Str)) (ha : a = utf8Encode (csvText ',' (cutNames :: recs)))
    (hz : ¬ [0x50, 0x4b, 3, 4] <+: utf8Encode (csvText ',' (cutNames :: recs))) : CsvFileAt (dirWorld a b) ⟨.path dirA, .auto⟩ ',' cutNames recs := by
  subst ha
  refine ⟨dirA, .auto, [.bytes 5], rfl, ⟨?_, by simp [dirWorld], by simp [dirWorld]⟩, by simp, by decide +kernel, hz, .inl ⟨['1'], by decide +kernel, rfl⟩⟩
  have : (utf8Encode dirA == utf8Encode "days".toList || utf8Encode dirA == utf8Encode "days/old".toList) = false := by decide +kernel
  exact this

theorem dir_fileB (a b : List Byte) (recs : List (List Str)) (hb : b = utf8Encode (csvText ',' (cutNames :: recs)))
    (hz : ¬ [0x50, 0x4b, 3, 4] <+: utf8Encode (csvText ',' (cutNames :: recs))) : CsvFileAt (dirWorld a b) ⟨.path dirB, .auto⟩ ',' cutNames recs := by
  subst hb
  refine ⟨dirB, .auto, [], rfl, ⟨?_, by simp [dirWorld], ?_⟩, by simp, by decide +kernel, hz, .inl ⟨['2'], by decide +kernel, rfl⟩⟩
  · have : (utf8Encode dirB == utf8Encode "days".toList || utf8Encode dirB == utf8Encode "days/old".toList) = false := by decide +kernel
    exact this
  · have : utf8Encode dirB ≠ utf8Encode dirA := by decide +kernel
    simp only [dirWorld]
    rw [if_neg this]
    rfl

theorem two_here {w : World} {p q : Str} {names : List Str} (s t : List (List Str)) (hp : CsvFileAt w ⟨.path p, .auto⟩ ',' names s) (hq : CsvFileAt w ⟨.path q, .auto⟩ ',' names t) :
    ∀ (i : Nat) f recs, [p, q][i]? = some f → [s, t][i]? = some recs → CsvFileAt w ⟨.path f, .auto⟩ ',' names recs := by
  intro i f recs h1 h2
  match i, h1, h2 with
  | 0, h1, h2 => cases h1; cases h2; exact hp
  | 1, h1, h2 => cases h1; cases h2; exact hq
  | _ + 2, h1, h2 => cases h1

theorem dir_example (a b : List Byte) (ha : a = utf8Encode (csvText ',' (cutNames :: cutRecs.take 1))) (hb : b = utf8Encode (csvText ',' (cutNames :: cutRecs.drop 1))) :
    CutRun (dirComputer a b) [dirA, dirB] (some "o.csv".toList) "UTC".toList utc (.index 0) cutNames dirTables (fun rec => cutDay rec * 86400 * 10 ^ 9) exDev where
  contract := plainCsv_reads
  zoneKnown := rfl
  zoneOrder := utc_ordered
  here := by
    refine ⟨by simp, rfl, ?_⟩
    exact two_here _ _ (dir_fileA a b _ ha (by decide +kernel)) (dir_fileB a b _ hb (by decide +kernel))
  plain := by
    have hc : PlainTable ',' (cutNames :: cutRecs) := (cut_example _ rfl).plain _ (by simp)
    intro recs hr
    have hsub : ∀ l ∈ cutNames :: recs, l ∈ cutNames :: cutRecs := by
      revert recs
      decide +kernel
    refine ⟨fun l hl t ht => hc.1 l (hsub l hl) t ht, ?_, ?_⟩ <;> clear hsub <;> revert recs
    · decide +kernel
    · decide +kernel
  widths := ⟨by decide, by decide +kernel⟩
  nameChars := by decide +kernel
  twoLines := by decide +kernel
  headed := by
    intro recs hr
    have hr' : recs = cutRecs.take 1 ∨ recs = cutRecs.drop 1 := by simpa [dirTables] using hr
    rcases hr' with rfl | rfl
    · refine ⟨_, 0, _, _, rfl, rfl, rfl, ?_⟩
      rw [sameKind_iff]
      have : ¬ guessType (fun _ => false) "date".toList = guessType (fun _ => false) "20181231".toList := by decide +kernel
      exact this
    · refine ⟨_, 0, _, _, rfl, rfl, rfl, ?_⟩
      rw [sameKind_iff]
      have : ¬ guessType (fun _ => false) "date".toList = guessType (fun _ => false) "20190101".toList := by decide +kernel
      exact this
  column := (C13_chosen (fun s => s.map Char.toLower) cutNames _ _).1 (by decide +kernel)
  times := by
    intro recs hr
    refine ⟨.dateNeedsExternalTz "%Y%m%d".toList, fun rec hrec => ?_⟩
    have hrec' : rec ∈ cutRecs := by
      revert rec recs
      decide +kernel
    obtain ⟨h1, h2, h3⟩ := cut_date_text rec hrec'
    refine ⟨.date h1 h2 h3 ((utc_only _ _).2 rfl), ?_⟩
    clear h1 h2 h3 hrec hr; revert rec
    decide +kernel
  sorted := by decide +kernel
  device := .inr ⟨"o.csv".toList, rfl, by decide +kernel, rfl⟩
  reliable := by intro k; simp [exDev]

theorem dir_holds (a b : List Byte) : DirHolds (dirWorld a b) "days".toList [dirA, dirB] where
  isDir := by simp [dirWorld]
  entries := ⟨_, rfl, by
    have : (([some (utf8Encode dirB), none, some (utf8Encode "days/old".toList), some (utf8Encode dirA)] : List (Option Path)).filterMap id).filter
        (fun e => !(e == utf8Encode "days".toList || e == utf8Encode "days/old".toList)) = [utf8Encode dirB, utf8Encode dirA] := by decide +kernel
    show List.Perm _ (List.filter (fun e => !(e == utf8Encode "days".toList || e == utf8Encode "days/old".toList)) _)
    rw [this]
    exact .swap _ _ _⟩
  order := by
    have : pathLe (utf8Encode dirA) (utf8Encode dirB) = true := by decide +kernel
    simpa using (pathLe_iff _ _).1 this

/-- `chopper days --output o.csv --timezone UTC --begin 2019 --end 2020 --csv-out-print-time no`; the first file has no record in 2019. -/
example : ∃ out, (chopperCli (dirComputer (utf8Encode (csvText ',' (cutNames :: cutRecs.take 1))) (utf8Encode (csvText ',' (cutNames :: cutRecs.drop 1)))).env
      (cutArgs ["days".toList] (some "o.csv".toList) "UTC".toList (some "2019".toList) (some "2020".toList))).output = some out ∧
    out.taken = utf8Encode "date,v\n20190101,y\n20191231,\n".toList := by
  obtain ⟨out, _, h2, h3⟩ := C112_directory _ "days".toList [dirA, dirB] (some "o.csv".toList) "UTC".toList utc (some "2019".toList) (some "2020".toList)
    (some (17897 * 86400 * 10 ^ 9)) (some (18262 * 86400 * 10 ^ 9)) (.index 0) cutNames dirTables _ exDev (dir_example _ _ rfl rfl) (dir_holds _ _)
    ⟨.day (.year (y := 2019) (by unfold HasDigits; decide +kernel)) ((daysFrom1970_iff _ _).2 ⟨by rw [realDate_iff]; decide +kernel, by decide +kernel⟩) ((utc_only _ _).2 rfl), by omega, by omega⟩
    ⟨.day (.year (y := 2020) (by unfold HasDigits; decide +kernel)) ((daysFrom1970_iff _ _).2 ⟨by rw [realDate_iff]; decide +kernel, by decide +kernel⟩) ((utc_only _ _).2 rfl), by omega, by omega⟩
    (by decide +kernel) (by decide +kernel)
  refine ⟨out, h2, ?_⟩
  rw [h3]
  decide +kernel

/-- Without bounds: the directory, and its files given in the wrong order. -/
example : ∃ out out', (chopperCli (dirComputer (utf8Encode (csvText ',' (cutNames :: cutRecs.take 1))) (utf8Encode (csvText ',' (cutNames :: cutRecs.drop 1)))).env
      (cutArgs ["days".toList] (some "o.csv".toList) "UTC".toList none none)).output = some out ∧
    (chopperCli (dirComputer (utf8Encode (csvText ',' (cutNames :: cutRecs.take 1))) (utf8Encode (csvText ',' (cutNames :: cutRecs.drop 1)))).env
      (cutArgs [dirB, dirA] (some "o.csv".toList) "UTC".toList none none)).output = some out' ∧ out'.taken = out.taken := by
  obtain ⟨out, out', _, h2, _, h4, h5⟩ := C112_as_files _ "days".toList [dirA, dirB] (some "o.csv".toList) "UTC".toList utc none none none none (.index 0) cutNames dirTables _ exDev
    (dir_example _ _ rfl rfl) (dir_holds _ _) trivial trivial (by decide +kernel) (by decide +kernel) [dirB, dirA] [cutRecs.drop 1, cutRecs.take 1] rfl (.swap _ _ _)
  exact ⟨out, out', h2, h4, h5⟩

end Chopper.Props
