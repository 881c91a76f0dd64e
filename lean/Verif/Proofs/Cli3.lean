import Verif.Proofs.Cli2

/-!
# Merged rows, complete and incomplete output
-/
namespace Chopper
open Spec

/-- The merge as the driver computes it. -/
def mergeOf (range : TimestampRange) (sources : List Source) : List Row := (stableSort (selectedInputs range sources).flatten).map (·.2)

theorem selectedInputs_at (range : TimestampRange) (t : Nanos) : ∀ (ss : List Source) (i : Nat), (∀ s ∈ ss, Sorted s.rows) →
    (((ss.zipIdx i).map (fun (p : Source × Nat) => (selected range p.1.rows).map (fun r => (p.2, r)))).flatten.filter (fun p => p.2.timestamp == t)).map (·.2) =
      ss.flatMap fun s => s.rows.filter fun r => r.timestamp == t && inRange range r.timestamp
  | [], _, _ => rfl
  | s :: ss, i, h => by
    rw [List.zipIdx_cons, List.map_cons, List.flatten_cons, List.filter_append, List.map_append, selectedInputs_at range t ss (i + 1) (fun x hx => h x (.tail _ hx)),
      List.flatMap_cons]
    congr 1
    rw [List.filter_map, List.map_map]
    simp only [Function.comp_def, List.map_id']
    rw [selected_sorted range s.rows (h s (.head _)), List.filter_filter]

theorem mergeOf_isMerge (range : TimestampRange) (sources : List Source) (h : ∀ s ∈ sources, Sorted s.rows) :
    IsMerge range (sources.map (·.rows)) (mergeOf range sources) := by
  constructor
  · unfold mergeOf Sorted
    rw [List.pairwise_map]
    exact stableSort_sorted _
  · intro t
    unfold mergeOf
    rw [List.filter_map]
    show ((stableSort _).filter (fun p => p.2.timestamp == t)).map _ = _
    rw [Props.C19_stable]
    unfold selectedInputs
    rw [selectedInputs_at range t sources.reverse 0 (fun s hs => h s (by simpa using hs)), ← List.map_reverse, List.flatMap_map]

/-- A merge is determined by the inputs. -/
theorem isMerge_unique {range : TimestampRange} {inputs : List (List Row)} {a b : List Row} (ha : IsMerge range inputs a) (hb : IsMerge range inputs b) : a = b := by
  have key : ∀ (a b : List Row), Sorted a → Sorted b → (∀ t, a.filter (fun r => r.timestamp == t) = b.filter (fun r => r.timestamp == t)) → a = b := by
    intro a
    induction a with
    | nil =>
      intro b _ _ h
      cases b with
      | nil => rfl
      | cons y b => have := h y.timestamp; simp at this
    | cons x a ih =>
      intro b h1 h2 h
      cases b with
      | nil => have := h x.timestamp; simp at this
      | cons y b =>
        have hx : x ∈ y :: b := by
          have := h x.timestamp
          have hm : x ∈ (y :: b).filter (fun r => r.timestamp == x.timestamp) := by rw [← this]; simp
          exact (List.mem_filter.1 hm).1
        have hy : y ∈ x :: a := by
          have := h y.timestamp
          have hm : y ∈ (x :: a).filter (fun r => r.timestamp == y.timestamp) := by rw [this]; simp
          exact (List.mem_filter.1 hm).1
        have hle : y.timestamp ≤ x.timestamp := by
          rcases List.mem_cons.1 hx with rfl | hx
          · exact BitVec.le_refl _
          · exact (List.pairwise_cons.1 h2).1 x hx
        have hle' : x.timestamp ≤ y.timestamp := by
          rcases List.mem_cons.1 hy with rfl | hy
          · exact BitVec.le_refl _
          · exact (List.pairwise_cons.1 h1).1 y hy
        have heq : x.timestamp = y.timestamp := BitVec.le_antisymm hle' hle
        have hxy : x = y := by
          have := h x.timestamp
          rw [List.filter_cons, List.filter_cons] at this
          simp only [BEq.rfl, if_true, heq] at this
          simp only [List.cons.injEq] at this
          exact this.1
        subst hxy
        rw [ih b (List.pairwise_cons.1 h1).2 (List.pairwise_cons.1 h2).2 (by
          intro t
          have := h t
          rw [List.filter_cons, List.filter_cons] at this
          split at this
          · simpa using this
          · exact this)]
  exact key a b ha.sorted hb.sorted (fun t => by rw [ha.rowsAt, hb.rowsAt])

theorem merge_mem {range : TimestampRange} {inputs : List (List Row)} {rows : List Row} (h : IsMerge range inputs rows) {r : Row} (hr : r ∈ rows) :
    inRange range r.timestamp = true ∧ ∃ i ∈ inputs, r ∈ i := by
  have hm : r ∈ rows.filter (fun x => x.timestamp == r.timestamp) := by simp [hr]
  rw [h.rowsAt, List.mem_flatMap] at hm
  obtain ⟨i, hi, h1⟩ := hm
  obtain ⟨h2, h3⟩ := List.mem_filter.1 h1
  exact ⟨by simp at h3; exact h3, i, by simpa using hi, h2⟩

/-- Rows in the range. -/
theorem selected_ne {range : TimestampRange} {rows : List Row} (hs : Sorted rows) (h : ∃ r ∈ rows, inRange range r.timestamp = true) : selected range rows ≠ [] := by
  rw [selected_sorted range rows hs]
  obtain ⟨r, h1, h2⟩ := h
  intro he
  have : r ∈ rows.filter (fun r => inRange range r.timestamp) := List.mem_filter.2 ⟨h1, h2⟩
  rw [he] at this
  cases this

theorem fed_ok {range : TimestampRange} {fuel : Nat} {sources : List Source} (hok : (calls range fuel sources).2 = .ok ()) (hs : ∀ s ∈ sources, Sorted s.rows) :
    (fed (calls range fuel sources).1).map (·.2) = mergeOf range sources := by
  rw [Props.C19_ties range fuel sources hok hs]; rfl

theorem selectedInputs_eof (range : TimestampRange) (sources : List Source) :
    selectedInputs range (sources.map fun s => { s with ending := .eof }) = selectedInputs range sources := by
  unfold selectedInputs
  rw [← List.map_reverse, List.zipIdx_map, List.map_map]
  rfl

theorem fed_prefix {range : TimestampRange} {fuel : Nat} {sources : List Source} (hs : ∀ s ∈ sources, Sorted s.rows)
    (hne : ∀ s ∈ sources, selected range s.rows ≠ []) (hf : Props.enough sources ≤ fuel) :
    (fed (calls range fuel sources).1).map (·.2) <+: mergeOf range sources := by
  have h1 := Props.C23_failure_prefix range fuel sources
  have h2 : (calls range fuel (sources.map (fun s => { s with ending := .eof }))).2 = .ok () := by
    refine (Props.C23_source_failure range fuel _ ?_ ?_).1.2 ?_
    · intro s h
      obtain ⟨x, hx, rfl⟩ := List.mem_map.1 h
      exact hne x hx
    · refine Nat.le_trans (Nat.le_of_eq ?_) hf
      unfold Props.enough totalRows
      rw [List.map_map, List.length_map]
      rfl
    · intro s h
      obtain ⟨x, hx, rfl⟩ := List.mem_map.1 h
      unfold endingWithin
      simp
  have h3 := fed_ok h2 (by
    intro s h
    obtain ⟨x, hx, rfl⟩ := List.mem_map.1 h
    exact hs x hx)
  unfold mergeOf at h3 ⊢
  rw [selectedInputs_eof] at h3
  rw [← h3]
  obtain ⟨t, ht⟩ := h1
  refine ⟨(fed t).map (·.2), ?_⟩
  rw [← ht, ← List.map_append]
  unfold fed
  rw [List.filterMap_append]

/-- The last call of a run that ends well is a flush. -/
theorem last_flush {range : TimestampRange} {fuel : Nat} {sources : List Source} (hok : (calls range fuel sources).2 = .ok ()) (hne : sources ≠ []) :
    ∃ cs c, (calls range fuel sources).1 = cs ++ [.flush c] := by
  have hr := Props.calls_ok_run hok
  have hfa := run_flush_after hr rfl
  rcases List.eq_nil_or_concat (calls range fuel sources).1 with h | ⟨cs, x, h⟩
  · exfalso
    cases sources with
    | nil => exact hne rfl
    | cons s ss =>
      have h1 := (Props.C18_exactly_once range fuel (s :: ss) (fun c r l => (l ++ [Call.feed c r], .ok ())) (fun c l => (l ++ [Call.flush c], .ok ())) [] hok).1 0 s rfl
      rw [h] at h1
      exact Props.calls_nonempty hok s (by simp) h1.symm
  · rw [List.concat_eq_append] at h
    cases x with
    | flush c => exact ⟨cs, c, h⟩
    | feed c r =>
      have := hfa c r cs [] h
      simp at this

theorem rowsOut_prefix {row : Row → Wr Unit} : ∀ (a b : List Row), (rowsOut row a).out <+: (rowsOut row (a ++ b)).out
  | [], b => ⟨_, rfl⟩
  | r :: a, b => by
    simp only [rowsOut, List.cons_append, Wr.bind]
    cases (row r).res with
    | ok u =>
      obtain ⟨t, ht⟩ := rowsOut_prefix (row := row) a b
      exact ⟨t, by simp only [List.append_assoc, ht]⟩
    | err e => exact ⟨[], by simp⟩
    | panic => exact ⟨[], by simp⟩
    | diverge => exact ⟨[], by simp⟩

/-- What a started run leaves in its output. -/
theorem cli_outcome (e : CliEnv) (a : CliArgs) (st : CliSettings e.csv.lib) (files : List FileSource) (hs : parseSettings e a = .ok st)
    (ho : Opens e st files) (hne : files ≠ []) (h : Header) (hh : ∀ x ∈ files, x.header = h) (created : List Path)
    (f : Header → Res (CliSink × Header)) (hf : newHeaderSink e.sink e.out a.output st.outCfg = (created, .ok f))
    (mk : BufWriter → CliSink) (row : Row → Wr Unit) (hm : WritesRows e.sink mk row) (w0 : BufWriter) (h' : Header) (hs0 : f h = .ok (mk w0, h'))
    (b : List Byte) (hb : Holds w0 b) :
    ∃ out, (chopperCli e a).output = some out ∧ (chopperCli e a).created = created ∧
      out.taken <+: b ++ (rowsOut row ((fed (calls st.range (Props.enough (files.map (·.source))) (files.map (·.source))).1).map (·.2))).out ∧
      ((chopperCli e a).result = .ok () → (calls st.range (Props.enough (files.map (·.source))) (files.map (·.source))).2 = .ok () ∧
        (rowsOut row ((fed (calls st.range (Props.enough (files.map (·.source))) (files.map (·.source))).1).map (·.2))).res = .ok () ∧
        out.taken = b ++ (rowsOut row ((fed (calls st.range (Props.enough (files.map (·.source))) (files.map (·.source))).1).map (·.2))).out) ∧
      ((∀ k, ¬ CanFail w0.dev k) → (calls st.range (Props.enough (files.map (·.source))) (files.map (·.source))).2 = .ok () →
        (rowsOut row ((fed (calls st.range (Props.enough (files.map (·.source))) (files.map (·.source))).1).map (·.2))).res = .ok () → (chopperCli e a).result = .ok ()) := by
  obtain ⟨fuel, log, rfl, hrun⟩ := cli_run e a st files hs ho hne h hh created f hf (mk w0) h' hs0
  generalize hc : calls st.range (Props.enough (files.map (·.source))) (files.map (·.source)) = cc at hrun ⊢
  obtain ⟨w', h1, h2, h3, h4⟩ := perform_output hm cc.1 cc.2 w0 b hb
  refine ⟨w'.close, ?_, ?_, close_prefix h2, ?_, ?_⟩
  · rw [hrun, cli_output _ _ rfl, h1, hm.device]
  · rw [hrun]
  · intro hok
    rw [hrun] at hok
    simp only at hok
    have hc2 := perform_ok hok
    have hres : (rowsOut row ((fed cc.1).map (·.2))).res = .ok () := by
      rcases h4 with ⟨_, h5, _⟩ | ⟨k, h5, _⟩ | ⟨h5, h6⟩
      · exact h5
      · rw [h5] at hok; simp at hok
      · rw [h5] at hok; exact hok
    refine ⟨hc2, hres, ?_⟩
    obtain ⟨cs, c, hcs⟩ := last_flush (by rw [hc]; exact hc2) (by simpa using hne)
    rw [hc] at hcs
    rw [hc2, hcs] at hok h1
    obtain ⟨w2, h5, h6, h7⟩ := perform_last_flush hm cs c w0 b hb hok
    rw [h1] at h5
    have hdev := congrArg CliSink.device h5
    rw [hm.device, hm.device] at hdev
    rw [Option.some.inj hdev, close_all h7 h6, hcs]
    congr 3
    unfold fed
    simp [Call.fed?]
  · intro hn hc2 hres
    rw [hrun]
    simp only
    rcases h4 with ⟨h5, _⟩ | ⟨k, _, h5⟩ | ⟨_, h5⟩
    · rw [h5, hc2]
    · exact absurd h5 (hn k)
    · exact absurd hres h5

/-! ## The two kinds of output -/

theorem endsWith_suffix {p s : Str} (h : s <:+ p) : endsWith p s = true := by
  unfold endsWith; exact List.isSuffixOf_iff_suffix.2 h

theorem not_both {p : Str} (h : "dc".toList <:+ p) : endsWith p ['c', 's', 'v'] = false := by
  rw [Bool.eq_false_iff]
  intro h2
  unfold endsWith at h2
  obtain ⟨a, rfl⟩ := List.isSuffixOf_iff_suffix.1 h2
  obtain ⟨b, hb⟩ := h
  have := congrArg List.getLast? hb
  simp at this

theorem csvTo_sink {e : CliEnv} {a : CliArgs} {d : Device} (h : CsvTo e.out a.output d) (cfg : CsvOutputConfig) :
    ∃ created, newHeaderSink e.sink e.out a.output cfg = (created, .ok (csvSinkHeader e.sink cfg d)) := by
  rcases h with ⟨h1, rfl⟩ | ⟨p, h1, h2, h3⟩
  · rw [h1]; exact ⟨[], rfl⟩
  · rw [h1]
    refine ⟨[utf8Encode p], ?_⟩
    unfold newHeaderSink
    simp only [endsWith_suffix (s := ['c', 's', 'v']) h2, if_true, h3]

theorem dcTo_sink {e : CliEnv} {a : CliArgs} {d : Device} (h : DcTo e.out a.output d) (cfg : CsvOutputConfig) :
    ∃ created, newHeaderSink e.sink e.out a.output cfg = (created, .ok (dcSinkHeader e.sink d)) := by
  obtain ⟨p, h1, h2, h3⟩ := h
  rw [h1]
  refine ⟨[utf8Encode p], ?_⟩
  unfold newHeaderSink
  simp only [not_both h2, endsWith_suffix (s := ['d', 'c']) h2, if_true, h3, Bool.false_eq_true, if_false]

theorem holds_new (d : Device) : Holds (BufWriter.new d) d.taken := by unfold Holds BufWriter.new; simp

theorem csv_header_ok (e : SinkEnv) (cfg : CsvOutputConfig) (d : Device) (h : Header) :
    (∃ w, csvSinkHeader e cfg d h = .ok (.csv cfg w, h) ∧ Holds w (d.taken ++ utf8Encode (csvHeaderText cfg h.names)) ∧ ∀ k, CanFail w.dev k → CanFail d k) ∨
    (∃ k, csvSinkHeader e cfg d h = .err (.io k) ∧ CanFail d k) := by
  obtain ⟨h1, h2⟩ := emit_step e.ch (utf8Encode (csvHeaderText cfg h.names)) (.ok ()) (holds_new d)
  unfold csvSinkHeader
  rcases hw : (BufWriter.new d).emit e.ch (utf8Encode (csvHeaderText cfg h.names)) (.ok ()) with ⟨w, r⟩
  rw [hw] at h1 h2
  simp only at h1 h2
  rcases h2 with ⟨rfl, h3⟩ | ⟨k, rfl, h3, _⟩
  · exact .inl ⟨w, rfl, h3, h1⟩
  · exact .inr ⟨k, rfl, h3⟩

theorem dc_header_ok (e : SinkEnv) (d : Device) (h : Header) (n : Nat) (hn : (dcProcessHeader e.ov h).res = .ok n) :
    (∃ w, dcSinkHeader e d h = .ok (.dc n w, h) ∧ Holds w (d.taken ++ (dcProcessHeader e.ov h).out) ∧ ∀ k, CanFail w.dev k → CanFail d k) ∨
    (∃ k, dcSinkHeader e d h = .err (.io k) ∧ CanFail d k) := by
  obtain ⟨h1, h2⟩ := emit_step e.ch (dcProcessHeader e.ov h).out (dcProcessHeader e.ov h).res (holds_new d)
  unfold dcSinkHeader
  rcases hw : (BufWriter.new d).emit e.ch (dcProcessHeader e.ov h).out (dcProcessHeader e.ov h).res with ⟨w, r⟩
  rw [hw] at h1 h2
  simp only [hn] at h1 h2
  simp only [hw]
  rcases h2 with ⟨rfl, h3⟩ | ⟨k, rfl, h3, _⟩
  · exact .inl ⟨w, rfl, h3, h1⟩
  · exact .inr ⟨k, rfl, h3⟩

theorem joinWith_eq (d : Str) : ∀ ts, joinWith d ts = joinStr d ts
  | [] => rfl
  | [t] => rfl
  | t :: u :: ts => by rw [joinWith, joinStr, joinWith_eq d (u :: ts)]

theorem csvRows_lines (ff : FloatFmt) (cfg : CsvOutputConfig) (ht : TimePrintable cfg) : ∀ rows : List Row, (∀ r ∈ rows, ∀ v ∈ r.values, ¬ Unprintable v) →
    (csvRowsText ff cfg rows).2 = .ok () ∧ CsvLines ff cfg rows (csvRowsText ff cfg rows).1
  | [], _ => ⟨rfl, .nil⟩
  | r :: rs, h => by
    obtain ⟨h1, h2⟩ := csvRows_lines ff cfg ht rs (fun x hx => h x (.tail _ hx))
    obtain ⟨col, texts, h3, h4, h5⟩ := csvRowText_ok (ff := ff) ht (h r (.head _))
    rw [csvRowsText, h5]
    simp only
    refine ⟨h1, ?_⟩
    rw [← joinWith_eq]
    exact .cons h3 h4 h2

theorem parseInputs_ne {a : CliArgs} {is : List Input} (h : parseInputs a = .ok is) : is ≠ [] := by
  unfold parseInputs at h
  simp only at h
  split at h
  · simp at h
  · simp only [Res.bind_eq_ok, Res.ok.injEq] at h
    obtain ⟨f, _, rfl⟩ := h
    simp
  · split at h
    · simp at h
    · rename_i ps _ _ hne
      simp only [Res.ok.injEq] at h
      subst h
      cases ps with
      | nil => exact absurd rfl hne
      | cons p ps => simp [assignFormats]

theorem settings_inputs_ne {e : CliEnv} {a : CliArgs} {st : CliSettings e.csv.lib} (h : parseSettings e a = .ok st) : st.inputs ≠ [] := by
  unfold parseSettings at h
  simp only [Res.bind_eq_ok, Res.ok.injEq] at h
  obtain ⟨z, _, range, _, is, h3, _, _, _, _, rfl⟩ := h
  exact parseInputs_ne h3

theorem opens_ne {e : CliEnv} {a : CliArgs} {st : CliSettings e.csv.lib} (h : parseSettings e a = .ok st) {files : List FileSource} (ho : Opens e st files) : files ≠ [] := by
  intro he
  subst he
  have := ho.1
  simp only [List.length_nil] at this
  exact settings_inputs_ne h (List.eq_nil_of_length_eq_zero this.symm)

end Chopper
