import Verif.Proofs.Cli3
import Verif.Proofs.Dc6
import Verif.Proofs.Input2

/-!
# CSV and DC runs
-/
namespace Chopper
open Spec

/-- Everything about a run that writes CSV. -/
theorem csv_run (e : CliEnv) (a : CliArgs) (st : CliSettings e.csv.lib) (files : List FileSource) (h : Header) (d : Device) (hs : parseSettings e a = .ok st)
    (ho : Opens e st files) (hh : ∀ f ∈ files, f.header = h) (hd : CsvTo e.out a.output d) :
    (∃ k, CanFail d k ∧ (chopperCli e a).result = .err (.io k) ∧ (chopperCli e a).output = none) ∨
    ∃ out cs res, (cs, res) = calls st.range (Props.enough (files.map (·.source))) (files.map (·.source)) ∧ (chopperCli e a).output = some out ∧
      out.taken <+: d.taken ++ utf8Encode (csvFile e.ff st.outCfg h ((fed cs).map (·.2))).1 ∧
      ((chopperCli e a).result = .ok () → res = .ok () ∧ (csvFile e.ff st.outCfg h ((fed cs).map (·.2))).2 = .ok () ∧
        out.taken = d.taken ++ utf8Encode (csvFile e.ff st.outCfg h ((fed cs).map (·.2))).1) ∧
      ((∀ k, ¬ CanFail d k) → res = .ok () → (csvFile e.ff st.outCfg h ((fed cs).map (·.2))).2 = .ok () → (chopperCli e a).result = .ok ()) := by
  obtain ⟨created, hsink⟩ := csvTo_sink hd st.outCfg
  have hne := opens_ne hs ho
  rcases csv_header_ok e.sink st.outCfg d h with ⟨w, h1, h2, h3⟩ | ⟨k, h1, h2⟩
  · refine .inr ?_
    obtain ⟨out, h4, _, h5, h6, h7⟩ := cli_outcome e a st files hs ho hne h hh created _ hsink _ _ (csv_writes e.sink st.outCfg) w h h1 _ h2
    rw [rowsOut_csv] at h5 h6 h7
    refine ⟨out, _, _, rfl, h4, ?_, ?_, ?_⟩
    · rw [List.append_assoc] at h5
      unfold csvFile
      simp only [utf8Encode, List.flatMap_append] at h5 ⊢
      exact h5
    · intro hok
      obtain ⟨h8, h9, h10⟩ := h6 hok
      refine ⟨h8, h9, ?_⟩
      rw [h10, List.append_assoc]
      unfold csvFile
      simp only [utf8Encode, List.flatMap_append]
      rfl
    · intro hn hr hc
      exact h7 (fun k hk => hn k (h3 k hk)) hr hc
  · refine .inl ⟨k, h2, ?_⟩
    have h4 := cli_setup_run e a st files hs ho created _ hsink
    rw [cli_new_driver _ _ files hne h hh, h1] at h4
    unfold chopperCli
    rw [h4]
    exact ⟨rfl, rfl⟩

/-- Everything about a run that writes DC. -/
theorem dc_run (e : CliEnv) (a : CliArgs) (st : CliSettings e.csv.lib) (files : List FileSource) (h : Header) (d : Device) (hs : parseSettings e a = .ok st)
    (ho : Opens e st files) (hh : ∀ f ∈ files, f.header = h) (hd : DcTo e.out a.output d) (n : Nat) (hn : (dcProcessHeader e.csv.ov h).res = .ok n) :
    (∃ k, CanFail d k ∧ (chopperCli e a).result = .err (.io k) ∧ (chopperCli e a).output = none) ∨
    ∃ out cs res, (cs, res) = calls st.range (Props.enough (files.map (·.source))) (files.map (·.source)) ∧ (chopperCli e a).output = some out ∧
      out.taken <+: d.taken ++ (dcWriteFile e.csv.ov h ((fed cs).map (·.2))).out ∧
      ((chopperCli e a).result = .ok () → res = .ok () ∧ (dcWriteFile e.csv.ov h ((fed cs).map (·.2))).res = .ok () ∧
        out.taken = d.taken ++ (dcWriteFile e.csv.ov h ((fed cs).map (·.2))).out) ∧
      ((∀ k, ¬ CanFail d k) → res = .ok () → (dcWriteFile e.csv.ov h ((fed cs).map (·.2))).res = .ok () → (chopperCli e a).result = .ok ()) := by
  obtain ⟨created, hsink⟩ := dcTo_sink hd st.outCfg
  have hne := opens_ne hs ho
  have hfile : ∀ rows, dcWriteFile e.csv.ov h rows = ⟨(dcProcessHeader e.csv.ov h).out ++ (dcWriteRows n rows).out, (dcWriteRows n rows).res⟩ := by
    intro rows
    unfold dcWriteFile Wr.bind
    simp only [hn]
  rcases dc_header_ok e.sink d h n hn with ⟨w, h1, h2, h3⟩ | ⟨k, h1, h2⟩
  · refine .inr ?_
    obtain ⟨out, h4, _, h5, h6, h7⟩ := cli_outcome e a st files hs ho hne h hh created _ hsink _ _ (dc_writes e.sink n) w h h1 _ h2
    rw [rowsOut_dc] at h5 h6 h7
    refine ⟨out, _, _, rfl, h4, ?_, ?_, ?_⟩
    · rw [hfile, ← List.append_assoc]; exact h5
    · intro hok
      obtain ⟨h8, h9, h10⟩ := h6 hok
      rw [hfile]
      refine ⟨h8, h9, ?_⟩
      rw [h10, List.append_assoc]
      rfl
    · intro hc hr hf
      rw [hfile] at hf
      exact h7 (fun k hk => hc k (h3 k hk)) hr hf
  · refine .inl ⟨k, h2, ?_⟩
    have h4 := cli_setup_run e a st files hs ho created _ hsink
    rw [cli_new_driver _ _ files hne h hh, h1] at h4
    unfold chopperCli
    rw [h4]
    exact ⟨rfl, rfl⟩

theorem dc_bad_header (e : CliEnv) (a : CliArgs) (st : CliSettings e.csv.lib) (files : List FileSource) (h : Header) (d : Device) (hs : parseSettings e a = .ok st)
    (ho : Opens e st files) (hh : ∀ f ∈ files, f.header = h) (hd : DcTo e.out a.output d) (hn : ∀ n, (dcProcessHeader e.csv.ov h).res ≠ .ok n) :
    (chopperCli e a).result ≠ .ok () ∧ (chopperCli e a).output = none := by
  obtain ⟨created, hsink⟩ := dcTo_sink hd st.outCfg
  have hne := opens_ne hs ho
  have hbad : ∀ p, dcSinkHeader e.sink d h ≠ .ok p := by
    intro p hp
    unfold dcSinkHeader at hp
    obtain ⟨_, h2⟩ := emit_step e.sink.ch (dcProcessHeader e.sink.ov h).out (dcProcessHeader e.sink.ov h).res (holds_new d)
    simp only [Res.bind_eq_ok] at hp
    obtain ⟨n, h3, _⟩ := hp
    rcases h2 with ⟨h4, _⟩ | ⟨k, h4, _⟩
    · rw [h4] at h3; exact hn n h3
    · rw [h4] at h3; simp at h3
  have h4 := cli_setup_run e a st files hs ho created _ hsink
  rw [cli_new_driver _ _ files hne h hh] at h4
  unfold chopperCli
  cases hf : dcSinkHeader e.sink d h with
  | ok p => exact absurd hf (hbad p)
  | err x => rw [hf] at h4; rw [h4]; exact ⟨by simp [Res.bind], rfl⟩
  | panic => rw [hf] at h4; rw [h4]; exact ⟨by simp [Res.bind], rfl⟩
  | diverge => rw [hf] at h4; rw [h4]; exact ⟨by simp [Res.bind], rfl⟩

theorem csvRowsText_prefix (ff : FloatFmt) (cfg : CsvOutputConfig) (a b : List Row) : (csvRowsText ff cfg a).1 <+: (csvRowsText ff cfg (a ++ b)).1 := by
  induction a with
  | nil => exact ⟨_, rfl⟩
  | cons r a ih =>
    rw [List.cons_append, csvRowsText, csvRowsText]
    rcases csvRowText ff cfg r with ⟨out, _ | _ | _ | _⟩
    · obtain ⟨t, ht⟩ := ih
      exact ⟨t, by simp only [List.append_assoc, ht]⟩
    all_goals exact ⟨[], by simp⟩

theorem csvFile_prefix (ff : FloatFmt) (cfg : CsvOutputConfig) (h : Header) {a b : List Row} (hab : a <+: b) : (csvFile ff cfg h a).1 <+: (csvFile ff cfg h b).1 := by
  obtain ⟨t, rfl⟩ := hab
  obtain ⟨u, hu⟩ := csvRowsText_prefix ff cfg a t
  refine ⟨u, ?_⟩
  unfold csvFile
  simp only [List.append_assoc, hu]

theorem dcFile_prefix (ov : Overflow) (h : Header) {a b : List Row} (hab : a <+: b) : (dcWriteFile ov h a).out <+: (dcWriteFile ov h b).out := by
  obtain ⟨t, rfl⟩ := hab
  unfold dcWriteFile Wr.bind
  cases (dcProcessHeader ov h).res with
  | ok k =>
    obtain ⟨u, hu⟩ := rowsOut_prefix (row := dcWriteRow k) a t
    rw [rowsOut_dc, rowsOut_dc] at hu
    exact ⟨u, by simp only [List.append_assoc, hu]⟩
  | err e => exact ⟨[], by simp⟩
  | panic => exact ⟨[], by simp⟩
  | diverge => exact ⟨[], by simp⟩

theorem encode_prefix {a b : Str} (h : a <+: b) : utf8Encode a <+: utf8Encode b := by
  obtain ⟨t, rfl⟩ := h
  exact ⟨utf8Encode t, by simp [utf8Encode]⟩

theorem prefix_left {α : Type} (x : List α) {a b : List α} (h : a <+: b) : x ++ a <+: x ++ b := by
  obtain ⟨t, rfl⟩ := h
  exact ⟨t, by simp⟩

/-! ## The sources of good inputs -/

theorem good_calls {range : TimestampRange} {h : Header} {files : List FileSource} (hg : GoodInputs range h files) :
    (calls range (Props.enough (files.map (·.source))) (files.map (·.source))).2 = .ok () := by
  refine (Props.C23_source_failure range _ _ ?_ (Nat.le_refl _)).1.2 ?_
  · intro s hs
    obtain ⟨f, hf, rfl⟩ := List.mem_map.1 hs
    exact selected_ne (hg.sorted f hf) (hg.some f hf)
  · intro s hs
    obtain ⟨f, hf, rfl⟩ := List.mem_map.1 hs
    exact hg.readable f hf

theorem sources_sorted {files : List FileSource} (h : ∀ f ∈ files, Sorted f.source.rows) : ∀ s ∈ files.map (·.source), Sorted s.rows := by
  intro s hs
  obtain ⟨f, hf, rfl⟩ := List.mem_map.1 hs
  exact h f hf

theorem files_merge (range : TimestampRange) {files : List FileSource} (h : ∀ f ∈ files, Sorted f.source.rows) :
    IsMerge range (files.map (·.source.rows)) (mergeOf range (files.map (·.source))) := by
  have := mergeOf_isMerge range (files.map (·.source)) (sources_sorted h)
  rwa [List.map_map] at this

/-! ## Headers read from DC can be written again -/

theorem natDigitsAux_len : ∀ (fuel k n : Nat) (acc : Str), n < 10 ^ (k + 1) → (natDigitsAux fuel n acc).length ≤ acc.length + (k + 1)
  | 0, k, n, acc, h => by simp [natDigitsAux]
  | fuel + 1, k, n, acc, h => by
    unfold natDigitsAux
    simp only
    split
    · simp
    · cases k with
      | zero => omega
      | succ k =>
        have := natDigitsAux_len fuel k (n / 10) (Char.ofNat (48 + n % 10) :: acc) (by rw [Nat.pow_succ] at h; omega)
        simp only [List.length_cons] at this
        omega

theorem natToStr_len (k n : Nat) (h : n < 10 ^ (k + 1)) : (natToStr n).length ≤ k + 1 := by
  have := natDigitsAux_len (n + 1) k n [] h
  simpa [natToStr] using this

theorem dc_header_facts {c : List Byte} {h : Header} (hc : IsDcHeader c h) :
    h.names.length = h.types.length ∧ h.types.length < 2 ^ 32 ∧ (∀ n ∈ h.names, (utf8Encode n).length < 2 ^ 32 ∧ n ≠ []) := by
  obtain ⟨user, cols, _, _, h3, h4, _, h6, h7⟩ := hc
  refine ⟨by rw [h6, h7]; simp, by rw [h6]; simpa using h3, ?_⟩
  intro n hn
  rw [h7] at hn
  obtain ⟨i, hi, rfl⟩ := List.mem_mapIdx.1 hn
  unfold columnName decimal
  rw [← natToStr_repr]
  split
  · rename_i h0
    have hi' : i < 2 ^ 32 := by simp at hi; omega
    have hl := natToStr_len 9 i (by omega)
    have hd := (natToStr_spec i).1
    refine ⟨?_, by simp⟩
    have hle : ∀ s : Str, (utf8Encode s).length ≤ 4 * s.length := by
      intro s
      induction s with
      | nil => simp [utf8Encode]
      | cons c s ih =>
        have e : utf8Encode (c :: s) = encodeChar c ++ utf8Encode s := by simp [utf8Encode]
        have : (encodeChar c).length ≤ 4 := by
          unfold encodeChar
          simp only
          split
          · simp
          · split
            · simp
            · split <;> simp
        rw [e, List.length_append, List.length_cons]
        omega
    have := hle ("col_".toList ++ natToStr i)
    simp only [List.length_append] at this
    have h4 : "col_".toList.length = 4 := by decide
    omega
  · rename_i h0
    refine ⟨?_, h0⟩
    rw [List.getElem_map]
    exact (h4 _ (List.getElem_mem _)).2.1

theorem toFile_delivers (src : DcSource) : ∃ fin, Delivers src src.toFile.source.rows fin := by
  obtain ⟨s', h1, h2⟩ := dc_toFile_runs src
  clear h2
  refine ⟨s', ?_⟩
  revert h1
  generalize src.toFile.source.rows = rows
  intro h1
  induction h1 with
  | nil => exact .nil _
  | cons h _ ih => exact .cons h ih

end Chopper
