import Verif.Props.CsvReceived3
import Verif.Props.MergeLaws
import Verif.Spec.CutShort

/-!
# C147: CSV inputs that are cut short without an error, for the tool
-/
namespace Chopper.Props
open Chopper Chopper.Spec

/-- Of two time-ordered lists, one is in the other if it is at every single time. -/
theorem sorted_sublist : ∀ (b a : List Row), Sorted a → Sorted b →
    (∀ t, List.Sublist (a.filter fun r => r.timestamp == t) (b.filter fun r => r.timestamp == t)) → List.Sublist a b
  | [], a, _, _, h => by
    cases a with
    | nil => exact .slnil
    | cons y a =>
      have := h y.timestamp
      simp at this
  | x :: b, [], _, _, _ => List.nil_sublist _
  | x :: b, y :: a, ha, hb, h => by
    have hb' : Sorted b := (List.pairwise_cons.1 hb).2
    have ha' : Sorted a := (List.pairwise_cons.1 ha).2
    by_cases hxy : x.timestamp = y.timestamp
    · have ht := h y.timestamp
      have hy : ((y.timestamp == y.timestamp) = true) := by simp
      have hx : ((x.timestamp == y.timestamp) = true) := by simp [hxy]
      rw [List.filter_cons, List.filter_cons, if_pos hy, if_pos hx] at ht
      rcases List.sublist_cons_iff.1 ht with ht | ⟨r, hr, ht⟩
      · refine (sorted_sublist b (y :: a) ha hb' fun t => ?_).cons x
        by_cases hty : t = y.timestamp
        · subst hty
          rw [List.filter_cons, if_pos hy]
          exact ht
        · have := h t
          have hx' : ¬ ((x.timestamp == t) = true) := by simpa [hxy] using fun he => hty he.symm
          rwa [List.filter_cons (x := x), if_neg hx'] at this
      · injection hr with h1 h2
        subst h1 h2
        refine (sorted_sublist b a ha' hb' fun t => ?_).cons₂ y
        by_cases hty : t = y.timestamp
        · subst hty
          exact ht
        · have := h t
          have hx' : ¬ ((y.timestamp == t) = true) := by simpa using fun he => hty he.symm
          rwa [List.filter_cons, if_neg hx', List.filter_cons, if_neg hx'] at this
    · have hmem : y ∈ b := by
        have ht := h y.timestamp
        have : y ∈ (x :: b).filter fun r => r.timestamp == y.timestamp := ht.subset (by simp)
        rcases List.mem_cons.1 (List.mem_filter.1 this).1 with he | he
        · exact absurd (by rw [he]) hxy
        · exact he
      have hle : x.timestamp ≤ y.timestamp := (List.pairwise_cons.1 hb).1 y hmem
      refine (sorted_sublist b (y :: a) ha hb' fun t => ?_).cons x
      by_cases htx : t = x.timestamp
      · subst htx
        have : (y :: a).filter (fun r => r.timestamp == x.timestamp) = [] := by
          rw [List.filter_eq_nil_iff]
          intro r hr he
          have he : r.timestamp = x.timestamp := by simpa using he
          have hyr : y.timestamp ≤ r.timestamp := by
            rcases List.mem_cons.1 hr with rfl | hr
            · exact Nat.le_refl _
            · exact (List.pairwise_cons.1 ha).1 r hr
          rw [he] at hyr
          exact hxy (by simp only [BitVec.le_def] at *; exact BitVec.eq_of_toNat_eq (by omega))
        rw [this]
        exact List.nil_sublist _
      · have := h t
        have hx' : ¬ ((x.timestamp == t) = true) := by simpa using fun he => htx he.symm
        rwa [List.filter_cons (x := x), if_neg hx'] at this

/-- The merge of parts of the inputs is a part of the merge of the inputs. -/
theorem merge_sublist {range : TimestampRange} : ∀ {A B : List (List Row)} {a b : List Row}, A.length = B.length →
    (∀ (k : Nat) x y, A[k]? = some x → B[k]? = some y → List.Sublist x y) → IsMerge range A a → IsMerge range B b → List.Sublist a b := by
  intro A B a b hl hs ha hb
  refine sorted_sublist b a ha.sorted hb.sorted fun t => ?_
  rw [ha.rowsAt, hb.rowsAt]
  clear ha hb
  induction A generalizing B with
  | nil =>
    cases B with
    | nil => exact List.Sublist.refl _
    | cons => simp at hl
  | cons x A ih =>
    cases B with
    | nil => simp at hl
    | cons y B =>
      simp only [List.reverse_cons, List.flatMap_append, List.flatMap_cons, List.flatMap_nil, List.append_nil]
      exact (ih (by simpa using hl) fun k x' y' h1 h2 => hs (k + 1) x' y' (by simpa using h1) (by simpa using h2)).append ((hs 0 x y rfl rfl).filter _)

/-- What is left of the inputs without the last rows of those that are cut. -/
def withoutLast (cut : Input → Bool) (is : List Input) (parts : List FileSource) : List (List Row) :=
  List.zipWith (fun i f => if cut i then f.source.rows.dropLast else f.source.rows) is parts

theorem withoutLast_count (cut : Input → Bool) (p : Row → Bool) : ∀ (is : List Input) (parts : List FileSource), parts.length = is.length →
    ((parts.map (·.source.rows)).flatMap fun l => l.filter p).length ≤ ((withoutLast cut is parts).flatMap fun l => l.filter p).length + is.countP cut
  | [], [], _ => by simp
  | [], _ :: _, h => by simp at h
  | _ :: _, [], h => by simp at h
  | i :: is, f :: parts, h => by
    have ih := withoutLast_count cut p is parts (by simpa using h)
    unfold withoutLast at *
    simp only [List.map_cons, List.flatMap_cons, List.length_append, List.zipWith_cons_cons]
    by_cases hc : cut i = true
    · rw [if_pos hc, List.countP_cons_of_pos hc]
      have : (f.source.rows.filter p).length ≤ (f.source.rows.dropLast.filter p).length + 1 := by
        rcases List.eq_nil_or_concat f.source.rows with he | ⟨l, r, he⟩
        · rw [he]; simp
        · rw [he]
          simp only [List.concat_eq_append, List.dropLast_concat, List.filter_append, List.length_append]
          have := List.length_filter_le p [r]
          simp only [List.length_singleton] at this
          omega
      omega
    · rw [if_neg hc, List.countP_cons_of_neg hc]
      omega

theorem prefix_sublist_dropLast {l m : List Row} (h : l.dropLast <+: m) : List.Sublist l.dropLast l ∧ List.Sublist l.dropLast m :=
  ⟨List.dropLast_sublist _, h.sublist⟩

/-- The rows of an input that is cut short, but the last one, are the first rows of the complete one. -/
theorem cut_rows {env : CsvEnv} (hcrate : env.csv = csvCrate) {dec : Decoders} {zip : ZipLib} {w w' : World} {cfg : CsvInputConfig env.lib} {b : Byte} {header : Bool}
    {u : TimestampUnits} (hc : Explicit cfg b header u) (hb : b.toNat < 128) {i : Input} (hi : CutShort zip w w' i) {f f' : FileSource}
    (h : createFromInput (newInputs env dec zip w (some cfg) [] []) w i = .ok f) (h' : createFromInput (newInputs env dec zip w' (some cfg) [] []) w' i = .ok f') (he : f.source.ending = .eof) :
    f'.source.rows.dropLast <+: f.source.rows := by
  obtain ⟨r, r', n, n', h1, h2, h3, h4, h5, h6⟩ := hi
  by_cases hl : 2 ≤ f'.source.rows.length
  · obtain ⟨g, g1, _, _, g2⟩ := C143_cut_partial env hcrate dec zip w' w cfg b header u hc hb i i r' r n' n h2 h1 h4 h3 h5 h6 f' h' hl
    rw [h] at g1
    cases g1
    exact g2 he
  · have : f'.source.rows.dropLast = [] := by
      match hr : f'.source.rows with
      | [] => rfl
      | [_] => rfl
      | _ :: _ :: _ => rw [hr] at hl; simp at hl
    rw [this]
    exact List.nil_prefix

/-- **C147.** A run of the tool over any number of inputs of which some - CSV, read with explicit settings - are cut short without any sign of it, against the run over the complete inputs; both with
inputs in time order. Both write the same header; then, but for at most one line for each input that is cut, the lines of the first run are lines of the second one, in the same order. -/
theorem C147_lines (e : CliEnv) (hcrate : e.csv.csv = csvCrate) (w' : World) (a : CliArgs) (st : CliSettings e.csv.lib) (wholes parts : List FileSource) (h : Header) (d : Device) (b : Byte)
    (header : Bool) (u : TimestampUnits) (hs : parseSettings e a = .ok st) (hc : Explicit st.inCfg b header u) (hb : b.toNat < 128) (hp : e.userFactories = [] ∧ e.userTransports = [])
    (cut : Input → Bool) (hi : ∀ i ∈ st.inputs, if cut i then CutShort e.zip e.world w' i else Unchanged e.zip e.world w' i)
    (ho : Opens e st wholes) (ho' : Opens { e with world := w' } st parts) (hg : GoodInputs st.range h wholes) (hg' : GoodInputs st.range h parts)
    (he : ∀ f ∈ wholes, f.source.ending = .eof) (hd : CsvTo e.out a.output d) (hr : Reliable d)
    (ht : st.outCfg.printTimeCol = true → st.outCfg.style = .humanReadable → st.outCfg.zone ≠ none)
    (hv : ∀ f ∈ wholes ++ parts, ∀ r ∈ f.source.rows, inRange st.range r.timestamp = true → ∀ v ∈ r.values, ¬ Unprintable v) :
    ∃ out out' lines lines' common, (chopperCli e a).result = .ok () ∧ (chopperCli { e with world := w' } a).result = .ok () ∧
      (chopperCli e a).output = some out ∧ (chopperCli { e with world := w' } a).output = some out' ∧
      out.taken = d.taken ++ utf8Encode (csvHeaderText st.outCfg h.names ++ List.flatten lines) ∧
      out'.taken = d.taken ++ utf8Encode (csvHeaderText st.outCfg h.names ++ List.flatten lines') ∧
      (∀ l ∈ lines ++ lines', ∃ r, CsvLines e.ff st.outCfg [r] l) ∧
      List.Sublist common lines ∧ List.Sublist common lines' ∧ lines'.length ≤ common.length + st.inputs.countP cut := by
  obtain ⟨out, rows, p1, p2, p3, p4, p5, p6⟩ := csv_run_rows e a st wholes h d hs ho hg hd hr ht (fun f hf => hv f (List.mem_append_left _ hf))
  obtain ⟨out', rows', q1, q2, q3, q4, q5, q6⟩ := csv_run_rows { e with world := w' } a st parts h d hs ho' hg' hd hr ht (fun f hf => hv f (List.mem_append_right _ hf))
  have hvr : ∀ (fs : List FileSource) (rows : List Row), (∀ f ∈ fs, f ∈ wholes ++ parts) → IsMerge st.range (fs.map (·.source.rows)) rows → ∀ r ∈ rows, ∀ v ∈ r.values, ¬ Unprintable v := by
    intro fs rows hfs hm r hr v hv'
    obtain ⟨h1, i, hi, h2⟩ := merge_mem hm hr
    obtain ⟨f, hf, rfl⟩ := List.mem_map.1 hi
    exact hv f (hfs f hf) r h2 h1 v hv'
  have v1 := hvr wholes rows (fun f hf => List.mem_append_left _ hf) p3
  have v2 := hvr parts rows' (fun f hf => List.mem_append_right _ hf) q3
  have hlp : parts.length = st.inputs.length := ho'.1
  have hlw : wholes.length = st.inputs.length := ho.1
  have hget : ∀ (k : Nat) q, (withoutLast cut st.inputs parts)[k]? = some q → ∃ i f, st.inputs[k]? = some i ∧ parts[k]? = some f ∧ q = if cut i then f.source.rows.dropLast else f.source.rows := by
    intro k q hq
    unfold withoutLast at hq
    rw [List.getElem?_zipWith] at hq
    cases hin : st.inputs[k]? with
    | none => rw [hin] at hq; cases hq
    | some i =>
      cases hpk : parts[k]? with
      | none => rw [hin, hpk] at hq; cases hq
      | some f =>
        rw [hin, hpk] at hq
        cases hq
        exact ⟨i, f, rfl, rfl, rfl⟩
  have hlq : (withoutLast cut st.inputs parts).length = st.inputs.length := by simp [withoutLast, hlp]
  -- without the last rows, the inputs are parts of both
  have s1 : ∀ (k : Nat) q y, (withoutLast cut st.inputs parts)[k]? = some q → (parts.map (·.source.rows))[k]? = some y → List.Sublist q y := by
    intro k q y hq hy
    obtain ⟨i, f, _, h2, rfl⟩ := hget k q hq
    rw [List.getElem?_map, h2] at hy
    cases hy
    split
    · exact List.dropLast_sublist _
    · exact List.Sublist.refl _
  have s2 : ∀ (k : Nat) q y, (withoutLast cut st.inputs parts)[k]? = some q → (wholes.map (·.source.rows))[k]? = some y → List.Sublist q y := by
    intro k q y hq hy
    obtain ⟨i, f', h1, h2, rfl⟩ := hget k q hq
    rw [List.getElem?_map] at hy
    obtain ⟨f, hf, rfl⟩ := Option.map_eq_some_iff.1 hy
    have o1 := ho.2 k i f h1 hf
    have o2 := ho'.2 k i f' h1 h2
    simp only [hp.1, hp.2] at o1 o2
    have hi' := hi i (List.mem_of_getElem? h1)
    by_cases hci : cut i = true
    · rw [if_pos hci] at hi' ⊢
      exact (cut_rows hcrate hc hb hi' o1 o2 (he f (List.mem_of_getElem? hf))).sublist
    · rw [if_neg hci] at hi' ⊢
      obtain ⟨r, n, k1, k2⟩ := hi'
      rw [k1.opens (some st.inCfg)] at o1
      rw [k2.opens (some st.inCfg), o1] at o2
      cases o2
      exact List.Sublist.refl _
  have hqs : ∀ s ∈ (withoutLast cut st.inputs parts).map (fun q => (⟨q, .eof⟩ : Source)), Sorted s.rows := by
    intro s hs
    obtain ⟨q, hq, rfl⟩ := List.mem_map.1 hs
    obtain ⟨k, hk⟩ := List.getElem?_of_mem hq
    obtain ⟨i, f, _, h2, _⟩ := hget k q hk
    have := s1 k q f.source.rows hk (by rw [List.getElem?_map, h2]; rfl)
    exact List.Pairwise.sublist this (hg'.sorted f (List.mem_of_getElem? h2))
  have hm := mergeOf_isMerge st.range _ hqs
  generalize mergeOf st.range ((withoutLast cut st.inputs parts).map fun q => (⟨q, .eof⟩ : Source)) = m at hm
  rw [List.map_map, show ((fun x : Source => x.rows) ∘ fun q => (⟨q, .eof⟩ : Source)) = id from rfl, List.map_id] at hm
  have c1 := merge_sublist (by simp [hlq, hlp]) s1 hm q3
  have c2 := merge_sublist (by simp [hlq, hlw]) s2 hm p3
  have hcount : rows'.length ≤ m.length + st.inputs.countP cut := by
    rw [(isMerge_count q3).length_eq, (isMerge_count hm).length_eq]
    exact withoutLast_count cut _ st.inputs parts hlp
  refine ⟨out, out', rows.map fun r => (csvRowsText e.ff st.outCfg [r]).1, rows'.map fun r => (csvRowsText e.ff st.outCfg [r]).1, m.map fun r => (csvRowsText e.ff st.outCfg [r]).1,
    p1, q1, p2, q2, ?_, ?_, ?_, c2.map _, c1.map _, by simpa using hcount⟩
  · rw [p6, csvLines_all ht rows v1, List.flatMap_def]
  · rw [q6, csvLines_all ht rows' v2, List.flatMap_def]
  · intro l hl
    rw [← List.map_append] at hl
    obtain ⟨r, hr, rfl⟩ := List.mem_map.1 hl
    refine ⟨r, (csvRows_lines e.ff st.outCfg ht [r] ?_).2⟩
    intro x hx
    rw [List.mem_singleton] at hx
    subst hx
    rcases List.mem_append.1 hr with hr | hr
    · exact v1 x hr
    · exact v2 x hr

/-! ### A case that meets the hypotheses -/

theorem pair_good (t : Nanos) (a b a' b' : Str) (ht : (1 : Nanos) ≤ t) :
    GoodInputs (⟨none, none⟩ : TimestampRange) pairHeader [⟨pairHeader, ⟨[⟨1, [.string a, .string b]⟩, ⟨t, [.string a', .string b']⟩], .eof⟩⟩] := by
  refine ⟨by simp, ?_, ?_, ?_⟩
  · intro f hf
    rw [List.mem_singleton] at hf
    subst hf
    exact List.pairwise_pair.2 ht
  · intro f hf
    rw [List.mem_singleton] at hf
    subst hf
    exact ⟨_, .head _, rfl⟩
  · intro f hf
    rw [List.mem_singleton] at hf
    subst hf
    unfold endingWithin
    split <;> rfl

/-- The lines `1,x` and `12,y`, and only the first five bytes of them: everything `C147_lines` asks for, and so what it says. (The rows are at the times 1 and 12, and 1 and 1.) -/
example : ∃ out out' lines lines' common, (chopperCli (pipedEnv ⟨twoLines, [], none⟩) pipedArgs).output = some out ∧ (chopperCli (pipedEnv ⟨twoLines.take 5, [], none⟩) pipedArgs).output = some out' ∧
    out.taken = utf8Encode (csvHeaderText (pipedSettings).outCfg pairHeader.names ++ List.flatten lines) ∧
    out'.taken = utf8Encode (csvHeaderText (pipedSettings).outCfg pairHeader.names ++ List.flatten lines') ∧
    List.Sublist common lines ∧ List.Sublist common lines' ∧ lines'.length ≤ common.length + 1 := by
  obtain ⟨out, out', lines, lines', common, _, _, h3, h4, h5, h6, _, h8, h9, h10⟩ := C147_lines (pipedEnv ⟨twoLines, [], none⟩) rfl (pipedWorld ⟨twoLines.take 5, [], none⟩) pipedArgs pipedSettings
    _ _ pairHeader ⟨[], [.take 3], 0⟩ 44 false .nanos (piped_settings _) nanos_explicit (by decide) ⟨rfl, rfl⟩ (fun _ => true)
    (by
      intro i hi
      replace hi : i ∈ [pipedCsv] := hi
      rw [List.mem_singleton] at hi
      subst hi
      rw [if_pos rfl]
      exact ⟨_, _, none, none, piped_delivered ⟨twoLines, [], none⟩, piped_delivered ⟨twoLines.take 5, [], none⟩, piped_says, piped_says, List.take_prefix _ _, noFail_none (by simp)⟩)
    (piped_opens two_read) (piped_opens cut_read) (pair_good 12 _ _ _ _ (by decide)) (pair_good 1 _ _ _ _ (by decide)) (by simp) (.inl ⟨rfl, rfl⟩) (by intro k hk; simp at hk) (by intro _ h; cases h)
    (by
      intro f hf r hr _ v hv
      have : ∃ s, v = .string s := by
        simp only [List.mem_append, List.mem_singleton] at hf
        rcases hf with rfl | rfl <;> simp only [List.mem_cons, List.not_mem_nil, or_false] at hr <;> rcases hr with rfl | rfl <;>
          simp only [List.mem_cons, List.not_mem_nil, or_false] at hv <;> rcases hv with rfl | rfl <;> exact ⟨_, rfl⟩
      obtain ⟨s, rfl⟩ := this
      rintro (⟨b, hb⟩ | ⟨b, hb⟩) <;> cases hb)
  exact ⟨out, out', lines, lines', common, h3, h4, h5, h6, h8, h9, h10⟩

end Chopper.Props
