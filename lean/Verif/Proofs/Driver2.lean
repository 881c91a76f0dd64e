import Verif.Proofs.Driver

namespace Chopper
open Spec

/-! ## The driver's calls do not depend on the graph -/

theorem perform_append {G : Type} (process : ChainId → Row → G → G × Res Unit) (flush : ChainId → G → G × Res Unit)
    (cs ds : List Call) (out : Res Unit) (g : G) :
    perform process flush (cs ++ ds) out g =
      match perform process flush cs (.ok ()) g with
      | (g', .ok ()) => perform process flush ds out g'
      | (g', r) => (g', r) := by
  induction cs generalizing g with
  | nil => simp [perform]
  | cons c cs ih =>
    cases c with
    | feed c r =>
      simp only [List.cons_append, perform, ih]
      rcases process c r g with ⟨g', _ | _ | _ | _⟩ <;> rfl
    | flush c =>
      simp only [List.cons_append, perform, ih]
      rcases flush c g with ⟨g', _ | _ | _ | _⟩ <;> rfl

theorem perform_log (cs : List Call) (out : Res Unit) (l : List Call) :
    perform (fun c r l => (l ++ [.feed c r], .ok ())) (fun c l => (l ++ [.flush c], .ok ())) cs out l = (l ++ cs, out) := by
  induction cs generalizing l with
  | nil => simp [perform]
  | cons c cs ih => cases c <;> simp [perform, ih]

theorem driveLoop_perform (range : TimestampRange) : ∀ (fuel : Nat) (bufs : List RowBuffer), ∃ cs out,
    ∀ (G : Type) (process : ChainId → Row → G → G × Res Unit) (flush : ChainId → G → G × Res Unit) (g : G),
      driveLoop process flush range fuel bufs g = perform process flush cs out g := by
  intro fuel
  induction fuel with
  | zero => intro bufs; cases bufs with
    | nil => exact ⟨[], .ok (), fun _ _ _ _ => rfl⟩
    | cons _ _ => exact ⟨[], .diverge, fun _ _ _ _ => rfl⟩
  | succ fuel ih =>
    intro bufs
    cases hi : nextBufferIndex bufs with
    | none => exact ⟨[], .ok (), fun _ _ _ _ => by simp [driveLoop, hi, perform]⟩
    | some i =>
      cases hb : bufs[i]? with
      | none => exact ⟨[], .panic, fun _ _ _ _ => by simp [driveLoop, hi, hb, perform]⟩
      | some b =>
        cases hr : b.row with
        | none => exact ⟨[], .panic, fun _ _ _ _ => by simp [driveLoop, hi, hb, hr, perform]⟩
        | some row =>
          cases hn : b.hasNext range with
          | mk res b' =>
            cases res with
            | ok x =>
              cases x with
              | true =>
                obtain ⟨cs, out, h⟩ := ih (bufs.set i b')
                refine ⟨.feed b.chain row :: cs, out, fun G p f g => ?_⟩
                simp only [driveLoop, hi, hb, hr, hn, perform, h]
                rcases p b.chain row g with ⟨g', _ | _ | _ | _⟩ <;> rfl
              | false =>
                obtain ⟨cs, out, h⟩ := ih (bufs.eraseIdx i)
                refine ⟨.feed b.chain row :: .flush b.chain :: cs, out, fun G p f g => ?_⟩
                simp only [driveLoop, hi, hb, hr, hn, perform, h]
                rcases p b.chain row g with ⟨g', _ | _ | _ | _⟩
                · simp only []
                  rcases f b.chain g' with ⟨g'', _ | _ | _ | _⟩ <;> rfl
                all_goals rfl
            | err e =>
              refine ⟨[.feed b.chain row], .err e, fun G p f g => ?_⟩
              simp only [driveLoop, hi, hb, hr, hn, perform]
              rcases p b.chain row g with ⟨g', _ | _ | _ | _⟩ <;> rfl
            | panic =>
              refine ⟨[.feed b.chain row], .panic, fun G p f g => ?_⟩
              simp only [driveLoop, hi, hb, hr, hn, perform]
              rcases p b.chain row g with ⟨g', _ | _ | _ | _⟩ <;> rfl
            | diverge =>
              refine ⟨[.feed b.chain row], .diverge, fun G p f g => ?_⟩
              simp only [driveLoop, hi, hb, hr, hn, perform]
              rcases p b.chain row g with ⟨g', _ | _ | _ | _⟩ <;> rfl

theorem drive_perform (range : TimestampRange) (fuel : Nat) (sources : List Source)
    {G : Type} (process : ChainId → Row → G → G × Res Unit) (flush : ChainId → G → G × Res Unit) (g : G) :
    drive process flush range fuel sources g =
      perform process flush (calls range fuel sources).1 (calls range fuel sources).2 g := by
  unfold calls drive
  cases getRowBuffers range sources with
  | ok bufs =>
    obtain ⟨cs, out, h⟩ := driveLoop_perform range fuel bufs
    simp only [h, perform_log]; simp
  | err e => rfl
  | panic => rfl
  | diverge => rfl

/-! ## Buffers built from the sources -/

def absFrom (range : TimestampRange) : ChainId → List Source → List ABuf
  | _, [] => []
  | i, s :: ss =>
    match selected range s.rows with
    | [] => absFrom range (i + 1) ss
    | r :: rs => ⟨i, r, rs, endingWithin range s⟩ :: absFrom range (i + 1) ss

theorem new_nonempty {range : TimestampRange} {s : Source} {r rest} (h : selected range s.rows = r :: rest) (i : ChainId) :
    ∃ b, RowBuffer.new s i range = .ok b ∧ Rel range b ⟨i, r, rest, endingWithin range s⟩ := by
  rcases matchNextRow_cases range s.rows s.ending with ⟨r', rs, s', h1, h2, h3, h4, _⟩ | ⟨h1, _⟩
  · rw [h] at h1; cases h1
    exact ⟨⟨s', i, r.timestamp, some r⟩, by simp only [RowBuffer.new, h2], rfl, rfl, rfl, h3, h4⟩
  · rw [h] at h1; cases h1

theorem getRowBuffers_nonempty (range : TimestampRange) : ∀ (popped : List Source) (i : ChainId),
    (∀ s ∈ popped, selected range s.rows ≠ []) →
    ∃ bufs, getRowBuffersFrom range i popped = .ok bufs ∧ Rels range bufs (absFrom range i popped) := by
  intro popped
  induction popped with
  | nil => intro i _; exact ⟨[], rfl, .nil⟩
  | cons s ss ih =>
    intro i h
    have hs := h s (by simp)
    cases hsel : selected range s.rows with
    | nil => exact absurd hsel hs
    | cons r rs =>
      obtain ⟨b, hb, hrel⟩ := new_nonempty hsel i
      obtain ⟨bufs, hbufs, hrels⟩ := ih (i + 1) (fun s hs => h s (by simp [hs]))
      refine ⟨b :: bufs, by simp [getRowBuffersFrom, hb, hbufs], ?_⟩
      simp only [absFrom, hsel]; exact .cons hrel hrels

theorem length_selected_le (range : TimestampRange) (rows : List Row) : (selected range rows).length ≤ rows.length := by
  unfold selected
  exact Nat.le_trans (List.length_filter_le _ _) (List.takeWhile_sublist _).length_le

theorem aweight_absFrom (range : TimestampRange) (popped : List Source) : ∀ i,
    aweight (absFrom range i popped) = (popped.map (fun s => (selected range s.rows).length)).sum := by
  induction popped with
  | nil => intro i; rfl
  | cons s ss ih =>
    intro i
    simp only [absFrom, List.map_cons, List.sum_cons]
    cases selected range s.rows with
    | nil => simp [ih]
    | cons r rs => have := ih (i + 1); simp [aweight] at this ⊢; omega

def totalSelected (range : TimestampRange) (sources : List Source) : Nat :=
  (sources.map (fun s => (selected range s.rows).length)).sum

theorem sum_map_le {α : Type} (f g : α → Nat) (h : ∀ a, f a ≤ g a) (l : List α) : (l.map f).sum ≤ (l.map g).sum := by
  induction l with
  | nil => simp
  | cons a l ih => have := h a; simp; omega

theorem totalSelected_le (range : TimestampRange) (sources : List Source) : totalSelected range sources ≤ totalRows sources :=
  sum_map_le (fun s : Source => (selected range s.rows).length) (fun s => s.rows.length) (fun s => length_selected_le range s.rows) _

theorem calls_run (range : TimestampRange) (fuel : Nat) (sources : List Source)
    (hne : ∀ s ∈ sources, selected range s.rows ≠ []) (hf : totalSelected range sources ≤ fuel) :
    Run (absFrom range 0 sources.reverse) (calls range fuel sources).1 (calls range fuel sources).2 := by
  obtain ⟨bufs, hb, hr⟩ := getRowBuffers_nonempty range sources.reverse 0 (fun s hs => hne s (by simpa using hs))
  have hw : aweight (absFrom range 0 sources.reverse) ≤ fuel := by
    rw [aweight_absFrom, List.map_reverse, List.sum_reverse]; exact hf
  obtain ⟨cs, out, hrun, h⟩ := driveLoop_run (fun c r l => (l ++ [Call.feed c r], .ok ()))
    (fun c l => (l ++ [.flush c], .ok ())) range fuel bufs _ hr hw
  have : calls range fuel sources = (cs, out) := by
    simp only [calls, drive, getRowBuffers, hb, h, perform_log, List.nil_append]
  rw [this]; exact hrun

/-! ## Stable sort -/

theorem mem_insertByTime {x y : ChainId × Row} {l} : x ∈ insertByTime y l ↔ x = y ∨ x ∈ l := by
  induction l with
  | nil => simp [insertByTime]
  | cons z l ih => simp only [insertByTime]; split <;> simp [ih]; grind

theorem mem_stableSort {x : ChainId × Row} {l} : x ∈ stableSort l ↔ x ∈ l := by
  induction l with
  | nil => simp [stableSort]
  | cons z l ih => simp [stableSort, mem_insertByTime, ih]

theorem insertByTime_min {x : ChainId × Row} {l : List (ChainId × Row)} (h : ∀ y ∈ l, x.2.timestamp ≤ y.2.timestamp) :
    insertByTime x l = x :: l := by
  cases l with
  | nil => rfl
  | cons y l => simp [insertByTime, h y (by simp)]

theorem stableSort_min {x : ChainId × Row} {l1 l2 : List (ChainId × Row)}
    (h1 : ∀ y ∈ l1, x.2.timestamp < y.2.timestamp) (h2 : ∀ y ∈ l2, x.2.timestamp ≤ y.2.timestamp) :
    stableSort (l1 ++ x :: l2) = x :: stableSort (l1 ++ l2) := by
  induction l1 with
  | nil => simp only [List.nil_append, stableSort]
           exact insertByTime_min (fun y hy => h2 y (mem_stableSort.1 hy))
  | cons y l1 ih =>
    simp only [List.cons_append, stableSort]
    rw [ih (fun z hz => h1 z (by simp [hz]))]
    have := h1 y (by simp)
    have hn : ¬ y.2.timestamp ≤ x.2.timestamp := BitVec.not_le.2 this
    simp [insertByTime, hn]

theorem insertByTime_sorted {x : ChainId × Row} {l : List (ChainId × Row)}
    (h : l.Pairwise (fun a b => a.2.timestamp ≤ b.2.timestamp)) :
    (insertByTime x l).Pairwise (fun a b => a.2.timestamp ≤ b.2.timestamp) := by
  induction l with
  | nil => simp [insertByTime]
  | cons y l ih =>
    simp only [insertByTime]
    rw [List.pairwise_cons] at h
    split
    · rename_i hle
      rw [List.pairwise_cons, List.pairwise_cons]
      refine ⟨?_, h⟩
      intro z hz; rcases List.mem_cons.1 hz with rfl | hz
      · exact hle
      · exact BitVec.le_trans hle (h.1 z hz)
    · rename_i hle
      rw [List.pairwise_cons]
      refine ⟨?_, ih h.2⟩
      intro z hz; rcases mem_insertByTime.1 hz with rfl | hz
      · exact BitVec.le_of_lt (BitVec.not_le.1 hle)
      · exact h.1 z hz

theorem stableSort_sorted (l : List (ChainId × Row)) :
    (stableSort l).Pairwise (fun a b => a.2.timestamp ≤ b.2.timestamp) := by
  induction l with
  | nil => simp [stableSort]
  | cons x l ih => exact insertByTime_sorted ih

theorem insertByTime_perm (x : ChainId × Row) (l) : (insertByTime x l).Perm (x :: l) := by
  induction l with
  | nil => exact .refl _
  | cons y l ih =>
    simp only [insertByTime]; split
    · exact .refl _
    · exact (List.Perm.cons y ih).trans (.swap x y l)

theorem stableSort_perm (l : List (ChainId × Row)) : (stableSort l).Perm l := by
  induction l with
  | nil => exact .refl _
  | cons x l ih => exact (insertByTime_perm x _).trans (.cons x ih)

/-! ## Facts about runs -/

def ABuf.rows (a : ABuf) : List Row := a.head :: a.rest
def ABuf.tagged (a : ABuf) : List (ChainId × Row) := a.rows.map (fun r => (a.chain, r))

theorem fed_feed (c h cs) : fed (.feed c h :: cs) = (c, h) :: fed cs := rfl
theorem fed_flush (c cs) : fed (.flush c :: cs) = fed cs := rfl

theorem sorted_tail_ge {a : ABuf} (h : Sorted a.rows) : ∀ y ∈ a.tagged, a.head.timestamp ≤ y.2.timestamp := by
  intro y hy
  simp only [ABuf.tagged, ABuf.rows, List.map_cons, List.mem_cons, List.mem_map] at hy
  rcases hy with rfl | ⟨r, hr, rfl⟩
  · exact BitVec.le_refl _
  · exact (List.pairwise_cons.1 h).1 r hr

theorem run_stableSort {as cs out} (h : Run as cs out) (hout : out = .ok ()) (hs : ∀ a ∈ as, Sorted a.rows) :
    fed cs = stableSort (as.flatMap ABuf.tagged) := by
  have key : ∀ {pre post : List ABuf} {a : ABuf}, IsMin pre a post → (∀ b ∈ pre ++ a :: post, Sorted b.rows) →
      stableSort ((pre ++ a :: post).flatMap ABuf.tagged) =
        (a.chain, a.head) :: stableSort (pre.flatMap ABuf.tagged ++ ((a.rest.map (fun r => (a.chain, r))) ++ post.flatMap ABuf.tagged)) := by
    intro pre post a hm hs
    have e : (pre ++ a :: post).flatMap ABuf.tagged = pre.flatMap ABuf.tagged ++
        (a.chain, a.head) :: ((a.rest.map (fun r => (a.chain, r))) ++ post.flatMap ABuf.tagged) := by
      simp [ABuf.tagged, ABuf.rows]
    rw [e, stableSort_min]
    · intro y hy
      obtain ⟨p, hp, hy⟩ := List.mem_flatMap.1 hy
      have h1 := sorted_tail_ge (hs p (by simp [hp])) y hy
      have h2 := hm.1 p hp
      simp only [BitVec.lt_def, BitVec.le_def] at *; omega
    · intro y hy
      rcases List.mem_append.1 hy with hy | hy
      · exact sorted_tail_ge (hs a (by simp)) y (by simp only [ABuf.tagged, ABuf.rows, List.map_cons]; exact List.mem_cons_of_mem _ hy)
      · obtain ⟨p, hp, hy⟩ := List.mem_flatMap.1 hy
        exact BitVec.le_trans (hm.2 p hp) (sorted_tail_ge (hs p (by simp [hp])) y hy)
  induction h with
  | nil => rfl
  | @next pre post c h r rs e cs out hm _ ih =>
    rw [key hm hs, fed_feed]
    rw [ih hout]
    · simp [ABuf.tagged, ABuf.rows]
    · intro b hb
      rcases List.mem_append.1 hb with hb | hb
      · exact hs b (by simp [hb])
      · rcases List.mem_cons.1 hb with rfl | hb
        · exact (List.pairwise_cons.1 (hs ⟨c, h, r :: rs, e⟩ (by simp))).2
        · exact hs b (by simp [hb])
  | @done pre post c h cs out hm _ ih =>
    rw [key hm hs, fed_feed, fed_flush, ih hout]
    · simp
    · intro b hb
      rcases List.mem_append.1 hb with hb | hb <;> exact hs b (by simp [hb])
  | fail _ => cases hout
  | crash _ => cases hout

def ABuf.eof (a : ABuf) : ABuf := { a with ending := .eof }

theorem IsMin.eof {pre a post} (h : IsMin pre a post) : IsMin (pre.map ABuf.eof) a.eof (post.map ABuf.eof) := by
  constructor
  · intro p hp; obtain ⟨q, hq, rfl⟩ := List.mem_map.1 hp; exact h.1 q hq
  · intro p hp; obtain ⟨q, hq, rfl⟩ := List.mem_map.1 hp; exact h.2 q hq

/-- Some complete run exists from every state whose inputs all end normally. -/
theorem exists_min (as : List ABuf) (h : as ≠ []) : ∃ pre a post, as = pre ++ a :: post ∧ IsMin pre a post := by
  induction as with
  | nil => exact absurd rfl h
  | cons a as ih =>
    by_cases hn : as = []
    · subst hn; exact ⟨[], a, [], rfl, by simp [IsMin]⟩
    · obtain ⟨pre, b, post, rfl, hm⟩ := ih hn
      by_cases hlt : b.head.timestamp < a.head.timestamp
      · refine ⟨a :: pre, b, post, rfl, ?_, hm.2⟩
        intro p hp; rcases List.mem_cons.1 hp with rfl | hp
        · exact hlt
        · exact hm.1 p hp
      · refine ⟨[], a, pre ++ b :: post, rfl, by simp, ?_⟩
        have hle := BitVec.not_lt.1 hlt
        intro p hp
        rcases List.mem_append.1 hp with hp | hp
        · exact BitVec.le_trans hle (BitVec.le_of_lt (hm.1 p hp))
        · rcases List.mem_cons.1 hp with rfl | hp
          · exact hle
          · exact BitVec.le_trans hle (hm.2 p hp)

theorem exists_run : ∀ (n : Nat) (as : List ABuf), aweight as ≤ n → ∃ cs out, Run as cs out ∧ ((∀ a ∈ as, a.ending = .eof) → out = .ok ()) := by
  intro n
  induction n with
  | zero => intro as h; cases as with
    | nil => exact ⟨[], _, .nil, fun _ => rfl⟩
    | cons a as => simp [aweight] at h
  | succ n ih =>
    intro as h
    by_cases hn : as = []
    · subst hn; exact ⟨[], _, .nil, fun _ => rfl⟩
    · obtain ⟨pre, ⟨c, hd, rest, e⟩, post, rfl, hm⟩ := exists_min as hn
      cases rest with
      | cons r rs =>
        obtain ⟨cs, out, hr, ho⟩ := ih (pre ++ ⟨c, r, rs, e⟩ :: post) (by simp [aweight] at h ⊢; omega)
        refine ⟨_, out, .next hm hr, fun he => ho ?_⟩
        intro a ha
        rcases List.mem_append.1 ha with ha | ha
        · exact he a (by simp [ha])
        · rcases List.mem_cons.1 ha with rfl | ha
          · exact he ⟨c, hd, r :: rs, e⟩ (by simp)
          · exact he a (by simp [ha])
      | nil =>
        cases e with
        | eof =>
          obtain ⟨cs, out, hr, ho⟩ := ih (pre ++ post) (by simp [aweight] at h ⊢; omega)
          refine ⟨_, out, .done hm hr, fun he => ho ?_⟩
          intro a ha
          rcases List.mem_append.1 ha with ha | ha <;> exact he a (by simp [ha])
        | fail e => exact ⟨_, _, .fail hm, fun he => by have := he ⟨c, hd, [], .fail e⟩ (by simp); simp at this⟩
        | crash => exact ⟨_, _, .crash hm, fun he => by have := he ⟨c, hd, [], .crash⟩ (by simp); simp at this⟩

theorem run_prefix {as cs out} (h : Run as cs out) : ∃ more, Run (as.map ABuf.eof) (cs ++ more) (.ok ()) := by
  have tot : ∀ as : List ABuf, ∃ cs, Run (as.map ABuf.eof) cs (.ok ()) := by
    intro as
    obtain ⟨cs, out, h, ho⟩ := exists_run _ (as.map ABuf.eof) (Nat.le_refl _)
    have := ho (by intro a ha; obtain ⟨b, _, rfl⟩ := List.mem_map.1 ha; rfl)
    subst this; exact ⟨cs, h⟩
  induction h with
  | nil => exact ⟨[], .nil⟩
  | @next pre post c h r rs e cs out hm _ ih =>
    obtain ⟨more, ih⟩ := ih
    refine ⟨more, ?_⟩
    have hm' := hm.eof
    simp only [List.map_append, List.map_cons, ABuf.eof] at ih hm' ⊢
    exact .next hm' ih
  | @done pre post c h cs out hm _ ih =>
    obtain ⟨more, ih⟩ := ih
    refine ⟨more, ?_⟩
    have hm' := hm.eof
    simp only [List.map_append, List.map_cons, ABuf.eof] at ih hm' ⊢
    exact .done hm' ih
  | @fail pre post c h e hm =>
    have hm' := hm.eof
    obtain ⟨cs, hr⟩ := tot (pre ++ post)
    refine ⟨.flush c :: cs, ?_⟩
    simp only [List.map_append, List.map_cons, ABuf.eof] at hr hm' ⊢
    exact .done hm' hr
  | @crash pre post c h hm =>
    have hm' := hm.eof
    obtain ⟨cs, hr⟩ := tot (pre ++ post)
    refine ⟨.flush c :: cs, ?_⟩
    simp only [List.map_append, List.map_cons, ABuf.eof] at hr hm' ⊢
    exact .done hm' hr

def rowsOf (c : ChainId) (as : List ABuf) : List Row := as.flatMap (fun a => if a.chain = c then a.rows else [])

def chainsOf (as : List ABuf) : List ChainId := as.map ABuf.chain

theorem rowsOf_absent {c as} (h : c ∉ chainsOf as) : rowsOf c as = [] := by
  simp only [rowsOf, List.flatMap_eq_nil_iff]
  intro a ha
  have : a.chain ≠ c := fun he => h (List.mem_map.2 ⟨a, ha, he⟩)
  simp [this]

theorem run_fedTo {as cs out} (h : Run as cs out) (hout : out = .ok ()) (hd : (chainsOf as).Nodup) (c : ChainId) :
    fedTo c cs = rowsOf c as := by
  induction h with
  | nil => rfl
  | @next pre post c' h r rs e cs out hm _ ih =>
    have hd' : (chainsOf (pre ++ ⟨c', r, rs, e⟩ :: post)).Nodup := by simpa [chainsOf] using hd
    have ih := ih hout hd'
    simp only [chainsOf, List.map_append, List.map_cons] at hd
    by_cases hc : c' = c
    · subst hc
      have h1 : rowsOf c' pre = [] := rowsOf_absent (by intro hh; grind [chainsOf, List.nodup_append])
      simp only [rowsOf, List.flatMap_append, List.flatMap_cons, if_true, ABuf.rows] at ih h1 ⊢
      simp only [fedTo, fed_feed, List.filterMap_cons, if_true] at ih ⊢
      rw [ih]; simp [h1]
    · simp only [rowsOf, List.flatMap_append, List.flatMap_cons, hc, if_false] at ih ⊢
      simp only [fedTo, fed_feed, List.filterMap_cons, hc, if_false] at ih ⊢
      exact ih
  | @done pre post c' h cs out hm _ ih =>
    have hd' : (chainsOf (pre ++ post)).Nodup := by
      simp only [chainsOf, List.map_append, List.map_cons] at hd ⊢
      exact hd.sublist (List.Sublist.append (.refl _) (List.sublist_cons_self _ _))
    have ih := ih hout hd'
    simp only [chainsOf, List.map_append, List.map_cons] at hd
    by_cases hc : c' = c
    · subst hc
      have h1 : rowsOf c' pre = [] := rowsOf_absent (by intro hh; grind [chainsOf, List.nodup_append])
      have h2 : rowsOf c' post = [] := rowsOf_absent (by intro hh; grind [chainsOf, List.nodup_append])
      simp only [rowsOf, List.flatMap_append, List.flatMap_cons, if_true, ABuf.rows] at ih h1 h2 ⊢
      simp only [fedTo, fed_feed, fed_flush, List.filterMap_cons, if_true] at ih ⊢
      rw [ih]; simp [h1, h2]
    · simp only [rowsOf, List.flatMap_append, List.flatMap_cons, hc, if_false] at ih ⊢
      simp only [fedTo, fed_feed, fed_flush, List.filterMap_cons, hc, if_false] at ih ⊢
      exact ih
  | fail _ => cases hout
  | crash _ => cases hout

theorem run_fed_mem {as cs out} (h : Run as cs out) : ∀ p ∈ fed cs, p.1 ∈ chainsOf as := by
  induction h with
  | nil => simp [fed]
  | next hm _ ih =>
    intro p hp; rw [fed_feed] at hp
    rcases List.mem_cons.1 hp with rfl | hp
    · simp [chainsOf]
    · simpa [chainsOf] using ih p hp
  | done hm _ ih =>
    intro p hp; rw [fed_feed, fed_flush] at hp
    rcases List.mem_cons.1 hp with rfl | hp
    · simp [chainsOf]
    · have := ih p hp; simp [chainsOf] at this ⊢; grind
  | fail _ => simp [fed, Call.fed?, chainsOf]
  | crash _ => simp [fed, Call.fed?, chainsOf]

theorem run_flushed {as cs out} (h : Run as cs out) (hout : out = .ok ()) : ∀ a ∈ as, Call.flush a.chain ∈ cs := by
  induction h with
  | nil => simp
  | @next pre post c h r rs e cs out hm _ ih =>
    intro a ha
    have : ∃ b ∈ pre ++ ⟨c, r, rs, e⟩ :: post, b.chain = a.chain := by
      rcases List.mem_append.1 ha with ha | ha
      · exact ⟨a, by simp [ha], rfl⟩
      · rcases List.mem_cons.1 ha with rfl | ha
        · exact ⟨⟨c, r, rs, e⟩, by simp, rfl⟩
        · exact ⟨a, by simp [ha], rfl⟩
    obtain ⟨b, hb, he⟩ := this
    rw [← he]; exact List.mem_cons_of_mem _ (ih hout b hb)
  | @done pre post c h cs out hm _ ih =>
    intro a ha
    rcases List.mem_append.1 ha with ha | ha
    · exact List.mem_cons_of_mem _ (List.mem_cons_of_mem _ (ih hout a (by simp [ha])))
    · rcases List.mem_cons.1 ha with rfl | ha
      · simp
      · exact List.mem_cons_of_mem _ (List.mem_cons_of_mem _ (ih hout a (by simp [ha])))
  | fail _ => cases hout
  | crash _ => cases hout

theorem run_flush_after {as cs out} (h : Run as cs out) (hout : out = .ok ()) :
    ∀ c r p q, cs = p ++ .feed c r :: q → .flush c ∈ q := by
  induction h with
  | nil => intro c r p q h; cases p <;> cases h
  | @next pre post c h r rs e cs out hm hr ih =>
    intro c' r' p q heq
    cases p with
    | nil => simp only [List.nil_append, List.cons.injEq, Call.feed.injEq] at heq
             obtain ⟨⟨rfl, rfl⟩, rfl⟩ := heq
             exact run_flushed hr hout ⟨c, r, rs, e⟩ (by simp)
    | cons x p => simp only [List.cons_append, List.cons.injEq] at heq; exact ih hout c' r' p q heq.2
  | @done pre post c h cs out hm hr ih =>
    intro c' r' p q heq
    cases p with
    | nil => simp only [List.nil_append, List.cons.injEq, Call.feed.injEq] at heq
             obtain ⟨⟨rfl, rfl⟩, rfl⟩ := heq
             simp
    | cons x p =>
      simp only [List.cons_append, List.cons.injEq] at heq
      cases p with
      | nil => simp at heq
      | cons y p => simp only [List.cons_append, List.cons.injEq] at heq; exact ih hout c' r' p q heq.2.2
  | fail _ => cases hout
  | crash _ => cases hout

theorem run_ne_diverge {as cs out} (h : Run as cs out) : out ≠ .diverge := by
  induction h <;> simp_all

/-! ## From abstract buffers back to the inputs -/

theorem chainsOf_absFrom_ge (range : TimestampRange) (ss : List Source) : ∀ i, ∀ c ∈ chainsOf (absFrom range i ss), i ≤ c := by
  induction ss with
  | nil => intro i c h; simp [absFrom, chainsOf] at h
  | cons s ss ih =>
    intro i c h
    simp only [absFrom] at h
    split at h
    · have := ih (i + 1) c h; omega
    · simp only [chainsOf, List.map_cons, List.mem_cons] at h
      rcases h with rfl | h
      · exact Nat.le_refl _
      · have := ih (i + 1) c h; omega

theorem chainsOf_absFrom_nodup (range : TimestampRange) (ss : List Source) : ∀ i, (chainsOf (absFrom range i ss)).Nodup := by
  induction ss with
  | nil => intro i; simp [absFrom, chainsOf]
  | cons s ss ih =>
    intro i
    simp only [absFrom]
    split
    · exact ih _
    · simp only [chainsOf, List.map_cons, List.nodup_cons]
      refine ⟨fun h => ?_, ih _⟩
      have := chainsOf_absFrom_ge range ss (i + 1) _ h; omega

theorem rowsOf_absFrom (range : TimestampRange) (ss : List Source) : ∀ i k, rowsOf (i + k) (absFrom range i ss) =
    match ss[k]? with | some s => selected range s.rows | none => [] := by
  induction ss with
  | nil => intro i k; simp [absFrom, rowsOf]
  | cons s ss ih =>
    intro i k
    cases k with
    | zero =>
      have h0 : rowsOf i (absFrom range (i + 1) ss) = [] := rowsOf_absent (by
        intro h; have := chainsOf_absFrom_ge range ss (i + 1) _ h; omega)
      simp only [absFrom, Nat.add_zero, List.getElem?_cons_zero]
      cases selected range s.rows with
      | nil => exact h0
      | cons r rs => simp only [rowsOf, List.flatMap_cons, if_true, ABuf.rows] at h0 ⊢; rw [h0]; simp
    | succ k =>
      have := ih (i + 1) k
      simp only [absFrom, List.getElem?_cons_succ]
      rw [show i + (k + 1) = i + 1 + k by omega, ← this]
      split
      · rfl
      · simp only [rowsOf, List.flatMap_cons]
        rw [if_neg (by omega)]; rfl

theorem tagged_absFrom (range : TimestampRange) (ss : List Source) : ∀ i,
    (absFrom range i ss).flatMap ABuf.tagged =
      ((ss.zipIdx i).map (fun (s, i) => (selected range s.rows).map (fun r => (i, r)))).flatten := by
  induction ss with
  | nil => intro i; rfl
  | cons s ss ih =>
    intro i
    simp only [absFrom, List.zipIdx_cons, List.map_cons, List.flatten_cons]
    cases selected range s.rows with
    | nil => simp [ih]
    | cons r rs => simp [ih, ABuf.tagged, ABuf.rows]

theorem selected_sublist (range : TimestampRange) (rows : List Row) : (selected range rows).Sublist rows := by
  unfold selected
  exact List.Sublist.trans List.filter_sublist (List.takeWhile_sublist _)

theorem absFrom_sorted (range : TimestampRange) (ss : List Source) (hs : ∀ s ∈ ss, Sorted s.rows) :
    ∀ i, ∀ a ∈ absFrom range i ss, Sorted a.rows := by
  induction ss with
  | nil => intro i a h; simp [absFrom] at h
  | cons s ss ih =>
    intro i a h
    have hsel : Sorted (selected range s.rows) := (hs s (by simp)).sublist (selected_sublist range s.rows)
    simp only [absFrom] at h
    split at h
    · exact ih (fun s h => hs s (by simp [h])) _ a h
    · rename_i r rs heq
      rcases List.mem_cons.1 h with rfl | h
      · rw [heq] at hsel; exact hsel
      · exact ih (fun s h => hs s (by simp [h])) _ a h

theorem selected_sorted (range : TimestampRange) (rows : List Row) (h : Sorted rows) :
    selected range rows = rows.filter (fun r => inRange range r.timestamp) := by
  induction rows with
  | nil => rfl
  | cons r rs ih =>
    have ⟨h1, h2⟩ := List.pairwise_cons.1 h
    by_cases hb : beforeEnd range r.timestamp = true
    · have ih := ih h2
      simp only [selected] at ih ⊢
      simp only [List.takeWhile_cons, hb, if_true, List.filter_cons, inRange, Bool.and_true]
      rw [ih]; rfl
    · have hall : ∀ x ∈ r :: rs, beforeEnd range x.timestamp = false := by
        intro x hx
        simp only [beforeEnd] at hb ⊢
        cases he : range.endTs with
        | none => simp [he] at hb
        | some e =>
          simp only [he, decide_eq_true_eq, BitVec.not_lt] at hb
          have : r.timestamp ≤ x.timestamp := by
            rcases List.mem_cons.1 hx with rfl | hx
            · exact BitVec.le_refl _
            · exact h1 x hx
          simp only [decide_eq_false_iff_not, BitVec.not_lt]
          exact BitVec.le_trans hb this
      have : (r :: rs).filter (fun r => inRange range r.timestamp) = [] := by
        rw [List.filter_eq_nil_iff]; intro x hx; simp [inRange, hall x hx]
      rw [this]; simp [selected, hb]

end Chopper
