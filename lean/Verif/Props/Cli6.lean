import Verif.Props.Cli3
import Verif.Proofs.Cli5

/-! # C67: flushing and failing calls; C64: messages -/
namespace Chopper.Props
open Chopper Chopper.Spec

/-- All calls made to the device on the way from `d` to `d'`, as its schedule tells, succeeded, and then everything it has taken was flushed. -/
def AllCallsSucceeded (d d' : Device) : Prop := (∃ used, d.sched = used ++ d'.sched ∧ ∀ k, WriteStep.fail k ∉ used) ∧ d'.flushed = d'.taken.length

/-- **C67 (no failure is swallowed).** If a run writing CSV succeeds, no write or flush call on its output failed, and the last thing done to the output
after all its bytes were written was a successful flush. -/
theorem C67_csv_no_failed_call (e : CliEnv) (a : CliArgs) (st : CliSettings e.csv.lib) (files : List FileSource) (h : Header) (d : Device)
    (hs : parseSettings e a = .ok st) (ho : Opens e st files) (hh : ∀ f ∈ files, f.header = h)
    (hd : CsvTo e.out a.output d) (hok : (chopperCli e a).result = .ok ()) :
    ∃ out, (chopperCli e a).output = some out ∧ AllCallsSucceeded d out := by
  obtain ⟨out, h1, h2, h3⟩ := csv_flushed e a st files h d hs ho hh hd hok
  exact ⟨out, h1, h2, h3⟩

/-- **C67 (no failure is swallowed).** The same for runs writing DC. -/
theorem C67_dc_no_failed_call (e : CliEnv) (a : CliArgs) (st : CliSettings e.csv.lib) (files : List FileSource) (h : Header) (d : Device)
    (hs : parseSettings e a = .ok st) (ho : Opens e st files) (hh : ∀ f ∈ files, f.header = h)
    (hd : DcTo e.out a.output d) (hok : (chopperCli e a).result = .ok ()) :
    ∃ out, (chopperCli e a).output = some out ∧ AllCallsSucceeded d out := by
  obtain ⟨out, h1, h2, h3⟩ := dc_flushed e a st files h d hs ho hh hd hok
  exact ⟨out, h1, h2, h3⟩

/-- The hypotheses are met: the example run succeeds. -/
example : ∃ out, (chopperCli exEnv (exArgs "o.csv".toList)).output = some out ∧ AllCallsSucceeded exDev out := by
  have hok : (chopperCli exEnv (exArgs "o.csv".toList)).result = .ok () := by
    obtain ⟨_, _, _, h, _⟩ := C61_csv exEnv (exArgs "o.csv".toList) exSettings [exFileA, exFileB] ⟨["a".toList, "b".toList], [.int, .string]⟩ exDev (exCli_settings _) exCli_opens
      exCli_good exCli_csvTo exCli_reliable (by intro _ h; cases h) (fun f hf r hr _ v hv => exCli_values f hf r hr v hv)
    exact h
  exact C67_csv_no_failed_call exEnv (exArgs "o.csv".toList) exSettings [exFileA, exFileB] ⟨["a".toList, "b".toList], [.int, .string]⟩ exDev (exCli_settings _) exCli_opens
    exCli_good.header exCli_csvTo hok

/-- What an error says: its own text if the program made it up, otherwise that of the library it comes from. -/
def errorMessage (text : Err → Str) : Err → Str
  | .custom s => s.toList
  | e => text e

/-- **C64 (messages).** Every error other than a broken pipe is printed: the message is on a line of its own on standard error (after `Error: ` for the program's
own errors), by both ways to end the process. -/
theorem C64_message (text : Err → Str) (e : Err) (he : e ≠ .io .brokenPipe) :
    (∃ x, handleDriveError text (.err e) = some x ∧ ∃ pre post, x.stderr = ['\n'] ++ pre ++ errorMessage text e ++ post ++ ['\n'] ∧
      ((∃ s, e = .custom s) → pre = "Error: ".toList ∧ post = [' ']) ∧ ((¬ ∃ s, e = .custom s) → pre = [] ∧ post = [])) ∧
    (∃ pre, (errorExit text e).stderr = pre ++ errorMessage text e ++ ['\n'] ∧ ((∃ s, e = .custom s) → pre = "Error: ".toList) ∧ ((¬ ∃ s, e = .custom s) → pre = [])) := by
  by_cases hc : ∃ s, e = .custom s
  · obtain ⟨s, rfl⟩ := hc
    refine ⟨⟨_, rfl, "Error: ".toList, [' '], ?_, fun _ => ⟨rfl, rfl⟩, fun h => (h ⟨s, rfl⟩).elim⟩, "Error: ".toList, ?_, fun _ => rfl, fun h => (h ⟨s, rfl⟩).elim⟩
    · simp [errorMessage]
    · simp [errorExit, errorMessage]
  · refine ⟨⟨_, rfl, [], [], ?_, fun h => (hc h).elim, fun _ => ⟨rfl, rfl⟩⟩, [], ?_, fun h => (hc h).elim, fun _ => rfl⟩
    · cases e with
      | custom s => exact (hc ⟨s, rfl⟩).elim
      | io k => cases k <;> first | exact absurd rfl he | simp [errorMessage]
      | _ => simp [errorMessage]
    · cases e with
      | custom s => exact (hc ⟨s, rfl⟩).elim
      | io k => cases k <;> first | exact absurd rfl he | simp [errorExit, errorMessage]
      | _ => simp [errorExit, errorMessage]

example : handleDriveError (fun _ => []) (.err (.custom "no")) = some ⟨1, "\nError: no \n".toList⟩ := by decide +kernel

end Chopper.Props
