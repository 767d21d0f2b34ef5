import Verif.Proofs.Driver64
import Verif.Props.Network
import Verif.Props.Driver
/-
C97: the driver with Go's 64-bit integers.

Model/Driver.lean computes with unbounded integers. Here the same driver with wrapping 64-bit arithmetic (Model/Driver64.lean) is shown to
do the same for every configuration whose number of iterations is a 64-bit integer, and examples show what happens otherwise.
-/
set_option linter.unusedSectionVars false
namespace Goslide.Props
open Configuration Layer Xcrepo Driver Spec
open Driver64 (InRange Fits64 wrap)
variable {F P H : Type} [GoFloat F]

/-- C97. No computation of the driver overflows, for any network that counts: the run with 64-bit integers is the run with unbounded ones,
including the log, the panics and the iteration numbers and flags handed to the network. Needed: a non-negative batch size, the number of
training batches of all epochs a 64-bit integer, Rehash and Rebuild above -2^63 (the other conditions hold for every configuration, see
`C97_config`), and a test file shorter than 2^63 bytes. -/
theorem C97_run {api : NetApi F P H} (hapi : CountsCorrectly api) (parseFloat : Bytes → Option F) {files : Bytes → Option Bytes} {cfg : Config F}
    (hfile : ∀ content, files cfg.TestData = some content → content.length < 2 ^ 63) (hc : Fits64 cfg) (newNet : List Bool → H → Go (P × H))
    (st : State F H) : Driver64.run api parseFloat files cfg newNet st = run api parseFloat files cfg newNet st :=
  Driver64.run_eq hapi parseFloat hfile hc newNet st

/-- C97 for the program: `main` with 64-bit integers in the driver is `main`. -/
theorem C97_main (parseFloat : Bytes → Option F) {files : Bytes → Option Bytes} {cfg : Config F}
    (hfile : ∀ content, files cfg.TestData = some content → content.length < 2 ^ 63) (hc : Fits64 cfg) (fuel : Nat) (w : World F) :
    Driver64.main parseFloat files cfg fuel w = Program.main parseFloat files cfg fuel w :=
  Driver64.run_eq (C64_counts cfg fuel) parseFloat hfile hc _ _

/-- Every field of type `int` holds a 64-bit integer. -/
def Ranged (cfg : Config F) : Prop := ∀ f n, cfg.get f = .int n → InRange n

theorem assign_ranged {pf : Bytes → Option F} {st : Config F × Bool} {kv : String × Json} (h : Ranged st.1) : Ranged (assign pf st kv).1 := by
  unfold assign
  cases hf : fieldOf kv.1 with
  | none => exact h
  | some f =>
    dsimp only
    cases hd : decode pf (st.1.get f) kv.2 with
    | none => exact h
    | some v =>
      dsimp only
      have hs := (decode_inv pf _ _ _ hd).1
      intro g n hg
      by_cases hgf : g = f
      · subst hgf
        rw [get_set_same _ _ _ hs] at hg
        subst hg
        cases hold : st.1.get g with
        | int m =>
          rw [hold] at hd
          cases hj : kv.2 with
          | null => rw [hj] at hd; cases hd; exact h g _ hold
          | num lit =>
            rw [hj] at hd
            simp only [decode, Option.map_eq_some_iff] at hd
            obtain ⟨k, h1, h2⟩ := hd
            cases h2
            have := (atoi_iff _ _).mp h1
            exact ⟨this.1, this.2.1⟩
          | bool b => rw [hj] at hd; cases hd
          | str b => rw [hj] at hd; cases hd
          | arr b => rw [hj] at hd; cases hd
          | obj b => rw [hj] at hd; cases hd
        | ints _ => rw [hold] at hs; cases hs
        | floats _ => rw [hold] at hs; cases hs
        | int8 _ => rw [hold] at hs; cases hs
        | float _ => rw [hold] at hs; cases hs
        | str _ => rw [hold] at hs; cases hs
        | bool _ => rw [hold] at hs; cases hs
      · rw [get_set_ne _ _ _ _ (fun e => hgf e.symm)] at hg
        exact h g n hg

/-- C97, configurations. Whatever the file says, the `int` fields of a configuration that was read are 64-bit integers. -/
theorem C97_config {parseFloat : Bytes → Option F} {parse : Bytes → Option Json} {file : Option Bytes} {cfg : Config F}
    (h : fromJsonFile parseFloat parse file = some cfg) : Ranged cfg := by
  have h0 : Ranged (Configuration.default : Config F) := by
    intro f n hf
    cases f <;> cases hf <;> exact ⟨by dsimp only [Configuration.default]; decide, by dsimp only [Configuration.default]; decide⟩
  cases file with
  | none => cases h
  | some content =>
    cases hp : parse content with
    | none => unfold fromJsonFile at h; dsimp only at h; rw [hp] at h; cases h
    | some j =>
      cases j with
      | null => unfold fromJsonFile at h; dsimp only at h; rw [hp] at h; cases h; exact h0
      | obj kvs =>
        obtain ⟨-, rfl⟩ := fromJson_obj parseFloat parse content kvs cfg hp h
        have key : ∀ (kvs : List (String × Json)) (st : Config F × Bool), Ranged st.1 → Ranged (kvs.foldl (assign parseFloat) st).1 := by
          intro kvs
          induction kvs with
          | nil => intro st h; exact h
          | cons kv kvs ih => intro st h; exact ih _ (assign_ranged h)
        exact key kvs _ h0
      | bool b => unfold fromJsonFile at h; dsimp only at h; rw [hp] at h; cases h
      | num b => unfold fromJsonFile at h; dsimp only at h; rw [hp] at h; cases h
      | str b => unfold fromJsonFile at h; dsimp only at h; rw [hp] at h; cases h
      | arr b => unfold fromJsonFile at h; dsimp only at h; rw [hp] at h; cases h

/-- C97 from the command line: with a non-negative batch size, Rehash and Rebuild above -2^63 and a number of iterations in the 64-bit range, the
configuration read from a file gives the same run with 64-bit integers as with unbounded ones. -/
theorem C97_program {parseFloat : Bytes → Option F} {parse : Bytes → Option Json} {files : Bytes → Option Bytes} {path : Bytes} {cfg : Config F}
    (h : fromJsonFile parseFloat parse (files path) = some cfg) (hB : 0 ≤ cfg.BatchSize) (h1 : cfg.Rehash ≠ -2 ^ 63) (h2 : cfg.Rebuild ≠ -2 ^ 63)
    (ht : 0 < cfg.Epoch → InRange (cfg.Epoch * cfg.TotRecords.tdiv cfg.BatchSize))
    (hfile : ∀ content, files cfg.TestData = some content → content.length < 2 ^ 63) (fuel : Nat) (w : World F) :
    Program.program parseFloat parse files [path] fuel w = Driver64.main parseFloat files cfg fuel w := by
  have r := C97_config h
  have hr := r .rehash _ rfl
  have hb := r .rebuild _ rfl
  have ne : ∀ {x : Int}, InRange x → x ≠ -2 ^ 63 → -(2 : Int) ^ 63 < x ∧ x < 2 ^ 63 := by
    intro x hx hn
    exact ⟨by have := hx.1; omega, hx.2⟩
  rw [C97_main parseFloat hfile ⟨hB, r .totRecords _ rfl, r .totRecordsTest _ rfl, r .numLayer _ rfl, r .epoch _ rfl, ne hr h1, ne hb h2, ht⟩]
  unfold Program.program
  dsimp only
  rw [h]

namespace Driver64Ex

/-- The configuration of the other driver examples fits. -/
theorem fits : Fits64 exampleConfig :=
  ⟨by decide, ⟨by decide, by decide⟩, ⟨by decide, by decide⟩, ⟨by decide, by decide⟩, ⟨by decide, by decide⟩, ⟨by decide, by decide⟩,
    ⟨by decide, by decide⟩, fun _ => ⟨by decide, by decide⟩⟩

example : (Driver64.run recorder exampleFloat exampleFiles exampleConfig (fun _ h => .ok ((), h)) ⟨[], []⟩).toOption.map
    (fun st => st.heap.map (fun c => (c.examples.length, c.iter, c.rehash, c.rebuild))) =
    (run recorder exampleFloat exampleFiles exampleConfig (fun _ h => .ok ((), h)) ⟨[], []⟩).toOption.map
    (fun st => st.heap.map (fun c => (c.examples.length, c.iter, c.rehash, c.rebuild))) := by decide +kernel

/-- The iteration numbers that a run prints. -/
def summaries (r : Go (State Rat (List (Call Rat)))) : Option (List Int) :=
  r.toOption.map (fun st => st.log.filterMap (fun l => match l with | .summary i _ => some i | _ => none))

/-- Two epochs over -2^63 records (no batch at all) in batches of one. -/
def bad : Config Rat := { exampleConfig with TotRecords := -2 ^ 63, BatchSize := 1, Epoch := 2, TotRecordsTest := 0 }

end Driver64Ex

/-- C97: the bound on the number of iterations is needed. Two epochs of -2^63 batches are reported as iteration -2^63 and then as iteration 0,
not as -2^64. -/
theorem C97_overflow :
    Driver64Ex.summaries (Driver64.run recorder exampleFloat exampleFiles Driver64Ex.bad (fun _ h => .ok ((), h)) ⟨[], []⟩) = some [-2 ^ 63, 0] ∧
    Driver64Ex.summaries (run recorder exampleFloat exampleFiles Driver64Ex.bad (fun _ h => .ok ((), h)) ⟨[], []⟩) = some [-2 ^ 63, -2 ^ 64] := by
  decide +kernel

/-- C97: beyond the bound the iteration number turns negative, and a maintenance step that is due is left out: batch 0 of epoch 2 with 2^62
batches per epoch and a rehash every three batches. -/
theorem C97_negative {cfg : Config F} (hm : cfg.LayerMode = 1) (hB : cfg.BatchSize = 1) (h1 : cfg.Rehash = 3) (h2 : cfg.Rebuild = 3) :
    Driver64.wrap (2 * 2 ^ 62) = -2 ^ 63 ∧ flags cfg (2 ^ 62) 2 0 = .ok (true, true) ∧ Driver64.flags cfg (2 ^ 62) 2 0 = .ok (false, false) := by
  refine ⟨by decide, ?_, ?_⟩
  · unfold flags; rw [if_pos (Or.inl hm), hB, h1, h2]; decide +kernel
  · unfold Driver64.flags; rw [if_pos (Or.inl hm), hB, h1, h2]; decide +kernel

end Goslide.Props
