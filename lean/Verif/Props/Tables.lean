import Verif.Proofs.MinSafe
import Verif.Proofs.ScanFuel
import Verif.Props.Example

/-
Properties C14 and C20: the tables that `build` makes, and `minimise`.
-/
namespace Lexertl.Props
open Spec

/-- C14.  Every machine that `build` returns, for whatever rules (lazy, anchored,
compressed), has one table per lexer state; all row numbers in it are numbers of rows, all
columns exist for every byte, and all lexer states named in it exist. -/
theorem C14_built_tables {tr : Traits} {addr : Nat → Nat} {R : Rules} {sm : Internals}
    (hR : TargetsExist tr.npos R) (h : buildTemp tr addr R = .ok sm) :
    Machine tr.npos sm ∧ sm.dfa.length = R.states.length :=
  buildTemp_machine hR h

/-- C14.  On such a machine no call of `lookup` reads outside a table, the character
tables, the input or the list of lexer states, whatever the flags, input and character
width, from any results object inside the input.  (If some rule pops, the recursive flag
must be given, as `lookup` asserts.) -/
theorem C14_call_safe (L : Lexer) (hM : Machine L.npos L.sm)
    (hf : L.flags.recursive = true ∨ NoPops L.sm) (hin : L.bytes = 1 → ∀ c ∈ L.inp, c < 256)
    {r : Results} (hr : Ready L.sm L.inp r) (what : String) : ¬ L.Call r (.error (.ub what)) := by
  rintro ⟨_, fuel, h⟩
  have := lookup_safe (f := L.flags) hM hf hin fuel hr
  rw [h] at this
  exact this

/-- C14.  The results object after each of any number of calls is one the next call may
be made from. -/
theorem C14_calls_ready (L : Lexer) (hM : Machine L.npos L.sm)
    (hf : L.flags.recursive = true ∨ NoPops L.sm) (hin : L.bytes = 1 → ∀ c ∈ L.inp, c < 256)
    {r : Results} (hr : Ready L.sm L.inp r) {rs : List Results} (h : L.Calls r rs) :
    ∀ r' ∈ rs, Ready L.sm L.inp r' := by
  induction h with
  | nil r => simp
  | cons r r' rs h1 _ ih =>
    obtain ⟨_, fuel, h1⟩ := h1
    have := lookup_safe (f := L.flags) hM hf hin fuel hr
    rw [h1] at this
    intro r2 h2
    rcases List.mem_cons.1 h2 with rfl | h2
    · exact this
    · exact ih this r2 h2

/-- C14.  The two together: lexing with a built machine. -/
theorem C14_built_lexing_safe {tr : Traits} {addr : Nat → Nat} {R : Rules} (L : Lexer) (hn : L.npos = tr.npos)
    (hR : TargetsExist tr.npos R) (h : buildTemp tr addr R = .ok L.sm)
    (hf : L.flags.recursive = true ∨ NoPops L.sm) (hin : L.bytes = 1 → ∀ c ∈ L.inp, c < 256) {r : Results} (hr : Ready L.sm L.inp r) {rs : List Results}
    (hc : L.Calls r rs) (what : String) :
    ∀ r' ∈ r :: rs, ¬ L.Call r' (.error (.ub what)) := by
  have hM : Machine L.npos L.sm := by rw [hn]; exact (buildTemp_machine hR h).1
  intro r' h'
  rcases List.mem_cons.1 h' with rfl | h'
  · exact C14_call_safe L hM hf hin hr what
  · exact C14_call_safe L hM hf hin (C14_calls_ready L hM hf hin hr hc r' h') what

/-- C14.  The bound on steps of the scanning loop in the model is no restriction: the
loop of the code, run for any number of steps, ends as the bounded loop does. -/
theorem C14_scan_bound_exact {f : Flags} {bytes : Nat} {d : Dfa} {inp : List Nat} {eoi : Nat} {s : LuState}
    {curr tok n : Nat} (h : s.scan f bytes d inp eoi n curr tok ≠ .error .fuel) :
    s.scan f bytes d inp eoi (scanFuel d eoi curr) curr tok = s.scan f bytes d inp eoi n curr tok :=
  scan_exact h

namespace Ex
/-- Lexing `a((c))` with the two-state machine for nested parentheses. -/
def exSafe : Lexer := ⟨fRec, 65535, 1, machine RPar, [97, 40, 40, 99, 41, 41]⟩

theorem targetsPar : TargetsExist tr.npos RPar := by
  intro rs hrs r hr
  simp only [RPar, rulesPar, List.map_cons, List.map_nil, List.mem_cons, List.not_mem_nil, or_false] at hrs
  rcases hrs with rfl | rfl <;> simp only [List.mem_cons, List.not_mem_nil, or_false] at hr <;>
    rcases hr with rfl | rfl | rfl <;> decide

set_option maxRecDepth 20000 in
theorem builtPar : buildTemp tr (fun n => n) RPar = .ok exSafe.sm := machine_ok (by decide +kernel)

theorem readyPar : Ready exSafe.sm exSafe.inp ⟨0, 0, 0, 0, 6, true, 0, []⟩ :=
  ⟨by decide, by decide, by
    rw [(C14_built_tables targetsPar builtPar).2]; decide, by simp⟩
end Ex

set_option maxRecDepth 20000 in
example : TargetsExist Ex.tr.npos Ex.RPar ∧ buildTemp Ex.tr (fun n => n) Ex.RPar = .ok Ex.exSafe.sm ∧
    Machine Ex.exSafe.npos Ex.exSafe.sm ∧ (Ex.exSafe.bytes = 1 → ∀ c ∈ Ex.exSafe.inp, c < 256) ∧
    Ready Ex.exSafe.sm Ex.exSafe.inp ⟨0, 0, 0, 0, 6, true, 0, []⟩ ∧
    Ex.exSafe.flags.recursive = true ∧ ∃ rs, Ex.exSafe.Calls ⟨0, 0, 0, 0, 6, true, 0, []⟩ rs ∧
      rs.map (fun r => (r.id, r.state, r.stack.map (·.1))) =
        [(1, 0, []), (2, 1, [0]), (2, 1, [1, 0]), (3, 1, [0]), (3, 0, []), (0, 0, [])] := by
  refine ⟨Ex.targetsPar, Ex.builtPar, (C14_built_tables Ex.targetsPar Ex.builtPar).1, by decide, Ex.readyPar, rfl, ?_⟩
  have h : (Ex.calls Ex.exSafe 10 6 ⟨0, 0, 0, 0, 6, true, 0, []⟩).map
      (·.map fun r => (r.id, r.state, r.stack.map (·.1))) =
        some [(1, 0, []), (2, 1, [0]), (2, 1, [1, 0]), (3, 1, [0]), (3, 0, []), (0, 0, [])] := by decide +kernel
  obtain ⟨rs, h1, h2⟩ := Option.map_eq_some_iff.1 h
  exact ⟨rs, Ex.calls_sound h1, h2⟩

/-- A machine with a lexer state that does not exist is not safe: the hypothesis
`TargetsExist` is needed. -/
example : ∃ m, Ex.exSafe.Call ⟨0, 0, 0, 0, 6, true, 5, []⟩ (.error (.ub m)) := by
  have h : (match lookupFuel Ex.exSafe.flags 65535 1 Ex.exSafe.sm Ex.exSafe.inp 1 ⟨0, 0, 0, 0, 6, true, 5, []⟩ with
    | .error (.ub _) => true | _ => false) = true := by decide +kernel
  split at h
  · rename_i m hm
    exact ⟨m, by simp, 1, hm⟩
  · cases h

example : ∃ (f : Flags) (bytes : Nat) (d : Dfa) (inp : List Nat) (eoi : Nat) (s : LuState) (curr tok n : Nat),
    s.scan f bytes d inp eoi n curr tok ≠ .error .fuel ∧ n < scanFuel d eoi curr :=
  ⟨Ex.fAll, 1, ⟨[], []⟩, [97], 0, ⟨1, false, 0, 0, false, false, 0, 0, false, 0⟩, 0, 0, 1,
    (fun h => by simp [LuState.scan] at h), by decide⟩

/-- C20.  Minimising a machine fit for lookup always ends, without undefined behaviour,
with a machine fit for lookup; no table gets more rows, and no two rows of a table (after
row 0) are equal. -/
theorem C20_minimise_ends {npos : Nat} {sm : Internals} (hM : Machine npos sm) :
    ∃ sm', sm.minimise npos = .ok sm' ∧ Machine npos sm' ∧ sm'.dfa.length = sm.dfa.length ∧
      ∀ (i : Nat) (rows' : List Row), sm'.dfa[i]? = some rows' → ∃ rows, sm.dfa[i]? = some rows ∧
        rows'.length ≤ rows.length ∧
        ∀ (k j : Nat), 1 ≤ k → k < j → j < rows'.length → rows'[k]? ≠ rows'[j]? := by
  obtain ⟨sm', h1, h2, _, h3, h4⟩ := minimise_machine hM
  exact ⟨sm', h1, h2, h3, h4⟩

/-- C20.  A call of `lookup` on the minimised machine has the outcomes of the same call on
the original machine (all fields of the results, exceptions, and not returning), for every
input, results object, set of flags and character width. -/
theorem C20_minimise_same {npos : Nat} {sm sm' : Internals} (hM : Machine npos sm)
    (h : sm.minimise npos = .ok sm') (f : Flags) (bytes : Nat) (inp : List Nat) (r : Results) :
    (∀ o, Returns f npos bytes sm' inp r o ↔ Returns f npos bytes sm inp r o) ∧
    (Diverges f npos bytes sm' inp r ↔ Diverges f npos bytes sm inp r) := by
  obtain ⟨sm2, h1, _, h2, _⟩ := minimise_machine hM
  rw [h] at h1
  cases h1
  have := fun fuel => sim_lookup h2 f bytes inp fuel r
  simp only [Returns, Diverges, this, implies_true, and_self]

/-- C20.  The same for any number of calls. -/
theorem C20_minimise_same_calls {npos : Nat} {sm sm' : Internals} (hM : Machine npos sm)
    (h : sm.minimise npos = .ok sm') (f : Flags) (bytes : Nat) (inp : List Nat) (r : Results) (rs : List Results) :
    (⟨f, npos, bytes, sm', inp⟩ : Lexer).Calls r rs ↔ (⟨f, npos, bytes, sm, inp⟩ : Lexer).Calls r rs := by
  constructor
  · intro h'
    induction h' with
    | nil r => exact .nil r
    | cons r r' rs h1 _ ih => exact .cons _ _ _ (((C20_minimise_same hM h f bytes inp r).1 _).1 h1) ih
  · intro h'
    induction h' with
    | nil r => exact .nil r
    | cons r r' rs h1 _ ih => exact .cons _ _ _ (((C20_minimise_same hM h f bytes inp r).1 _).2 h1) ih

/-- C20.  In particular every machine that `build` returns can be minimised. -/
theorem C20_minimise_built {tr : Traits} {addr : Nat → Nat} {R : Rules} {sm : Internals}
    (hR : TargetsExist tr.npos R) (h : buildTemp tr addr R = .ok sm) :
    ∃ sm', sm.minimise tr.npos = .ok sm' ∧ ∀ f bytes inp r o,
      Returns f tr.npos bytes sm' inp r o ↔ Returns f tr.npos bytes sm inp r o := by
  have hM := (buildTemp_machine hR h).1
  obtain ⟨sm', h1, _⟩ := C20_minimise_ends hM
  exact ⟨sm', h1, fun f bytes inp r => (C20_minimise_same hM h1 f bytes inp r).1⟩

namespace Ex
/-- `aac|bac`: two passes merge the states after `aa` and `ba`, then those after `a` and `b`. -/
def RMin : Rules :=
  ⟨[[⟨[tBegin, tA, tA, tC, ⟨.or_, [], []⟩, ⟨.charset, [], [(98, 98)]⟩, tA, tC, tEnd], 1, 65535, 0, 65535, false⟩]],
    [0], 0, false, false⟩

theorem targetsMin : TargetsExist tr.npos RMin := by
  intro rs hrs r hr
  simp only [RMin, List.mem_singleton] at hrs
  subst hrs
  simp only [List.mem_singleton] at hr
  subst hr
  decide

set_option maxRecDepth 20000 in
theorem builtMin : buildTemp tr (fun n => n) RMin = .ok (machine RMin) := machine_ok (by decide +kernel)
end Ex

example : Machine Ex.tr.npos (Ex.machine Ex.RMin) := (C14_built_tables Ex.targetsMin Ex.builtMin).1

set_option maxRecDepth 20000 in
example : ((Ex.machine Ex.RMin).minimise 65535).toOption.map (fun sm => sm.dfa.map (·.length)) = some [5] ∧
    (Ex.machine Ex.RMin).dfa.map (·.length) = [7] := by decide +kernel

set_option maxRecDepth 20000 in
example : ∃ sm', (Ex.machine Ex.RMin).minimise 65535 = .ok sm' ∧
    (⟨Ex.fAll, 65535, 1, sm', [98, 97, 99]⟩ : Lexer).Calls ⟨0, 0, 0, 0, 3, true, 0, []⟩
      [⟨1, 65535, 0, 3, 3, false, 0, []⟩] := by
  have hM := (C14_built_tables Ex.targetsMin Ex.builtMin).1
  obtain ⟨sm', h1, _⟩ := C20_minimise_ends hM
  refine ⟨sm', h1, ?_⟩
  refine (C20_minimise_same_calls hM h1 ..).2 ?_
  refine Ex.calls_sound (fuel := 10) (n := 1) ?_
  decide +kernel

end Lexertl.Props
