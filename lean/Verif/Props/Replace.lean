import Verif.Proofs.Replace

/-
C27: `replace`.
-/
namespace Lexertl.Props
open Lexertl Spec

namespace Ex
/-- The rules `a$`, `a`, `\n`. -/
def replMachine : Internals := machine RDollar
/-- `ax\naa`. -/
def replText : List Nat := [97, 120, 10, 97, 97]
theorem replBuilt : buildTemp tr (fun n => n) RDollar = .ok replMachine := machine_ok (by decide +kernel)
theorem replTargets : TargetsExist tr.npos RDollar := by
  intro rs hrs r hr
  simp only [RDollar, List.mem_cons, List.not_mem_nil, or_false] at hrs
  subst hrs
  simp only [List.mem_cons, List.not_mem_nil, or_false] at hr
  rcases hr with rfl | rfl | rfl <;> decide
theorem repl_noContinue : NoContinue replMachine := by unfold NoContinue; decide +kernel
end Ex

/-- C27.  If `replace` returns, its output is the input with the tokens `ts` replaced by what
the format says and everything else kept, where `ts` are exactly the results of successive
calls of `lookup` up to the end of input.  (Machines without rules that continue a token, end
of input with the default id 0; output to an inserting iterator or a string.) -/
theorem C27_replaces (npos bytes : Nat) (sm : Internals) (inp : List Nat) (fmt : Fmt) (hC : NoContinue sm) (he0 : sm.eoi = 0) (hnp : npos ≠ 0)
    (out : List Nat) (h : Replaces npos bytes sm inp fmt out) :
    ∃ ts z, (replaceLexer npos bytes sm inp).Calls (.mk' npos 0 inp.length) (ts ++ [z]) ∧ (∀ t ∈ ts, t.id ≠ sm.eoi) ∧ z.id = sm.eoi ∧
      Replaced fmt inp 0 ts out :=
  Repl.sound hC he0 hnp h

/-- C27.  With a map that has none of the ids the input comes out unchanged. -/
theorem C27_empty_map (npos bytes : Nat) (sm : Internals) (inp : List Nat) (hC : NoContinue sm) (he0 : sm.eoi = 0) (hnp : npos ≠ 0)
    (out : List Nat) (h : Replaces npos bytes sm inp (.map fun _ => none) out) : out = inp := by
  obtain ⟨ts, z, _, _, _, h⟩ := C27_replaces npos bytes sm inp _ hC he0 hnp out h
  have := Repl.replaced_id (fun t _ => rfl) h
  simpa using this

/-- C27.  `replace` returns, for machines that are fit for lookup and take no empty text. -/
theorem C27_returns (npos bytes : Nat) (sm : Internals) (inp : List Nat) (hM : Machine npos sm) (hP : NoPops sm) (hs : sm.dfa ≠ [])
    (hin : bytes = 1 → ∀ c ∈ inp, c < 256) (hE : (replaceLexer npos bytes sm inp).EolEnds) (hN : (replaceLexer npos bytes sm inp).NoEmptyText)
    (he0 : sm.eoi = 0) (fmt : Fmt) : ∃ out, Replaces npos bytes sm inp fmt out :=
  Repl.returns hM hP hs hin hE hN he0 fmt

/-- The hypotheses hold for the machine of `a$`, `a`, `\n`; replacing each `a` that is not at
the end of a line (id 1) by `b` turns `ax\naa` into `bx\nba`. -/
example : Machine 65535 Ex.replMachine ∧ NoPops Ex.replMachine ∧ Ex.replMachine.dfa ≠ [] ∧
    (replaceLexer 65535 1 Ex.replMachine Ex.replText).EolEnds ∧ (replaceLexer 65535 1 Ex.replMachine Ex.replText).NoEmptyText ∧
    NoContinue Ex.replMachine ∧ Ex.replMachine.eoi = 0 ∧
    Replaces 65535 1 Ex.replMachine Ex.replText (.map fun i => if i = 1 then some fun _ => [98] else none) [98, 120, 10, 98, 97] := by
  refine ⟨(C14_built_tables Ex.replTargets Ex.replBuilt).1, ?_, by decide +kernel, Ex.eolEnds_of (by decide +kernel), ?_,
    Ex.repl_noContinue, by decide +kernel, 9, 9, ?_⟩
  · have : ∀ rows ∈ Ex.replMachine.dfa, ∀ row ∈ rows.drop 1, (row[ixEnd]?).map (hasBit · bitPop) = some false := by decide +kernel
    intro rows h row h' e he
    have := this rows h row h'
    rw [he] at this
    simpa using this
  · refine C16_start_rows _ (fun rows h => toOption_some (exDollar_start.1 rows h)) fun _ rows h => ?_
    refine ⟨toOption_some (exDollar_start.2 rows h).1, fun b hb hne => ?_⟩
    rw [toOption_some (exDollar_start.2 rows h).2] at hb
    cases hb
    exact absurd rfl hne
  · apply toOption_some
    decide +kernel

/-- C27.  The loop compares the id with 0, not with the id of the end of input: if the rules
give the end of input another id, and no rule has the id 0, `replace` never returns. -/
theorem C27_other_eoi_never_returns (npos bytes : Nat) (sm : Internals) (inp : List Nat) (fmt : Fmt) (he : sm.eoi ≠ 0) (hnp : npos ≠ 0)
    (hz : ∀ rows ∈ sm.dfa, ∀ row ∈ rows, row[ixEnd]? ≠ some 0 → row[ixId]? ≠ some 0) (out : List Nat) :
    ¬ Replaces npos bytes sm inp fmt out := by
  rintro ⟨k, n, h⟩
  unfold replaceFuel at h
  obtain ⟨r, h1, h⟩ := bind_ok h
  exact Repl.loop_never he hnp hz .inserts n (.mk' npos 0 inp.length) r [] out (by simp [Results.mk']) (Repl.call_of h1) h

/-- Met by the machine above with another id for the end of input. -/
example : ({ Ex.replMachine with eoi := 7 } : Internals).eoi ≠ 0 ∧
    ∀ rows ∈ ({ Ex.replMachine with eoi := 7 } : Internals).dfa, ∀ row ∈ rows, row[ixEnd]? ≠ some 0 → row[ixId]? ≠ some 0 := by
  decide +kernel

/-- C27, why rules that continue a token are excluded: text they matched is lost when the
input ends before a rule completes the token. -/
theorem C27_continued_text_lost : Replaces 65535 1 (Ex.machine Ex.RCont) [97, 97] (.map fun _ => none) [] :=
  ⟨9, 9, by
    have h : (replaceFuel .inserts 65535 1 (Ex.machine Ex.RCont) [97, 97] (.map fun _ => none) 9 9 []).toOption = some [] := by decide +kernel
    exact toOption_some h⟩

/-- C27.  One text for all matches also replaces the characters no rule matches. -/
theorem C27_text_replaces_unmatched : Replaces 65535 1 Ex.replMachine [97, 120, 97] (.text [45]) [45, 45, 45] :=
  ⟨9, 9, by
    have h : (replaceFuel .inserts 65535 1 Ex.replMachine [97, 120, 97] (.text [45]) 9 9 []).toOption = some [45, 45, 45] := by decide +kernel
    exact toOption_some h⟩

/-- C27.  With a plain pointer (or a container's iterator) as output iterator `replace` writes
every piece to the beginning of the buffer: instead of `axa` the buffer holds `a??`. -/
theorem C27_pointer_overwrites : (replaceFuel .pointer 65535 1 Ex.replMachine [97, 120, 97] (.map fun _ => none) 9 9 [63, 63, 63]).toOption =
    some [97, 63, 63] := by decide +kernel

end Lexertl.Props
