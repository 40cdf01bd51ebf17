import Verif.Proofs.Resume
import Verif.Props.Eager

/-
C70: what a call of `lookup` depends on.
-/
namespace Lexertl.Props
open Spec

/-- C70: the text before the last token plays no role, and neither does the position: for any machine,
flags and result object, `lookup` does on a text that follows another one what it does on the text alone, also when it
throws, and the positions in the results differ by the length of the other text. -/
theorem C70_position (f : Flags) (npos bytes : Nat) (sm : Internals) (pre inp : List Nat) (r : Results) (o : M Results) :
    Returns f npos bytes sm (pre ++ inp) (moved pre.length r) (o.map (moved pre.length)) ↔ Returns f npos bytes sm inp r o :=
  Resume.returns_moved pre inp r o

/-- ... and also when it does not return. -/
theorem C70_position_never (f : Flags) (npos bytes : Nat) (sm : Internals) (pre inp : List Nat) (r : Results) :
    Diverges f npos bytes sm (pre ++ inp) (moved pre.length r) ↔ Diverges f npos bytes sm inp r := by
  unfold Diverges
  refine forall_congr' fun n => ?_
  rw [Resume.lookupFuel_moved]
  cases lookupFuel f npos bytes sm inp n r with
  | ok a => exact ⟨fun h => (by cases h), fun h => (by cases h)⟩
  | error e => exact ⟨fun h => congrArg _ (Except.error.inj h), fun h => congrArg _ (Except.error.inj h)⟩

/-- C70: lexing can be stopped after any token and resumed on the rest of the text alone, with a new
result object that has only the lexer state, the stack and the flag for the start of a line of the
old one: all further calls return the same ids, user ids, lexer states, stacks and texts. -/
theorem C70_rest (L : Lexer) (r : Results) (h : r.second ≤ r.eoi) (h' : r.second ≤ L.inp.length) (rs : List Results) :
    L.Calls r rs ↔ ∃ rs', (L.on (L.inp.drop r.second)).Calls (afterToken L.npos r) rs' ∧ rs = rs'.map (moved r.second) ∧
      rs.map (tokenText L.inp) = rs'.map (tokenText (L.inp.drop r.second)) := by
  have hm := Resume.calls_moved (L := L.on (L.inp.drop r.second)) (L.inp.take r.second) (r := afterToken L.npos r) (rs := rs)
  have hl : (L.inp.take r.second).length = r.second := by rw [List.length_take]; omega
  have he : (L.on (L.inp.drop r.second)).on (L.inp.take r.second ++ (L.on (L.inp.drop r.second)).inp) = L := by
    simp only [Lexer.on, List.take_append_drop]
  rw [he, hl] at hm
  have hs : L.Calls r rs ↔ L.Calls (moved r.second (afterToken L.npos r)) rs := by
    constructor
    · intro hc
      cases hc with
      | nil => exact .nil _
      | cons _ r' rs h1 h2 => exact .cons _ _ _ ((Resume.returns_rest h _).1 h1) h2
    · intro hc
      cases hc with
      | nil => exact .nil _
      | cons _ r' rs h1 h2 => exact .cons _ _ _ ((Resume.returns_rest h _).2 h1) h2
  rw [hs, hm]
  refine exists_congr fun rs' => and_congr_right fun _ => ⟨?_, And.left⟩
  rintro rfl
  refine ⟨rfl, ?_⟩
  rw [List.map_map]
  refine List.map_congr_left fun q _ => ?_
  simp only [Function.comp, tokenText, moved, List.drop_drop, Nat.add_sub_add_right, Nat.add_comm r.second]

/-- C70: characters at or after the end of the input play no role. -/
theorem C70_beyond (f : Flags) (npos bytes : Nat) (sm : Internals) (inp suf : List Nat) (r : Results) (h : r.eoi ≤ inp.length) (o : M Results) :
    Returns f npos bytes sm (inp ++ suf) r o ↔ Returns f npos bytes sm inp r o := by
  unfold Returns lookupFuel
  simp only [Resume.nextLoop_beyond suf _ _ _ _ (show ({ r with first := r.second } : Results).eoi ≤ inp.length from h)]

/-- To show that a call returns something it is enough to run it. -/
theorem resume_call {L : Lexer} {r r' : Results} (h : (lookupFuel L.flags L.npos L.bytes L.sm L.inp 10 r).toOption = some r') : L.Call r (.ok r') := by
  refine ⟨by simp, 10, ?_⟩
  cases hx : lookupFuel L.flags L.npos L.bytes L.sm L.inp 10 r with
  | ok a => rw [hx] at h; exact congrArg _ (Option.some.inj h)
  | error e => rw [hx] at h; cases h

/-- Two calls, on `ab` and on `a`, and the second one on the rest `a` of the text. -/
example : let L : Lexer := ⟨Ex.fAll, 65535, 1, Ex.machine Ex.R, [97, 98, 99, 97]⟩
    ∃ r r', L.Calls (.mk' 65535 0 4) [r, r'] ∧ r.second = 2 ∧ tokenText L.inp r' = [97] ∧
      (L.on [99, 97]).Calls (afterToken 65535 r) [⟨1, 7, 1, 2, 2, false, 0, []⟩] := by
  refine ⟨⟨2, 65535, 0, 2, 4, false, 0, []⟩, ⟨1, 7, 3, 4, 4, false, 0, []⟩, .cons _ _ _ (resume_call ?_) (.cons _ _ _ (resume_call ?_) (.nil _)), rfl, rfl,
    .cons _ _ _ (resume_call ?_) (.nil _)⟩ <;> decide +kernel

end Lexertl.Props
