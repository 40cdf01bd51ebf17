import Verif.Model.Lookup

/-
replace.hpp.  The overloads differ in the kinds of input, format and output only.  The input
is the list of its characters; for the overloads that take `const char_type*` (424-651) these
are the characters before the terminating zero.
-/
namespace Lexertl

/-- What a match is replaced with: one text for all matches (replace.hpp:22-42, 112-143,
222-248, 325-357, 424-455, 539-569), or a map from ids to texts or functions of the text
matched (the others).  A function is assumed not to change the iterators it gets. -/
inductive Fmt
  | text (s : List Nat)
  | map (f : Nat → Option (List Nat → List Nat))

/-- The text `[first_, second_)` of the input; the order of the iterators is required. -/
def slice (inp : List Nat) (first second : Nat) : M (List Nat) :=
  if first ≤ second ∧ second ≤ inp.length then .ok ((inp.drop first).take (second - first))
  else .error (.ub "range")

/-- replace.hpp:36, 60-65, 93-101: what is written for a match. -/
def Fmt.out (fmt : Fmt) (inp : List Nat) (r : Results) : M (List Nat) := do
  let t ← slice inp r.first r.second
  match fmt with
  | .text s => .ok s
  | .map f =>
    match f r.id with
    | some g => .ok (g t)
    | none => .ok t

/-- What `std::copy(a, b, out_)` and `ret_.append(a, b)` do to the output.  `copy` does not
change `out_`: iterators that insert, and streams, add the text at the end; a plain pointer or
container iterator still points to the beginning of the buffer, and the text goes there. -/
inductive Out
  | inserts
  | pointer

def Out.copy : Out → List Nat → List Nat → List Nat
  | .inserts, buf, t => buf ++ t
  | .pointer, buf, t => t ++ buf.drop t.length

/-- replace.hpp:25: the flags of `match_results`. -/
def replaceFlags : Flags := ⟨true, true, true, false, true⟩

/-- replace.hpp:32-41: the loop, after the first lookup; `n` bounds the number of rounds and
`k` the jumps in each lookup. -/
def replaceLoop (out : Out) (npos bytes : Nat) (sm : Internals) (inp : List Nat) (fmt : Fmt) (k : Nat) :
    Nat → Results → Nat → List Nat → M (List Nat)
  | 0, _, _, _ => .error .fuel
  | n + 1, r, last, buf =>
    if r.id ≠ 0 then do
      let buf := out.copy buf (← slice inp last r.first)
      let buf := out.copy buf (← fmt.out inp r)
      let r' ← lookupFuel replaceFlags npos bytes sm inp k r
      replaceLoop out npos bytes sm inp fmt k n r' r.second buf
    else do
      let t ← slice inp last r.first
      .ok (out.copy buf t)

/-- replace.hpp:22-42 `replace`, the output starting with `buf` in memory. -/
def replaceFuel (out : Out) (npos bytes : Nat) (sm : Internals) (inp : List Nat) (fmt : Fmt) (k n : Nat) (buf : List Nat) : M (List Nat) := do
  let r ← lookupFuel replaceFlags npos bytes sm inp k (.mk' npos 0 inp.length)
  replaceLoop out npos bytes sm inp fmt k n r 0 buf

end Lexertl
