import Verif.Model.Replace
import Verif.Spec.Calls

/-
What `replace` should do.
-/
namespace Lexertl.Spec

/-- The text a token is replaced with: the given text, or what the map says for its id,
and the token itself if the map says nothing. -/
def Fmt.subst (fmt : Fmt) (inp : List Nat) (t : Results) : List Nat :=
  match fmt with
  | .text s => s
  | .map f => match f t.id with
    | some g => g (tokenText inp t)
    | none => tokenText inp t

/-- `out` is the input from position `p` on, in which the tokens `ts` are replaced and
everything else is kept. -/
inductive Replaced (fmt : Fmt) (inp : List Nat) : Nat → List Results → List Nat → Prop
  | done (p : Nat) : Replaced fmt inp p [] (inp.drop p)
  | token (p : Nat) (t : Results) (ts : List Results) (out : List Nat) : p ≤ t.first → t.first ≤ t.second → t.second ≤ inp.length →
      Replaced fmt inp t.second ts out →
      Replaced fmt inp p (t :: ts) ((inp.drop p).take (t.first - p) ++ (Fmt.subst fmt inp t ++ out))

/-- No end row of the machine carries the id of the end of input: there are no rules that
continue the token. -/
def NoContinue (sm : Internals) : Prop :=
  ∀ rows ∈ sm.dfa, ∀ row ∈ rows, row[ixEnd]? ≠ some 0 → row[ixId]? ≠ some sm.eoi

/-- The lexer `replace` uses. -/
def replaceLexer (npos bytes : Nat) (sm : Internals) (inp : List Nat) : Lexer := ⟨replaceFlags, npos, bytes, sm, inp⟩

/-- `replace` returns with the output `out`. -/
def Replaces (npos bytes : Nat) (sm : Internals) (inp : List Nat) (fmt : Fmt) (out : List Nat) : Prop :=
  ∃ k n, replaceFuel .inserts npos bytes sm inp fmt k n [] = .ok out

end Lexertl.Spec
