/-
What `wc` counts.
-/
namespace Lexertl.Spec.Wc

/-- Space, tab, newline. -/
def isBlank (c : Nat) : Bool := c == 32 || c == 9 || c == 10

/-- A word starts at position `i`: there is a character other than a blank, and it is the
first one or there is a blank before it; and it is not the first half of `\r\n`. -/
def wordStart (inp : List Nat) (i : Nat) : Bool :=
  inp[i]?.any (fun c => !isBlank c) && (i == 0 || inp[i - 1]?.any isBlank) && !(inp[i]? == some 13 && inp[i + 1]? == some 10)

/-- The number of words: of positions where one starts. -/
def words (inp : List Nat) : Nat := (List.range inp.length).countP (wordStart inp)

/-- The number of lines: of newline characters. -/
def lines (inp : List Nat) : Nat := inp.countP (· == 10)

end Lexertl.Spec.Wc
