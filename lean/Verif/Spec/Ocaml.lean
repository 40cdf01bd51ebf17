import Verif.Spec.Reads

/-
What the OCaml example prints: comments, and tokens of the kinds it has rules for.  Characters
are bytes.
-/
namespace Lexertl.Spec.Ocaml

/-! ### Comments -/

/-- `Inner n v`: in `n` nested comments, the text `v` is the rest of them, up to the `*)` that closes
the outermost one. -/
inductive Inner : Nat → List Nat → Prop
  | done : Inner 1 [42, 41]
  | opn (n v) : Inner (n + 1) v → Inner n (40 :: 42 :: v)
  | cls (n v) : Inner (n + 1) v → Inner (n + 2) (42 :: 41 :: v)
  | other (n c v) : ¬ (c = 40 ∧ v.head? = some 42) → ¬ (c = 42 ∧ v.head? = some 41) → Inner n v → Inner n (c :: v)

/-! ### Tokens -/

def Letter (c : Nat) : Prop := c = 95 ∨ (65 ≤ c ∧ c ≤ 90) ∨ (97 ≤ c ∧ c ≤ 122)

/-- `-`, or nothing. -/
def Minus (s : List Nat) : Prop := s = [] ∨ s = [45]

/-- Letters, digits, `_` and `'`, not starting with a digit or `'`. -/
def Identifier (v : List Nat) : Prop := ∃ c w, v = c :: w ∧ Letter c ∧ ∀ d ∈ w, Letter d ∨ Digit d ∨ d = 39

/-- Digits, with `+` (sic) between them, or hexadecimal, octal or binary digits, with `_`. -/
def Integer (v : List Nat) : Prop :=
  ∃ s n, v = s ++ n ∧ Minus s ∧ ((∃ d w, n = d :: w ∧ Digit d ∧ ∀ c ∈ w, Digit c ∨ c = 43) ∨
    (∃ x d w, n = 48 :: x :: d :: w ∧
      ((x ∈ [88, 120] ∧ IsHexDigit d ∧ ∀ c ∈ w, IsHexDigit c ∨ c = 95) ∨
       (x ∈ [79, 111] ∧ IsOct d ∧ ∀ c ∈ w, IsOct c ∨ c = 95) ∨
       (x ∈ [66, 98] ∧ d ∈ [48, 49] ∧ ∀ c ∈ w, c ∈ [48, 49] ∨ c = 95))))

/-- Digits, with `_`; `.` and one digit or `-` (sic); an exponent. -/
def Float (v : List Nat) : Prop :=
  ∃ s d w f e, v = s ++ [d] ++ w ++ f ++ e ∧ Minus s ∧ Digit d ∧ (∀ c ∈ w, Digit c ∨ c = 95) ∧
    (f = [] ∨ ∃ c, f = [46, c] ∧ (Digit c ∨ c = 45)) ∧
    (e = [] ∨ ∃ m s d w, e = [m] ++ s ++ [d] ++ w ∧ m ∈ [69, 101] ∧ (s = [] ∨ s = [43] ∨ s = [45]) ∧ Digit d ∧
      ∀ c ∈ w, Digit c ∨ c = 95)

/-- What follows the backslash of an escape (without the backslash, sic). -/
def Escape (v : List Nat) : Prop :=
  (∃ c, v = [c] ∧ c ∈ [34, 39, 110, 116, 98, 114]) ∨ (∃ a b c, v = [a, b, c] ∧ Digit a ∧ Digit b ∧ Digit c) ∨
    ∃ a b, v = [120, a, b] ∧ IsHexDigit a ∧ IsHexDigit b

/-- `'` and any other character, or an escape and `'` (sic). -/
def Char (v : List Nat) : Prop := (∃ c, v = [39, c] ∧ c ≠ 39 ∧ c ≤ 255) ∨ ∃ e, v = e ++ [39] ∧ Escape e

/-- The text `([^"]|{ESCAPE_SEQUENCE})*` itself. -/
def literally : List Nat := chars "([^\"]|{ESCAPE_SEQUENCE})*"

def OpChar (c : Nat) : Prop := c ∈ chars "-!$%&*+./:<=>?@^|~"

def Infix (v : List Nat) : Prop := ∃ c w, v = c :: w ∧ c ∈ chars "-=<>@^|&+*/$%" ∧ ∀ d ∈ w, OpChar d

def Prefix (v : List Nat) : Prop := ∃ c w, v = c :: w ∧ c ∈ chars "!?~" ∧ ∀ d ∈ w, OpChar d

def Operator (v : List Nat) : Prop := ∃ c, v = [c] ∧ OpChar c

/-- `#` and digits, and `([^"]|{ESCAPE_SEQUENCE})*` or nothing. -/
def Directive (v : List Nat) : Prop :=
  ∃ ds q, v = [35] ++ ds ++ q ∧ (ds ≠ [] ∧ ∀ d ∈ ds, Digit d) ∧ (q = [] ∨ q = literally)

/-- The kinds of tokens with their names, those that come first take precedence. -/
def kinds : List (List Nat × (List Nat → Prop)) :=
  [(chars "Identifier", Identifier), (chars "Integer", Integer), (chars "Float", Float), (chars "Char", Char),
   (chars "String", (· = literally)), (chars "Infix Symbol", Infix), (chars "Prefix Symbol", Prefix),
   (chars "Operator Char", Operator), (chars "Line Number Directive", Directive)]

/-- Among the kinds `Ps`, the text `v ++ w` starts with the token `v` of kind number `j`: no longer
start of it is a token, and `v` is of no earlier kind. -/
structure Takes (Ps : List (List Nat → Prop)) (j : Nat) (v w : List Nat) : Prop where
  nonempty : v ≠ []
  hit : ∃ P, Ps[j]? = some P ∧ P v
  earliest : ∀ (i : Nat) (P : List Nat → Prop), i < j → Ps[i]? = some P → ¬ P v
  longest : ∀ P ∈ Ps, ∀ v' w', v ++ w = v' ++ w' → P v' → v'.length ≤ v.length

/-- No start of `u` is a token. -/
def Nothing (Ps : List (List Nat → Prop)) (u : List Nat) : Prop := ∀ P ∈ Ps, ∀ v w, u = v ++ w → v ≠ [] → ¬ P v

/-- What is printed for a text: names of tokens, with their texts. -/
inductive Prints : List Nat → List (List Nat × List Nat) → Prop
  | eof : Prints [] [(chars "EOF", [])]
  | blank (c w ls) : c ∈ [32, 9, 10] → Prints w ls → Prints (c :: w) ls
  | comment (v w ls) : Inner 1 v → Prints w ls → Prints (40 :: 42 :: (v ++ w)) ((chars "Comment", 40 :: 42 :: v) :: ls)
  /-- a comment that is not closed -/
  | unclosed (u) : (∀ v w, u = v ++ w → ¬ Inner 1 v) → Prints (40 :: 42 :: u) [(chars "EOF", 40 :: 42 :: u)]
  | token (j k v w ls) : Takes (kinds.map (·.2)) j v w → kinds[j]? = some k → Prints w ls → Prints (v ++ w) ((k.1, v) :: ls)
  | unknown (c w ls) : c ∉ [32, 9, 10] → ¬ (c = 40 ∧ w.head? = some 42) → Nothing (kinds.map (·.2)) (c :: w) → Prints w ls →
      Prints (c :: w) ((chars "Unknown token", [c]) :: ls)

end Lexertl.Spec.Ocaml
