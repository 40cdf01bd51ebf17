import Verif.Spec.Lexer

/-
What one call of `lookup` does for rules that end in `$` and rules with non-greedy
operators, in terms of the regular expressions of the rules.

A rule with a non-greedy operator may end the match at any text it is the first rule to
match, whether or not a longer text would match: the specification allows both.  A
match by `$` wins over a match of the same text by a rule without `$`.
-/
namespace Lexertl.Spec

/-- Number of `$` in an expression. -/
def Re.dollars : Re → Nat
  | chars _ => 0
  | bol => 0
  | eol => 1
  | seq l r => l.dollars + r.dollars
  | alt l r => l.dollars + r.dollars
  | opt r _ => r.dollars
  | star r _ => r.dollars
  | plus r _ => r.dollars
  | rep r _ _ _ => r.dollars

/-- Number of `$` in a rule. -/
def dollarsOf : Option Re → Nat
  | none => 0
  | some r => r.dollars

/-- The expression is `r$` where `r` has no `$`. -/
def EndsDollar : Option Re → Prop
  | some (.seq l .eol) => l.noEol = true
  | _ => False

/-- Position `k` is at the end of a line: at the end of input, before CR or before LF. -/
def LineEnd (inp : List Nat) (eoi k : Nat) : Prop := k = eoi ∨ inp[k]? = some 13 ∨ inp[k]? = some 10

/-- The first of the bytes by which the table reads a character. -/
def firstByte (tr : Traits) (c : Nat) : Nat := if tr.compressed then if tr.char24 then c / 65536 else c / 256 else c

/-- Characters the generator takes for CR before `$`: CR and, with characters of several
bytes, those whose last byte is that of CR. -/
def CrLike (tr : Traits) (c : Nat) : Prop := c = 13 ∨ (tr.compressed = true ∧ c % 256 = 13)

/-- Characters the generator takes for the end of a line: CR, LF and, with characters of
several bytes, those whose first byte has the value of CR or LF. -/
def LineLike (tr : Traits) (c : Nat) : Prop := c = 13 ∨ c = 10 ∨ firstByte tr c = 13 ∨ firstByte tr c = 10

/-- Some charset of the expression satisfies `P`. -/
def Re.SomeChars (P : List (Nat × Nat) → Prop) : Re → Prop
  | chars t => P t
  | bol => False
  | eol => False
  | seq l r => l.SomeChars P ∨ r.SomeChars P
  | alt l r => l.SomeChars P ∨ r.SomeChars P
  | opt r _ => r.SomeChars P
  | star r _ => r.SomeChars P
  | plus r _ => r.SomeChars P
  | rep r _ _ _ => r.SomeChars P

/-- Some charset of the expression has a character whose first byte is 0. -/
def NamesLow (tr : Traits) : Option Re → Prop
  | none => False
  | some r => r.SomeChars fun t => ∃ c, Mem c t ∧ firstByte tr c = 0

/-- The rules `es` of a lexer state use `$` only as `r$`; no such rule matches a text
ending in CR before `$`; a text is matched before `$` by at most one rule, and no rule
matches a text going on with CR or LF instead.  With characters of several bytes, this
is asked for characters that share a byte with CR or LF too, and some rule must name a
character whose first byte is 0. -/
structure DollarOk (tr : Traits) (es : List (Option Re)) : Prop where
  form : ∀ e ∈ es, NoEol e ∨ EndsDollar e
  noCr : ∀ e ∈ es, ∀ u c, CrLike tr c → ¬ RMatches e (u ++ [.ch c, .eol])
  noLine : ∀ e ∈ es, ∀ e' ∈ es, ∀ (atLine : Bool) (cs : List Nat) (c : Nat) (w : List Sym), LineLike tr c →
    LineMatch atLine e (cs.map .ch ++ [.eol]) → ¬ LineMatch atLine e' (cs.map .ch ++ .ch c :: w)
  one : ∀ (i j : Nat) (e e' : Option Re) (atLine : Bool) (cs : List Nat), es[i]? = some e → es[j]? = some e' →
    LineMatch atLine e (cs.map .ch ++ [.eol]) → LineMatch atLine e' (cs.map .ch ++ [.eol]) → i = j
  low : tr.compressed = true → ∃ e ∈ es, NamesLow tr e

/-- As `RuleSet`, with `$` and non-greedy operators.  In a
lexer state with rules `^r`, rules with non-greedy operators do not match the empty
text. -/
structure AnyRules (tr : Traits) (R : Rules) (xss : List (List SRule)) : Prop where
  states : R.states = xss.map (·.map (·.1))
  den : ∀ xs ∈ xss, ∀ x ∈ xs, Denotes x.1.regex x.2
  sets : ∀ xs ∈ xss, ∀ x ∈ xs, CharSets tr x.2
  bolHead : ∀ xs ∈ xss, ∀ x ∈ xs, ROpt (fun r => r.bolHead = true) x.2
  dollar : ∀ xs ∈ xss, (∀ x ∈ xs, NoEol x.2) ∨
    (264 ≤ tr.npos ∧ DollarOk tr (xs.map (·.2)))
  lazy : ∀ xs ∈ xss, (∀ x ∈ xs, NoBol x.2) ∨
    ∀ x ∈ xs, ¬ AllGreedy x.2 → ¬ RMatches x.2 [] ∧ ¬ RMatches x.2 [.bol]
  count : ∀ xs ∈ xss, (xs.map fun x => setsOf tr x.2 + 2 * dollarsOf x.2).sum + 2 ≤ tr.npos
  bolBit : ∀ (i : Nat) (xs : List SRule), xss[i]? = some xs → (∃ x ∈ xs, ¬ NoBol x.2) →
    ∃ n, R.features[i]? = some n ∧ n % 2 = 1

/-- Rule `j` is the first of the rules `es` to match `w`. -/
structure First (L : Option Re → List Sym → Prop) (es : List (Option Re)) (w : List Sym) (j : Nat) : Prop where
  hit : ∃ e, es[j]? = some e ∧ L e w
  earliest : ∀ (i : Nat) (e : Option Re), i < j → es[i]? = some e → ¬ L e w

/-- Some rule matches the text from `p` to `k` by `$`: the text followed by the end of a
line.  `dollar`: the lexer was told that there are such rules. -/
def ByDollar (dollar : Bool) (L : Option Re → List Sym → Prop) (es : List (Option Re)) (inp : List Nat)
    (p eoi k : Nat) : Prop :=
  dollar = true ∧ LineEnd inp eoi k ∧ ∃ e ∈ es, L e (text inp p k ++ [.eol])

/-- No rule matches, by `$` or without, a text ending after `k`. -/
def NoLonger (dollar : Bool) (L : Option Re → List Sym → Prop) (es : List (Option Re)) (inp : List Nat)
    (p eoi k : Nat) : Prop :=
  ∀ k', k < k' → k' ≤ eoi → (∀ e ∈ es, ¬ L e (text inp p k')) ∧ ¬ ByDollar dollar L es inp p eoi k'

/-- The first rule to match the text from `p` to `k` has a non-greedy operator. -/
def Early (L : Option Re → List Sym → Prop) (es : List (Option Re)) (inp : List Nat) (p k : Nat) : Prop :=
  ∃ j e, First L es (text inp p k) j ∧ es[j]? = some e ∧ ¬ AllGreedy e

/-- Rule number `j` is the first to match some text, at the start of a line or elsewhere,
without `$` or by `$`. -/
def CanWinAny (es : List (Option Re)) (j : Nat) : Prop :=
  ∃ (atLine : Bool) (cs : List Nat) (dollar : Bool),
    First (LineMatch atLine) es (cs.map .ch ++ if dollar then [.eol] else []) j

namespace LexEnv

/-- Rule `x` is chosen at position `p`: `k` is the end of its text, `next` the following
lexer state and `b` tells whether a line starts at `k`. -/
inductive Picks (E : LexEnv) (r : Results) (p : Nat) : SRule → Nat → Nat → Bool → Prop
  /-- a non-empty text, matched without `$` -/
  | text (xs : List SRule) (x : SRule) (k j : Nat) : E.rules[r.state]? = some xs → xs[j]? = some x →
      p < k → k ≤ r.eoi → First (LineMatch (E.atLine r)) (xs.map (·.2)) (text E.inp p k) j →
      (Early (LineMatch (E.atLine r)) (xs.map (·.2)) E.inp p k ∨
        (NoLonger E.flags.eol (LineMatch (E.atLine r)) (xs.map (·.2)) E.inp p r.eoi k ∧
         ¬ ByDollar E.flags.eol (LineMatch (E.atLine r)) (xs.map (·.2)) E.inp p r.eoi k)) →
      Picks E r p x k x.1.nextDfa (E.inp[k - 1]? == some 10)
  /-- a text, possibly empty, matched by `$` -/
  | line (xs : List SRule) (x : SRule) (k j : Nat) : E.rules[r.state]? = some xs → xs[j]? = some x →
      p ≤ k → k ≤ r.eoi → E.flags.eol = true → LineEnd E.inp r.eoi k →
      First (LineMatch (E.atLine r)) (xs.map (·.2)) (Spec.text E.inp p k ++ [.eol]) j →
      NoLonger E.flags.eol (LineMatch (E.atLine r)) (xs.map (·.2)) E.inp p r.eoi k →
      Picks E r p x k x.1.nextDfa (if k = p then r.bol else E.inp[k - 1]? == some 10)
  /-- the empty text -/
  | empty (xs : List SRule) (x : SRule) (j : Nat) : E.rules[r.state]? = some xs → xs[j]? = some x →
      FirstEmpty (xs.map (·.2)) j →
      (Early (LineMatch (E.atLine r)) (xs.map (·.2)) E.inp p p ∨
        (NoLonger E.flags.eol (LineMatch (E.atLine r)) (xs.map (·.2)) E.inp p r.eoi p ∧
         ¬ ByDollar E.flags.eol (LineMatch (E.atLine r)) (xs.map (·.2)) E.inp p r.eoi p)) →
      Picks E r p x p r.state r.bol

/-- No rule matches anything at `p`. -/
def Unmatched (E : LexEnv) (r : Results) (p : Nat) : Prop :=
  ∃ xs, E.rules[r.state]? = some xs ∧
    NoLonger E.flags.eol (LineMatch (E.atLine r)) (xs.map (·.2)) E.inp p r.eoi p ∧
    ¬ ByDollar E.flags.eol (LineMatch (E.atLine r)) (xs.map (·.2)) E.inp p r.eoi p ∧ NoEmpty (xs.map (·.2))

/-- As `Lex`, with the rule chosen by `Ch` and no rule matching where `No` says so. -/
inductive LexWith (E : LexEnv) (Ch : Results → Nat → SRule → Nat → Nat → Bool → Prop) (No : Results → Nat → Prop) :
    Results → Nat → M Results → Prop
  | eoi (r : Results) : LexWith E Ch No r r.eoi (.ok { r with id := E.eoi, userId := E.npos })
  | none (r : Results) (p c : Nat) : p < r.eoi → No r p → E.inp[p]? = some c →
      LexWith E Ch No r p (.ok { r with first := p, second := if E.flags.advance then p + 1 else p,
                                        bol := c == 10, id := E.npos, userId := E.npos })
  | throw (r : Results) (p : Nat) (x : SRule) (k next : Nat) (b : Bool) (e : Fault) : p < r.eoi →
      Ch r p x k next b → E.accept x.1 r k next b = .error e → LexWith E Ch No r p (.error e)
  | skip (r r' : Results) (p : Nat) (x : SRule) (k next : Nat) (b : Bool) (o : M Results) : p < r.eoi →
      Ch r p x k next b → E.accept x.1 r k next b = .ok r' → x.1.id = E.npos - 1 →
      LexWith E Ch No { r' with first := k } k o → LexWith E Ch No r p o
  | again (r r' : Results) (p : Nat) (x : SRule) (k next : Nat) (b : Bool) (o : M Results) : p < r.eoi →
      Ch r p x k next b → E.accept x.1 r k next b = .ok r' → x.1.id ≠ E.npos - 1 →
      E.continues x.1 r' → LexWith E Ch No r' k o → LexWith E Ch No r p o
  | token (r r' : Results) (p : Nat) (x : SRule) (k next : Nat) (b : Bool) : p < r.eoi →
      Ch r p x k next b → E.accept x.1 r k next b = .ok r' → x.1.id ≠ E.npos - 1 →
      ¬ E.continues x.1 r' → LexWith E Ch No r p (.ok { r' with id := x.1.id, userId := x.1.userId })

/-- A possible outcome of lexing with `$` and non-greedy operators. -/
def LexAny (E : LexEnv) : Results → Nat → M Results → Prop := E.LexWith E.Picks E.Unmatched

end LexEnv

/-- As `BuiltFor`, with `$` and non-greedy operators. -/
structure BuiltAny (tr : Traits) (R : Rules) (xss : List (List SRule)) (f : Flags) (inp : List Nat)
    (sm : Internals) : Prop where
  wide : 263 ≤ tr.npos
  rules : AnyRules tr R xss
  states : StatesExist ⟨xss, tr.npos, R.eoi, f, inp⟩
  built : ∃ addr, buildTemp tr addr R = .ok sm
  chars : ∀ c ∈ inp, c < charsOf tr

end Lexertl.Spec
