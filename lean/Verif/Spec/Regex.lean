import Verif.Model.Parser
import Verif.Spec.CharSet

/-
Specification vocabulary for regular expressions, independent of the parser and
the generator: abstract syntax, the words an expression matches, and the usual
grammar saying which token sequences denote which expression.
-/
namespace Lexertl.Spec

/-- An event while scanning: a character, or one of the zero-width tests. -/
inductive Sym
  | ch (c : Nat)
  | bol
  | eol
  deriving DecidableEq, Repr

/-- Abstract syntax.  `rep r lo hi`: between `lo` and `hi` times (`none`: no upper
bound).  The flag `lazy` marks the non-greedy variant of an operator; it does not
change which words match. -/
inductive Re
  | chars (t : List (Nat × Nat))
  | bol
  | eol
  | seq (l r : Re)
  | alt (l r : Re)
  | opt (r : Re) (lazy : Bool)
  | star (r : Re) (lazy : Bool)
  | plus (r : Re) (lazy : Bool)
  | rep (r : Re) (lo : Nat) (hi : Option Nat) (lazy : Bool)
  deriving DecidableEq, Repr

/-- `k`-fold concatenation. -/
def Pow {σ : Type} (L : List σ → Prop) : Nat → List σ → Prop
  | 0, w => w = []
  | k + 1, w => ∃ u v, w = u ++ v ∧ L u ∧ Pow L k v

/-- The words matched by an expression. -/
def Re.Matches : Re → List Sym → Prop
  | chars t, w => ∃ c, Mem c t ∧ w = [.ch c]
  | bol, w => w = [.bol]
  | eol, w => w = [.eol]
  | seq l r, w => ∃ u v, w = u ++ v ∧ l.Matches u ∧ r.Matches v
  | alt l r, w => l.Matches w ∨ r.Matches w
  | opt r _, w => w = [] ∨ r.Matches w
  | star r _, w => ∃ k, Pow r.Matches k w
  | plus r _, w => ∃ k, 1 ≤ k ∧ Pow r.Matches k w
  | rep r lo hi _, w => ∃ k, lo ≤ k ∧ (∀ h, hi = some h → k ≤ h) ∧ Pow r.Matches k w

/-- Decimal value of a digit string. -/
def decVal (ds : List Nat) : Nat := ds.foldl (fun n c => n * 10 + (c - 48)) 0

/-- A non-empty string of decimal digits. -/
def IsDec (ds : List Nat) : Prop := ds ≠ [] ∧ ∀ c ∈ ds, 48 ≤ c ∧ c ≤ 57

/-- The text inside the braces of a counted repetition: `n`, `n,` or `n,m`.  As
produced by the tokeniser, `{0}`, `{0,}`, `{0,1}` and `{n,n}` do not occur. -/
inductive Count : List Nat → Nat → Option Nat → Prop
  | exact (ds : List Nat) : IsDec ds → 1 ≤ decVal ds → Count ds (decVal ds) (some (decVal ds))
  | atLeast (ds : List Nat) : IsDec ds → 1 ≤ decVal ds → Count (ds ++ [44]) (decVal ds) none
  | between (ds es : List Nat) : (∀ c ∈ ds, 48 ≤ c ∧ c ≤ 57) → IsDec es → decVal ds < decVal es →
      2 ≤ decVal es → Count (ds ++ 44 :: es) (decVal ds) (some (decVal es))

/-- Postfix operators: token `d` applied to `r` gives the second expression. -/
inductive Postfix : Tok → Re → Re → Prop
  | opt (e s r) : Postfix ⟨.opt, e, s⟩ r (.opt r false)
  | aopt (e s r) : Postfix ⟨.aopt, e, s⟩ r (.opt r true)
  | star (e s r) : Postfix ⟨.zeroormore, e, s⟩ r (.star r false)
  | astar (e s r) : Postfix ⟨.azeroormore, e, s⟩ r (.star r true)
  | plus (e s r) : Postfix ⟨.oneormore, e, s⟩ r (.plus r false)
  | aplus (e s r) : Postfix ⟨.aoneormore, e, s⟩ r (.plus r true)
  | rep (e s r lo hi) : Count e lo hi → Postfix ⟨.repeatn, e, s⟩ r (.rep r lo hi false)
  | arep (e s r lo hi) : Count e lo hi → Postfix ⟨.arepeatn, e, s⟩ r (.rep r lo hi true)

/-- Precedence levels, tightest first. -/
inductive Level
  | atom | item | seq | alt
  deriving DecidableEq, Repr

/-- The regex grammar:

    atom ::= charset | ^ | $ | ( alt )
    item ::= atom | atom postfix
    seq  ::= item | seq item
    alt  ::= seq | alt "|" seq
-/
inductive Derives : Level → List Tok → Re → Prop
  | charset (e s) : Derives .atom [⟨.charset, e, s⟩] (.chars s)
  | bol (e s) : Derives .atom [⟨.bol, e, s⟩] .bol
  | eol (e s) : Derives .atom [⟨.eol, e, s⟩] .eol
  | paren (o c ts r) : o.type = .openparen → c.type = .closeparen → Derives .alt ts r →
      Derives .atom (o :: ts ++ [c]) r
  | item (ts r) : Derives .atom ts r → Derives .item ts r
  | postfix_ (ts r d q) : Derives .atom ts r → Postfix d r q → Derives .item (ts ++ [d]) q
  | seq1 (ts r) : Derives .item ts r → Derives .seq ts r
  | seq (ts us l r) : Derives .seq ts l → Derives .item us r → Derives .seq (ts ++ us) (.seq l r)
  | alt1 (ts r) : Derives .seq ts r → Derives .alt ts r
  | alt (ts us o l r) : o.type = .or_ → Derives .alt ts l → Derives .seq us r →
      Derives .alt (ts ++ o :: us) (.alt l r)

/-- What the tokens of a rule denote: `BEGIN ts END` where `ts` is empty (`none`) or
derives an expression. -/
inductive Denotes : List Tok → Option Re → Prop
  | empty (b e : Tok) : b.type = .begin → e.type = .end_ → Denotes [b, e] none
  | re (b e : Tok) (ts r) : b.type = .begin → e.type = .end_ → Derives .alt ts r →
      Denotes (b :: ts ++ [e]) (some r)

/-- Words matched by a rule; the empty regex matches the empty word. -/
def RMatches : Option Re → List Sym → Prop
  | none, w => w = []
  | some r, w => r.Matches w

/-- All charsets of an expression satisfy `P`. -/
def Re.AllChars (P : List (Nat × Nat) → Prop) : Re → Prop
  | chars t => P t
  | bol => True
  | eol => True
  | seq l r => l.AllChars P ∧ r.AllChars P
  | alt l r => l.AllChars P ∧ r.AllChars P
  | opt r _ => r.AllChars P
  | star r _ => r.AllChars P
  | plus r _ => r.AllChars P
  | rep r _ _ _ => r.AllChars P

/-- No `^`. -/
def Re.noBol : Re → Bool
  | chars _ => true
  | bol => false
  | eol => true
  | seq l r => l.noBol && r.noBol
  | alt l r => l.noBol && r.noBol
  | opt r _ => r.noBol
  | star r _ => r.noBol
  | plus r _ => r.noBol
  | rep r _ _ _ => r.noBol

/-- No `$`. -/
def Re.noEol : Re → Bool
  | chars _ => true
  | bol => true
  | eol => false
  | seq l r => l.noEol && r.noEol
  | alt l r => l.noEol && r.noEol
  | opt r _ => r.noEol
  | star r _ => r.noEol
  | plus r _ => r.noEol
  | rep r _ _ _ => r.noEol

/-- No non-greedy operator. -/
def Re.greedy : Re → Bool
  | chars _ => true
  | bol => true
  | eol => true
  | seq l r => l.greedy && r.greedy
  | alt l r => l.greedy && r.greedy
  | opt r lz => !lz && r.greedy
  | star r lz => !lz && r.greedy
  | plus r lz => !lz && r.greedy
  | rep r _ _ lz => !lz && r.greedy

/-- `^` is used only where nothing precedes it. -/
def Re.bolHead : Re → Bool
  | chars _ => true
  | bol => true
  | eol => true
  | seq l r => l.bolHead && r.noBol
  | alt l r => l.bolHead && r.bolHead
  | opt r _ => r.bolHead
  | star r _ => r.noBol
  | plus r _ => r.noBol
  | rep r _ _ _ => r.noBol

/-- A property of the expression of a rule, true of the empty regex. -/
def ROpt (P : Re → Prop) : Option Re → Prop
  | none => True
  | some r => P r

end Lexertl.Spec
