import Verif.Spec.Reads

/-
Expressions, how they are written, and their values.
-/
namespace Lexertl.Spec.Calc

/-- Numbers, operators (`+ - * / %`), parentheses. -/
inductive Tk
  | num (ds : List Nat)
  | op (c : Nat)
  | opn
  | cls
  deriving DecidableEq, Repr

/-- The characters `+ - * / %`. -/
def opChars : List Nat := [43, 45, 42, 47, 37]

/-- The text of a token. -/
inductive Writes : Tk → List Nat → Prop
  | num (ds) : IsDec ds → Writes (.num ds) ds
  | op (c) : c ∈ opChars → Writes (.op c) [c]
  | opn : Writes .opn [40]
  | cls : Writes .cls [41]

/-- The text consists of these tokens, with white space between them.  Numbers are not split. -/
inductive Spells : List Nat → List Tk → Prop
  | nil (w) : (∀ c ∈ w, IsSpace c) → Spells w []
  | cons (w t v u ts) : (∀ c ∈ w, IsSpace c) → Writes t v → Spells u ts →
      (∀ ds, t = .num ds → ∀ c ∈ u.head?, ¬ Digit c) → Spells (w ++ v ++ u) (t :: ts)

/-- Expressions; `bin c l r`: the operator `c` applied to `l` and `r`. -/
inductive Expr
  | num (ds : List Nat)
  | paren (e : Expr)
  | neg (e : Expr)
  | bin (c : Nat) (l r : Expr)
  deriving DecidableEq, Repr

/-- How an expression is written. -/
def Expr.tokens : Expr → List Tk
  | num ds => [.num ds]
  | paren e => .opn :: e.tokens ++ [.cls]
  | neg e => .op 45 :: e.tokens
  | bin c l r => l.tokens ++ .op c :: r.tokens

/-- The usual precedences: 0 numbers and parentheses, 1 these with a sign, 2 products, 3 sums;
operators associate to the left. -/
def Expr.Level : Nat → Expr → Prop
  | _, num ds => IsDec ds
  | _, paren e => e.Level 3
  | n, neg e => 1 ≤ n ∧ e.Level 0
  | n, bin c l r => (c ∈ [42, 47, 37] ∧ 2 ≤ n ∧ l.Level 2 ∧ r.Level 1) ∨ (c ∈ [43, 45] ∧ 3 ≤ n ∧ l.Level 3 ∧ r.Level 2)

/-- A value of less than 2³¹. -/
def small (x : Int) : Option Int := if x.natAbs < 2 ^ 31 then some x else none

/-- The value of an operation: `/` and `%` truncate towards zero. -/
def opValue (c : Nat) (x y : Int) : Option Int :=
  if c = 43 then small (x + y)
  else if c = 45 then small (x - y)
  else if c = 42 then small (x * y)
  else if y = 0 then none
  else if c = 47 then small (x.tdiv y)
  else small (x.tmod y)

/-- The value of an expression: `none` if it divides by zero or some value on the way is not
less than 2³¹ (in absolute value). -/
def Expr.value : Expr → Option Int
  | num ds => small (decVal ds)
  | paren e => e.value
  | neg e => e.value.map (- ·)
  | bin c l r => do opValue c (← l.value) (← r.value)

/-- The text is an expression. -/
def IsExpr (w : List Nat) (e : Expr) : Prop := e.Level 3 ∧ Spells w e.tokens

/-- Where an expression stands: a number or parenthesis without a sign; a product without
signs; a product whose first factor may have a sign; a sum that is continued by `+` or `-`; the
whole expression. -/
inductive Place
  | atom
  | unsigned
  | product
  | front
  | whole
  deriving DecidableEq, Repr

/-- Where products and signs may stand, on each level of parentheses.  The terms (what is
added or subtracted) are numbers or parentheses without a sign, with two exceptions: the first
term may be one of these with a sign, or a product without signs; the last term may be a
product, and the first factor of it may have a sign. -/
def Expr.Easy : Place → Expr → Prop
  | _, num _ => True
  | _, paren e => e.Easy .whole
  | p, neg e => (p = .product ∨ p = .front ∨ p = .whole) ∧ e.Easy .atom
  | p, bin c l r =>
    if c ∈ [42, 47, 37] then
      ((p = .unsigned ∨ p = .front) ∧ l.Easy .unsigned ∨ (p = .product ∨ p = .whole) ∧ l.Easy .product) ∧ r.Easy .atom
    else (p = .front ∧ r.Easy .atom ∨ p = .whole ∧ r.Easy .product) ∧ l.Easy .front

end Lexertl.Spec.Calc
