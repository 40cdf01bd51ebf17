import Verif.Spec.Text
import Verif.Spec.Rules

/-
What a regex text means: from characters to lexemes (`Reads`), from lexemes to an
expression (`Parses`).  Independent of the tokeniser, which works the other way round: it
reads left to right and decides by the next character what to do.

Numbers are ASCII codes; each rule of the definitions shows what it is about.
-/
namespace Lexertl.Spec

/-! ### Characters -/

def IsOct (c : Nat) : Prop := 48 ≤ c ∧ c ≤ 55
def IsHexDigit (c : Nat) : Prop := (48 ≤ c ∧ c ≤ 57) ∨ (65 ≤ c ∧ c ≤ 70) ∨ (97 ≤ c ∧ c ≤ 102)
/-- Space, tab, newline, carriage return, form feed, vertical tab. -/
def IsSpace (c : Nat) : Prop := c ∈ [32, 9, 10, 13, 12, 11]

instance (c : Nat) : Decidable (IsOct c) := by unfold IsOct; infer_instance
instance (c : Nat) : Decidable (IsHexDigit c) := by unfold IsHexDigit; infer_instance
instance (c : Nat) : Decidable (IsSpace c) := by unfold IsSpace; infer_instance

/-- The value of octal digits. -/
def octVal (ds : List Nat) : Nat := ds.foldl (fun n d => n * 8 + (d - 48)) 0

/-- The value of hexadecimal digits. -/
def hexVal (ds : List Nat) : Nat :=
  ds.foldl (fun n d => n * 16 + (if d ≤ 57 then d - 48 else if d ≤ 70 then d - 55 else d - 87)) 0

/-- `\a \b \e \f \n \r \t \v`. -/
def namedEscapes : List (Nat × Nat) :=
  [(97, 7), (98, 8), (101, 27), (102, 12), (110, 10), (114, 13), (116, 9), (118, 11)]

/-- `EscChar max w c rest`: the text `\w`, followed by `rest`, stands for the character
`c`.  Numbers extend as far as possible: octal numbers up to three digits, hexadecimal
ones without bound. -/
inductive EscChar (max : Nat) : List Nat → Nat → List Nat → Prop
  | octal (ds rest : List Nat) : ds ≠ [] → ds.length ≤ 3 → (∀ d ∈ ds, IsOct d) →
      (ds.length < 3 → ∀ d ∈ rest.head?, ¬ IsOct d) → octVal ds ≤ max → EscChar max ds (octVal ds) rest
  | hex (ds rest : List Nat) : ds ≠ [] → (∀ d ∈ ds, IsHexDigit d) → (∀ d ∈ rest.head?, ¬ IsHexDigit d) →
      hexVal ds ≤ max → EscChar max (120 :: ds) (hexVal ds) rest
  | ctrlLower (c : Nat) (rest : List Nat) : 97 ≤ c → c ≤ 122 → EscChar max [99, c] (c - 96) rest
  | ctrlUpper (c : Nat) (rest : List Nat) : 64 ≤ c → c ≤ 90 → EscChar max [99, c] (c - 64) rest
  | named (c v : Nat) (rest : List Nat) : (c, v) ∈ namedEscapes → EscChar max [c] v rest
  /-- other characters stand for themselves; `c`, `x`, `d`, `D`, `s`, `S`, `w`, `W` and `p`
  have a meaning of their own -/
  | self (c : Nat) (rest : List Nat) : ¬ IsOct c → c ∉ namedEscapes.map (·.1) →
      c ∉ [99, 120, 100, 68, 115, 83, 119, 87, 112] → EscChar max [c] c rest

/-- A character inside brackets: an escape, or itself. -/
inductive Chr (max : Nat) : List Nat → Nat → List Nat → Prop
  | esc (w : List Nat) (c : Nat) (rest : List Nat) : EscChar max w c rest → Chr max (92 :: w) c rest
  | self (c : Nat) (rest : List Nat) : c ≠ 92 → ¬ (c = 91 ∧ rest.head? = some 58) → Chr max [c] c rest

/-! ### Sets of characters -/

/-- `x` is entered for `c` by a line of a case folding table. -/
def FoldLine (p : FoldPair) (c x : Nat) : Prop :=
  p.1.1 ≤ c ∧ c ≤ p.1.2 ∧ x = min p.2.1 p.2.2 + (c - p.1.1)

/-- A case folding table: sorted, every target as long as its source. -/
structure FoldTable (top : Nat) (ps : List FoldPair) : Prop where
  sorted : ps.Pairwise (fun p q => p.1.1 ≤ q.1.1)
  length : ∀ p ∈ ps, p.1.1 ≤ p.1.2 ∧ max p.2.1 p.2.2 - min p.2.1 p.2.2 = p.1.2 - p.1.1 ∧ max p.2.1 p.2.2 ≤ top

/-- `x` is what `c` becomes when case is changed: by the locale for single byte
characters, by the tables otherwise. -/
def OtherCase (E : TokEnv) (c x : Nat) : Prop :=
  if E.size = 1 then x = E.upper c ∨ x = E.lower c
  else (∃ p ∈ E.fold2, FoldLine p c x) ∨ (E.size ≠ 2 ∧ ∃ p ∈ E.fold4, FoldLine p c x)

/-- The set `S`; if case is ignored, with the other cases of its members. -/
def Closed (E : TokEnv) (ic : Bool) (S : Nat → Prop) (x : Nat) : Prop :=
  S x ∨ (ic = true ∧ ∃ c, S c ∧ OtherCase E c x)

/-- All other characters. -/
def Compl (E : TokEnv) (S : Nat → Prop) (x : Nat) : Prop := x ≤ E.max ∧ ¬ S x

def Digit (c : Nat) : Prop := 48 ≤ c ∧ c ≤ 57
def WordChar (c : Nat) : Prop := c = 95 ∨ Digit c ∨ (65 ≤ c ∧ c ≤ 90) ∨ (97 ≤ c ∧ c ≤ 122)

instance (c : Nat) : Decidable (Digit c) := by unfold Digit; infer_instance
instance (c : Nat) : Decidable (WordChar c) := by unfold WordChar; infer_instance

/-- `\d \s \w` and their complements `\D \S \W`. -/
inductive Shorthand (E : TokEnv) (ic : Bool) : Nat → (Nat → Prop) → Prop
  | digit : Shorthand E ic 100 (Closed E ic Digit)
  | notDigit : Shorthand E ic 68 (Compl E (Closed E ic Digit))
  | space : Shorthand E ic 115 (Closed E ic IsSpace)
  | notSpace : Shorthand E ic 83 (Compl E (Closed E ic IsSpace))
  | word : Shorthand E ic 119 (Closed E ic WordChar)
  | notWord : Shorthand E ic 87 (Compl E (Closed E ic WordChar))

/-- The POSIX classes of single byte characters. -/
inductive PosixByte (E : TokEnv) : List Nat → (Nat → Prop) → Prop
  | alnum : PosixByte E (chars "alnum") (fun c => E.isAlnum c = true ∧ 1 ≤ c ∧ c ≤ 255)
  | alpha : PosixByte E (chars "alpha") (fun c => E.isAlpha c = true ∧ 1 ≤ c ∧ c ≤ 255)
  | blank : PosixByte E (chars "blank") (fun c => c = 32 ∨ c = 9)
  | cntrl : PosixByte E (chars "cntrl") (fun c => c ≤ 31 ∨ c = 127)
  | digit : PosixByte E (chars "digit") Digit
  | graph : PosixByte E (chars "graph") (fun c => 33 ≤ c ∧ c ≤ 126)
  | lower : PosixByte E (chars "lower") (fun c => E.isLower c = true ∧ 1 ≤ c ∧ c ≤ 255)
  | print : PosixByte E (chars "print") (fun c => 32 ≤ c ∧ c ≤ 126)
  | punct : PosixByte E (chars "punct") (fun c => (33 ≤ c ∧ c ≤ 47) ∨ (58 ≤ c ∧ c ≤ 64) ∨ (91 ≤ c ∧ c ≤ 96) ∨ (123 ≤ c ∧ c ≤ 126))
  | space : PosixByte E (chars "space") IsSpace
  | upper : PosixByte E (chars "upper") (fun c => E.isUpper c = true ∧ 1 ≤ c ∧ c ≤ 255)
  | xdigit : PosixByte E (chars "xdigit") IsHexDigit

/-- The POSIX classes of wider characters, as bracketed text after the `[`. -/
def posixWide : List (List Nat × List Nat) :=
  [(chars "alnum", chars "\\p{Ll}\\p{Lu}\\p{Nd}]"), (chars "alpha", chars "\\p{Ll}\\p{Lu}]"),
   (chars "blank", chars "\\p{Zs}\t]"), (chars "cntrl", chars "\\p{Cc}]"), (chars "digit", chars "\\p{Nd}]"),
   (chars "graph", chars "^\\p{Z}\\p{C}]"), (chars "lower", chars "\\p{Ll}]"), (chars "print", chars "\\p{C}]"),
   (chars "punct", chars "\\p{P}\\p{S}]"), (chars "space", chars "\\p{Z}\t\r\n" ++ [11, 12, 93]),
   (chars "upper", chars "\\p{Lu}]"), (chars "xdigit", chars "0-9A-Fa-f]")]

/-- What follows does not make a range of the item before: not a `-`, or `-]`. -/
def NoDash (rest : List Nat) : Prop := rest.head? = some 45 → rest.tail.head? = some 93

instance (rest : List Nat) : Decidable (NoDash rest) := by unfold NoDash; infer_instance

/-- The parts of a bracketed charset: a whole one (after the `[`, including the `]`), some
items with the `]` at the end, one item, the name of a POSIX class. -/
inductive Part
  | whole
  | items (first : Bool)
  | item
  | posix
  deriving DecidableEq, Repr

/-- `Brackets E ic part w S rest`: the text `w`, followed by `rest` (which matters for
items only), stands for the set `S`; `ic`: case is ignored. -/
inductive Brackets (E : TokEnv) (ic : Bool) : Part → List Nat → (Nat → Prop) → List Nat → Prop
  /-- `[...]` -/
  | pos (w S) : w.head? ≠ some 94 → Brackets E ic (.items true) w S [] → (∃ c, S c) → Brackets E ic .whole w S []
  /-- `[^...]` -/
  | neg (w S) : Brackets E ic (.items true) w S [] → (∃ c, Compl E S c) → Brackets E ic .whole (94 :: w) (Compl E S) []
  /-- `]` is an item where it comes first -/
  | last (b w S) : (b = true ∨ w.head? ≠ some 93) → Brackets E ic .item w S [93] → Brackets E ic (.items b) (w ++ [93]) S []
  | more (b w S w' S') : (b = true ∨ w.head? ≠ some 93) → Brackets E ic .item w S w' →
      Brackets E ic (.items false) w' S' [] → Brackets E ic (.items b) (w ++ w') (fun c => S c ∨ S' c) []
  | char (w c rest) : Chr E.max w c rest → NoDash rest → Brackets E ic .item w (Closed E ic (· = c)) rest
  | range (v x w y rest) : Chr E.max v x (45 :: w ++ rest) → Chr E.max w y rest → w.head? ≠ some 93 → x ≤ y →
      Brackets E ic .item (v ++ 45 :: w) (Closed E ic (fun c => x ≤ c ∧ c ≤ y)) rest
  | short (c S rest) : Shorthand E ic c S → (∃ c, S c) → NoDash rest → Brackets E ic .item [92, c] S rest
  /-- `\p{name}` -/
  | prop (name body S rest) : name ≠ [] → 125 ∉ name → E.unicode name = some (91 :: body) →
      Brackets E ic .whole body S [] → NoDash rest → Brackets E ic .item (92 :: 112 :: 123 :: name ++ [125]) S rest
  /-- `[:name:]`, `[:^name:]` -/
  | posix (name S rest) : Brackets E ic .posix name S [] → NoDash rest →
      Brackets E ic .item (91 :: 58 :: name ++ [58, 93]) S rest
  | posixNeg (name S rest) : Brackets E ic .posix name S [] → NoDash rest →
      Brackets E ic .item (91 :: 58 :: 94 :: name ++ [58, 93]) (Compl E S) rest
  | posixByte (name S) : E.size = 1 → PosixByte E name S → (∃ c, S c) → Brackets E ic .posix name (Closed E ic S) []
  | posixWide (name body S) : E.size ≠ 1 → (name, body) ∈ posixWide → Brackets E ic .whole body S [] →
      Brackets E ic .posix name S []

/-- `.` -/
def Dot (E : TokEnv) (f : ReFlags) (c : Nat) : Prop :=
  c ≤ E.max ∧ (f.dotNotNewline = true → c ≠ 10) ∧ (f.dotNotNewline = false → f.dotNotCrLf = true → c ≠ 10 ∧ c ≠ 13)

/-- The characters with a meaning of their own, outside brackets and quotes: `"`, `$`, `(`,
`)`, `*`, `+`, `.`, `/`, `?`, `[`, `\`, `^`, `{` and `|`. -/
def metaChars : List Nat := [34, 36, 40, 41, 42, 43, 46, 47, 63, 91, 92, 94, 123, 124]

/-- `AtomText E f b start w S rest`: the text `w`, followed by `rest`, is one character of
the set `S`; `b`: inside quotes, `start`: at the start of the regex, `f`: the flags. -/
inductive AtomText (E : TokEnv) (f : ReFlags) : Bool → Bool → List Nat → (Nat → Prop) → List Nat → Prop
  | quoted (start c rest) : c ≠ 34 → c ≠ 92 → AtomText E f true start [c] (Closed E f.icase (· = c)) rest
  | plain (start c rest) : c ∉ metaChars → ¬ (f.skipWs = true ∧ IsSpace c) →
      AtomText E f false start [c] (Closed E f.icase (· = c)) rest
  | caret (rest) : AtomText E f false false [94] (· = 94) rest
  | dollar (start rest) : rest ≠ [] → AtomText E f false start [36] (· = 36) rest
  | dot (start rest) : (∃ c, Dot E f c) → AtomText E f false start [46] (Dot E f) rest
  | esc (b start w c rest) : EscChar E.max w c rest → AtomText E f b start (92 :: w) (Closed E f.icase (· = c)) rest
  | short (b start c S rest) : Shorthand E f.icase c S → (∃ c, S c) → AtomText E f b start [92, c] S rest
  | prop (b start name body S rest) : name ≠ [] → 125 ∉ name → E.unicode name = some (91 :: body) →
      Brackets E f.icase .whole body S [] → AtomText E f b start (92 :: 112 :: 123 :: name ++ [125]) S rest
  | set (start body S rest) : Brackets E f.icase .whole body S [] → AtomText E f false start (91 :: body) S rest

/-! ### Lexemes -/

/-- What the text of a regex consists of. -/
inductive Lx
  | chars (t : List (Nat × Nat))
  | bol
  | eol
  | bar
  | opn
  | cls
  | rep (lo : Nat) (hi : Option Nat) (lazy : Bool)
  /-- `{-}` and `{+}` -/
  | minus
  | union
  /-- `{name}` -/
  | mac (name : List Nat)
  deriving DecidableEq, Repr

/-- The text of options, after `(?`, including the `:`, applied to flags: `i` ignores case,
`s` lets `.` match newlines, `x` skips white space; a `-` before an option, and only
before this one, switches it off. -/
inductive Options : Bool → ReFlags → List Nat → ReFlags → Prop
  | done (neg f) : Options neg f [58] f
  | minus (neg f w f') : Options (!neg) f w f' → Options neg f (45 :: w) f'
  | icase (neg f w f') : Options false { f with icase := !neg } w f' → Options neg f (105 :: w) f'
  | dot (neg f w f') : Options false { f with dotNotNewline := neg } w f' → Options neg f (115 :: w) f'
  | skip (neg f w f') : Options false { f with skipWs := !neg } w f' → Options neg f (120 :: w) f'

/-- The text of a comment after `(?#`, up to the parenthesis that closes it. -/
inductive Comment : Nat → List Nat → Prop
  | done : Comment 1 [41]
  | opn (n w) : Comment (n + 1) w → Comment n (40 :: w)
  | cls (n w) : Comment (n + 1) w → Comment (n + 2) (41 :: w)
  | other (n c w) : c ≠ 40 → c ≠ 41 → Comment n w → Comment n (c :: w)

/-- `/* ... */`, after the start. -/
inductive CComment : List Nat → Prop
  | done : CComment [42, 47]
  | other (c w) : ¬ (c = 42 ∧ w.head? = some 47) → CComment w → CComment (c :: w)

/-- The text between the braces of `{n}`, `{n,}`, `{n,m}`. -/
inductive Braces : List Nat → Nat → Option Nat → Prop
  | exact (ds) : IsDec ds → 1 ≤ decVal ds → decVal ds < 2 ^ 64 → Braces ds (decVal ds) (some (decVal ds))
  | atLeast (ds) : IsDec ds → decVal ds < 2 ^ 64 → Braces (ds ++ [44]) (decVal ds) none
  | between (ds es) : IsDec ds → IsDec es → decVal ds ≤ decVal es → 1 ≤ decVal es → decVal es < 2 ^ 64 →
      Braces (ds ++ 44 :: es) (decVal ds) (some (decVal es))

/-- The name of a macro: a letter or `_`, then letters, digits, `_`, `-`. -/
def MacroName (name : List Nat) : Prop :=
  (∃ c ∈ name.head?, c = 95 ∨ (65 ≤ c ∧ c ≤ 90) ∨ (97 ≤ c ∧ c ≤ 122)) ∧
  ∀ c ∈ name, c = 95 ∨ c = 45 ∨ Digit c ∨ (65 ≤ c ∧ c ≤ 90) ∨ (97 ≤ c ∧ c ≤ 122)

/-- What is assumed about the environment: characters fit `std::size_t`, the tables are
tables, and the classes of the locale contain none of `-`, `[`, `\\`, `]`, `^`. -/
structure CharsOk (E : TokEnv) : Prop where
  small : E.max < 2 ^ 64
  fold2 : FoldTable E.max E.fold2
  fold4 : FoldTable E.max E.fold4
  first2 : ∀ p ∈ E.fold2, p.1.2 < 0x10000
  up4 : ∀ p ∈ E.fold4, p.2.1 ≤ p.2.2
  classes : ∀ c, (E.isAlnum c || E.isAlpha c || E.isLower c || E.isUpper c) = true → c ∉ [45, 91, 92, 93, 94]

/-- The charset `t` has the members `S`. -/
def IsSet (t : List (Nat × Nat)) (S : Nat → Prop) : Prop := Normal t ∧ ∀ c, Mem c t ↔ S c

/-- `Reads E start f fs b w ls`: the text `w` consists of the lexemes `ls`.  `start`: it
starts at the start of the regex; `f`: the flags; `fs`: for each open parenthesis, the
flags to return to; `b`: inside quotes. -/
inductive Reads (E : TokEnv) : Bool → ReFlags → List ReFlags → Bool → List Nat → List Lx → Prop
  | done (start f) : Reads E start f [] false [] []
  | quote (start f fs b w ls) : Reads E false f fs (!b) w ls → Reads E start f fs b (34 :: w) ls
  /-- `(?#...)` -/
  | comment (start f fs v w ls) : Comment 1 v → Reads E false f fs false w ls →
      Reads E start f fs false (40 :: 63 :: 35 :: v ++ w) ls
  | space (start f fs c w ls) : f.skipWs = true → IsSpace c → Reads E false f fs false w ls →
      Reads E start f fs false (c :: w) ls
  /-- `/*...*/` -/
  | ccomment (start f fs v w ls) : f.skipWs = true → CComment v → Reads E false f fs false w ls →
      Reads E start f fs false (47 :: 42 :: v ++ w) ls
  | atom (start f fs b v S t w ls) : AtomText E f b start v S w → IsSet t S → Reads E false f fs b w ls →
      Reads E start f fs b (v ++ w) (.chars t :: ls)
  /-- `^` at the start, `$` at the end -/
  | bol (f fs w ls) : Reads E false f fs false w ls → Reads E true f fs false (94 :: w) (.bol :: ls)
  | eol (start f fs ls) : Reads E false f fs false [] ls → Reads E start f fs false [36] (.eol :: ls)
  | bar (start f fs w ls) : Reads E false f fs false w ls → Reads E start f fs false (124 :: w) (.bar :: ls)
  | opn (start f fs w ls) : w.head? ≠ some 63 → Reads E false f (f :: fs) false w ls →
      Reads E start f fs false (40 :: w) (.opn :: ls)
  /-- `(?...:` -/
  | opts (start f fs v f' w ls) : Options false f v f' → Reads E false f' (f :: fs) false w ls →
      Reads E start f fs false (40 :: 63 :: v ++ w) (.opn :: ls)
  | cls (start f g fs w ls) : Reads E false g fs false w ls → Reads E start f (g :: fs) false (41 :: w) (.cls :: ls)
  | rep (start f fs v lo hi w ls) : (v, lo, hi) ∈ [([63], 0, some 1), ([42], 0, none), ([43], 1, none)] →
      w.head? ≠ some 63 → Reads E false f fs false w ls → Reads E start f fs false (v ++ w) (.rep lo hi false :: ls)
  | repLazy (start f fs v lo hi w ls) : (v, lo, hi) ∈ [([63], 0, some 1), ([42], 0, none), ([43], 1, none)] →
      Reads E false f fs false w ls → Reads E start f fs false (v ++ 63 :: w) (.rep lo hi true :: ls)
  | count (start f fs v lo hi w ls) : Braces v lo hi → w.head? ≠ some 63 → Reads E false f fs false w ls →
      Reads E start f fs false (123 :: v ++ 125 :: w) (.rep lo hi false :: ls)
  | countLazy (start f fs v lo hi w ls) : Braces v lo hi → Reads E false f fs false w ls →
      Reads E start f fs false (123 :: v ++ 125 :: 63 :: w) (.rep lo hi true :: ls)
  | minus (start f fs w ls) : Reads E false f fs false w ls → Reads E start f fs false (123 :: 45 :: 125 :: w) (.minus :: ls)
  | union (start f fs w ls) : Reads E false f fs false w ls → Reads E start f fs false (123 :: 43 :: 125 :: w) (.union :: ls)
  | mac (start f fs name w ls) : MacroName name → Reads E false f fs false w ls →
      Reads E start f fs false (123 :: name ++ 125 :: w) (.mac name :: ls)

/-! ### Expressions -/

/-- `r` repeated.  `{0,1}`, `{0,}` and `{1,}` are `?`, `*` and `+`. -/
def repeated (r : Re) (lo : Nat) (hi : Option Nat) (lazy : Bool) : Re :=
  if lo = 0 ∧ hi = some 1 then .opt r lazy
  else if lo = 0 ∧ hi = none then .star r lazy
  else if lo = 1 ∧ hi = none then .plus r lazy
  else .rep r lo hi lazy

/-- `SetOf M ls t`: the lexemes are charsets combined by `{-}` and `{+}`, from left to
right, giving `t`.  `M`: the macros and what they mean. -/
inductive SetOf (M : List (List Nat × Re)) : List Lx → List (Nat × Nat) → Prop
  | chars (t) : SetOf M [.chars t] t
  | mac (name t) : find name M = some (.chars t) → SetOf M [.mac name] t
  | minus (ls l t u v) : SetOf M ls t → SetOf M [l] u → IsSet v (fun c => Mem c t ∧ ¬ Mem c u) → v ≠ [] →
      SetOf M (ls ++ [.minus, l]) v
  | union (ls l t u v) : SetOf M ls t → SetOf M [l] u → IsSet v (fun c => Mem c t ∨ Mem c u) →
      SetOf M (ls ++ [.union, l]) v

/-- The regex grammar over lexemes:

    atom ::= charset {"{-}" charset | "{+}" charset} | ^ | $ | ( alt ) | macro
    item ::= atom | atom repetition
    seq  ::= item | seq item
    alt  ::= seq | alt "|" seq
-/
inductive Parses (M : List (List Nat × Re)) : Level → List Lx → Re → Prop
  | set (ls t) : SetOf M ls t → Parses M .atom ls (.chars t)
  | bol : Parses M .atom [.bol] .bol
  | eol : Parses M .atom [.eol] .eol
  | paren (ls r) : Parses M .alt ls r → Parses M .atom (.opn :: ls ++ [.cls]) r
  | mac (name r) : find name M = some r → Parses M .atom [.mac name] r
  | item (ls r) : Parses M .atom ls r → Parses M .item ls r
  | rep (ls r lo hi lz) : Parses M .atom ls r → Parses M .item (ls ++ [.rep lo hi lz]) (repeated r lo hi lz)
  | seq1 (ls r) : Parses M .item ls r → Parses M .seq ls r
  | seq (ls ms l r) : Parses M .seq ls l → Parses M .item ms r → Parses M .seq (ls ++ ms) (.seq l r)
  | alt1 (ls r) : Parses M .seq ls r → Parses M .alt ls r
  | alt (ls ms l r) : Parses M .alt ls l → Parses M .seq ms r → Parses M .alt (ls ++ .bar :: ms) (.alt l r)

/-- The text `w`, with the flags and the macros of the rules object, means `r`. -/
def Means (E : TokEnv) (M : List (List Nat × Re)) (f : ReFlags) (w : List Nat) (r : Re) : Prop :=
  ∃ ls, Reads E true f [] false w ls ∧ Parses M .alt ls r

/-- A charset as rules have it: a non-empty set of characters, in normal form. -/
def SetOk (max : Nat) (t : List (Nat × Nat)) : Prop := Normal t ∧ t ≠ [] ∧ Within max t

/-- The macros of a rules object mean what `M` says.  A macro that means a charset is held
as this charset, so that it can stand next to `{-}` and `{+}`. -/
def MacrosMean (E : TokEnv) (macros : List (List Nat × List Tok)) (M : List (List Nat × Re)) : Prop :=
  ∀ name r, find name M = some r → r.noBol = true ∧ r.noEol = true ∧ r.AllChars (SetOk E.max) ∧
    ∃ m, find name macros = some m ∧ Denotes m (some r) ∧ ∀ t, r = .chars t → m.length = 3

/-- `cs` were called, in this order, on `o`; each of them returned; `o'` is the object
afterwards. -/
inductive AllOk (E : TokEnv) (tr : Traits) : RulesObj → List Call → RulesObj → Prop
  | nil (o) : AllOk E tr o [] o
  | snoc (o cs o' c o'') : AllOk E tr o cs o' → c.run E tr o' = (o'', .ok ()) → AllOk E tr o (cs ++ [c]) o''

/-- A program: calls on a new rules object with these flags that define macros and add
rules, by texts with a meaning.  `M`: what the macros mean; `es`: the expressions of the rules,
their ids and user ids. -/
inductive Program (E : TokEnv) (npos : Nat) (f : ReFlags) : List Call → List (List Nat × Re) → List (Re × Nat × Nat) → Prop
  | nil : Program E npos f [] [] []
  | mac (cs M es name w r) : Program E npos f cs M es → validName name = true → find name M = none → TextOk E w →
      Means E M f w r → r.noBol = true → r.noEol = true →
      Program E npos f (cs ++ [.insertMacro name w]) ((name, r) :: M) es
  | rule (cs M es w r id uid) : Program E npos f cs M es → TextOk E w → Means E M f w r → r.greedy = true → id ≠ 0 → id ≠ npos →
      Program E npos f (cs ++ [.push w id uid]) M (es ++ [(r, id, uid)])

end Lexertl.Spec
