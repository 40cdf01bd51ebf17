import Verif.Model.Parser

/-
Model of `parser/tokeniser/re_tokeniser.hpp`, `re_tokeniser_helper.hpp` and
`re_tokeniser_state.hpp`: from the text of a regex to its tokens.

Characters of rule texts and of the input are the same naturals (`rules_char_type` and
`input_char_type` are the same type, as in `rules`, `wrules` and `u32rules`; a `char` is
taken as unsigned, which the code does wherever it matters).  The position `_curr` is the
list of characters from there to `_end`; reading `*_curr` at `_end` gives the terminator 0
of the string, incrementing `_curr` there is undefined.  `std::size_t` has 64 bits.
Error messages leave out the position and the rule.
-/
namespace Lexertl

/-- enums.hpp:13-17 `regex_flags`, one field per bit. -/
structure ReFlags where
  icase : Bool := false
  dotNotNewline : Bool := true
  dotNotCrLf : Bool := false
  skipWs : Bool := false
  matchZeroLen : Bool := false
  allowSuppressed : Bool := false
  deriving DecidableEq, Repr

/-- re_tokeniser_helper.hpp:425-435 `fold_pair`: `from`, `to`. -/
abbrev FoldPair := (Nat × Nat) × (Nat × Nat)

/-- What the tokeniser depends on besides the text: the character type (`max` is
`char_traits::max_val()`, `size` is `sizeof(input_char_type)`), the locale (`std::toupper`,
`std::tolower` and the classes of `std::ctype`), the case folding tables (`fold2.inc`,
`fold4.inc`) and the Unicode property tables (`table.inc`: name to text of a charset). -/
structure TokEnv where
  max : Nat
  size : Nat
  upper : Nat → Nat
  lower : Nat → Nat
  isAlnum : Nat → Bool
  isAlpha : Nat → Bool
  isLower : Nat → Bool
  isUpper : Nat → Bool
  fold2 : List FoldPair
  fold4 : List FoldPair
  unicode : List Nat → Option (List Nat)

/-- The characters of a string literal. -/
def chars (s : String) : List Nat := s.toList.map Char.toNat

def throw_ {α : Type} (what : String) : M α := .error (.throw what)

/-- re_tokeniser_helper.hpp:211-238 `fold`, `sizeof(char_type) == 1`. -/
def foldOne (E : TokEnv) (r : Range) : Token :=
  (List.range' r.1 (r.2 + 1 - r.1)).foldl (fun out c =>
    let out := if E.upper c ≠ c then out.insert (E.upper c, E.upper c) else out
    if E.lower c ≠ c then out.insert (E.lower c, E.lower c) else out) []

/-- re_tokeniser_helper.hpp:240-312: the loop of `fold`, `sizeof(char_type) == 2`. -/
def foldTwo (r : Range) : List FoldPair → Token → Token
  | [], out => out
  | ((f1, f2), (t1, t2)) :: ps, out =>
    if r.2 < f1 then out
    else
      let (lo, hi) := if t1 ≤ t2 then (t1, t2) else (t2, t1)
      if f1 ≤ r.1 ∧ r.1 ≤ f2 then
        foldTwo r ps (out.insert (lo + (r.1 - f1), if r.2 > f2 then hi else lo + (r.2 - f1)))
      else if f1 ≤ r.2 ∧ r.2 ≤ f2 then foldTwo r ps (out.insert (lo, lo + (r.2 - f1)))
      else if r.1 ≤ f1 ∧ f1 ≤ r.2 then foldTwo r ps (out.insert (lo, hi))
      else foldTwo r ps out

/-- re_tokeniser_helper.hpp:322-356: the loop of `fold`, `sizeof(char_type) == 4`. -/
def foldFour (r : Range) : List FoldPair → Token → Token
  | [], out => out
  | ((f1, f2), (t1, t2)) :: ps, out =>
    if r.2 < f1 then out
    else if f1 ≤ r.1 ∧ r.1 ≤ f2 then
      foldFour r ps (out.insert (t1 + (r.1 - f1), if r.2 > f2 then t2 else t1 + (r.2 - f1)))
    else if f1 ≤ r.2 ∧ r.2 ≤ f2 then foldFour r ps (out.insert (t1, t1 + (r.2 - f1)))
    else if r.1 ≤ f1 ∧ f1 ≤ r.2 then foldFour r ps (out.insert (t1, t2))
    else foldFour r ps out

/-- re_tokeniser_helper.hpp:211-357 `fold`, by `sizeof(char_type)`. -/
def foldRange (E : TokEnv) (r : Range) : Token :=
  if E.size = 1 then foldOne E r
  else if E.size = 2 then foldTwo r E.fold2 []
  else foldFour r E.fold4 (if r.1 < 0x10000 then foldTwo r E.fold2 [] else [])

/-- re_tokeniser.hpp:463-483 `add_char`; re_tokeniser_helper.hpp:174-192, 1468-1487: insert a
range and, ignoring case, its other case. -/
def addRange (E : TokEnv) (icase : Bool) (r : Range) (t : Token) : Token :=
  let t := t.insert r
  if icase then t.insertToken (foldRange E r) else t

def isDigit (c : Nat) : Bool := 48 ≤ c && c ≤ 57
def isOctal (c : Nat) : Bool := 48 ≤ c && c ≤ 55
def isHex (c : Nat) : Bool := (48 ≤ c && c ≤ 57) || (97 ≤ c && c ≤ 102) || (65 ≤ c && c ≤ 70)
def hexValue (c : Nat) : Nat := if c ≤ 57 then c - 48 else if 97 ≤ c then 10 + (c - 97) else 10 + (c - 65)

/-- re_tokeniser_helper.hpp:1211-1228: the loop of `decode_octal`; `count` digits may still
follow. -/
def octalLoop : Nat → Nat → List Nat → Nat × List Nat
  | 0, oct, cs => (oct, cs)
  | _ + 1, oct, [] => (oct, [])
  | count + 1, oct, c :: cs => if isOctal c then octalLoop count (oct * 8 + (c - 48)) cs else (oct, c :: cs)

/-- re_tokeniser_helper.hpp:1203-1242 `decode_octal`; the first digit has been checked. -/
def decodeOctal (E : TokEnv) : List Nat → M (Nat × List Nat)
  | [] => .error (.ub "decode_octal at the end")
  | c :: cs =>
    let (oct, cs) := octalLoop 2 (c - 48) cs
    if oct > E.max then throw_ "Escape is too big for the state machine char type" else .ok (oct, cs)

/-- re_tokeniser_helper.hpp:1244-1289 `decode_control_char`, after the `c`. -/
def decodeControl : List Nat → M (Nat × List Nat)
  | [] => throw_ "Unexpected end of regex following \\c"
  | c :: cs =>
    if 97 ≤ c ∧ c ≤ 122 then .ok (c - 96, cs)
    else if 65 ≤ c ∧ c ≤ 90 then .ok (c - 64, cs)
    else if c = 64 then .ok (0, cs)
    else throw_ "Invalid control char"

/-- re_tokeniser_helper.hpp:1323-1360: the loop of `decode_hex`.  `hex_` is a
`std::size_t`. -/
def hexLoop : Nat → List Nat → Nat × List Nat
  | hex, [] => (hex, [])
  | hex, c :: cs => if isHex c then hexLoop ((hex * 16 + hexValue c) % 2 ^ 64) cs else (hex, c :: cs)

/-- re_tokeniser_helper.hpp:1291-1375 `decode_hex`, after the `x`. -/
def decodeHex (E : TokEnv) : List Nat → M (Nat × List Nat)
  | [] => throw_ "Unexpected end of regex following \\x"
  | c :: cs =>
    if isHex c then
      let (hex, cs) := hexLoop (hexValue c) cs
      if hex > E.max then throw_ "Escape is too big for the state machine char type" else .ok (hex, cs)
    else throw_ "Illegal char following \\x"

/-- re_tokeniser_helper.hpp:359-422 `chr`. -/
def escChar (E : TokEnv) : List Nat → M (Nat × List Nat)
  | [] => .error (.ub "chr at the end")
  | c :: cs =>
    if isOctal c then decodeOctal E (c :: cs)
    else if c = 97 then .ok (7, cs)           -- a
    else if c = 98 then .ok (8, cs)           -- b
    else if c = 99 then decodeControl cs      -- c
    else if c = 101 then .ok (27, cs)         -- e
    else if c = 102 then .ok (12, cs)         -- f
    else if c = 110 then .ok (10, cs)         -- n
    else if c = 114 then .ok (13, cs)         -- r
    else if c = 116 then .ok (9, cs)          -- t
    else if c = 118 then .ok (11, cs)         -- v
    else if c = 120 then decodeHex E cs       -- x
    else .ok (c, cs)

/-- re_tokeniser_helper.hpp:1149-1152: the characters before the next `}`, and from it on. -/
def toBrace : List Nat → List Nat × List Nat
  | [] => ([], [])
  | c :: cs => if c = 125 then ([], c :: cs) else let (a, b) := toBrace cs; (c :: a, b)

/-- re_tokeniser_helper.hpp:1105-1197 `unicode_escape`, after the `p`; the position is left
at the `}`. -/
def unicodeEscape (E : TokEnv) (cs : List Nat) : M (List Nat × List Nat) :=
  match cs with
  | [] => throw_ "Unexpected end of regex following \\p"
  | c :: cs =>
    if c ≠ 123 then throw_ "Missing '{' following \\p"
    else
      match cs with
      | [] => throw_ "Unexpected end of regex following \\p{"
      | c :: cs =>
        -- the first character of the name is not compared with `}`
        let (name, cs) := toBrace cs
        match cs with
        | [] => throw_ "Unexpected end of regex following \\p{"
        | _ :: _ =>
          match E.unicode (c :: name) with
          | some str => .ok (str, cs)
          | none => throw_ "Syntax error following \\p{"

/-- re_tokeniser_helper.hpp:1057-1103 `charset_shortcut`: the text of the charset; the
position is left at the last character of the shortcut. -/
def shortcut (E : TokEnv) : List Nat → M (Option (List Nat) × List Nat)
  | [] => .error (.ub "charset_shortcut at the end")
  | c :: cs =>
    if c = 100 then .ok (some (chars "[0-9]"), c :: cs)
    else if c = 68 then .ok (some (chars "[^0-9]"), c :: cs)
    else if c = 112 then do
      let (str, cs) ← unicodeEscape E cs
      .ok (some str, cs)
    else if c = 115 then .ok (some [91, 32, 9, 10, 13, 12, 11, 93], c :: cs)
    else if c = 83 then .ok (some [91, 94, 32, 9, 10, 13, 12, 11, 93], c :: cs)
    else if c = 119 then .ok (some (chars "[_0-9A-Za-z]"), c :: cs)
    else if c = 87 then .ok (some (chars "[^_0-9A-Za-z]"), c :: cs)
    else .ok (none, c :: cs)

/-- What an escape sequence stands for. -/
inductive Esc
  | text (str : List Nat)
  | char (c : Nat)
  deriving DecidableEq, Repr

/-- re_tokeniser_helper.hpp:52-79 `escape_sequence`, after the backslash. -/
def escapeSeq (E : TokEnv) (cs : List Nat) : M (Esc × List Nat) :=
  if cs = [] then throw_ "Unexpected end of regex following '\\'"
  else do
    let (str, cs) ← shortcut E cs
    match str with
    | some str =>
      match cs with
      | [] => .error (.ub "increment at the end")
      | _ :: cs => .ok (.text str, cs)
    | none => do
      let (c, cs) ← escChar E cs
      .ok (.char c, cs)

/-- `cs` without the prefix `p`. -/
def stripPrefix : List Nat → List Nat → Option (List Nat)
  | [], cs => some cs
  | _ :: _, [] => none
  | p :: ps, c :: cs => if p = c then stripPrefix ps cs else none

/-- re_tokeniser_helper.hpp:582-614, 772-787, 933-948 `make_alnum` and the like, for locales
that do not put the character 0 in a class (it would end the text). -/
def classText (is : Nat → Bool) : List Nat := [91] ++ (List.range' 1 255).filter is ++ [93]

/-- re_tokeniser_helper.hpp:505-978: the names of POSIX charsets and the texts of their
charsets, for narrow and wide characters. -/
def posixTexts (E : TokEnv) : List (List Nat × List Nat) :=
  if E.size = 1 then
    [(chars "alnum", classText E.isAlnum), (chars "alpha", classText E.isAlpha),
     (chars "blank", [91, 32, 9, 93]), (chars "cntrl", chars "[\\x00-" ++ [31, 127, 93]),
     (chars "digit", chars "[0-9]"), (chars "graph", [91, 33, 45, 126, 93]),
     (chars "lower", classText E.isLower), (chars "print", [91, 32, 45, 126, 93]),
     (chars "punct", chars "[!\"#$%&'()*+,\\-./:;<=>?@[\\\\\\]^_`{|}~]"),
     (chars "space", [91, 32, 9, 13, 10, 11, 12, 93]), (chars "upper", classText E.isUpper),
     (chars "xdigit", chars "[0-9A-Fa-f]")]
  else
    [(chars "alnum", chars "[\\p{Ll}\\p{Lu}\\p{Nd}]"), (chars "alpha", chars "[\\p{Ll}\\p{Lu}]"),
     (chars "blank", chars "[\\p{Zs}" ++ [9, 93]), (chars "cntrl", chars "[\\p{Cc}]"),
     (chars "digit", chars "[\\p{Nd}]"), (chars "graph", chars "[^\\p{Z}\\p{C}]"),
     (chars "lower", chars "[\\p{Ll}]"), (chars "print", chars "[\\p{C}]"),
     (chars "punct", chars "[\\p{P}\\p{S}]"), (chars "space", chars "[\\p{Z}" ++ [9, 13, 10, 11, 12, 93]),
     (chars "upper", chars "[\\p{Lu}]"), (chars "xdigit", chars "[0-9A-Fa-f]")]

/-- The first name that starts the text. -/
def posixName : List (List Nat × List Nat) → List Nat → Option (List Nat × List Nat)
  | [], _ => none
  | (name, str) :: ps, cs =>
    match stripPrefix name cs with
    | some cs => some (str, cs)
    | none => posixName ps cs

/-- re_tokeniser_helper.hpp:437-503 `posix` up to `insert_charset`, after `[:`, and 980-1014
`check_posix_termination`: text of the charset, whether it is negated, and the text after
`:]`.  The code compares the names character by character; no name is a prefix of
another. -/
def posixClass (E : TokEnv) (cs : List Nat) : M (List Nat × Bool × List Nat) :=
  let (neg, cs) := match cs with
    | 94 :: cs => (true, cs)
    | cs => (false, cs)
  if cs = [] then throw_ "Unexpected end of regex (unterminated POSIX charset)"
  else
    match posixName (posixTexts E) cs with
    | none => throw_ "Unknown POSIX charset"
    | some (str, cs) =>
      match cs with
      | [] => throw_ "Unexpected end of regex (unterminated POSIX charset)"
      | c :: cs =>
        if c ≠ 58 then throw_ "Missing ':'"
        else
          match cs with
          | [] => throw_ "Unexpected end of regex (unterminated POSIX charset)"
          | c :: cs => if c ≠ 93 then throw_ "Missing ']'" else .ok (str, neg, cs)

/-- re_tokeniser_helper.hpp:1377-1488 `charset_range`, after the `-`: the new charset and
the text from the character after the range on. -/
def charsetRange (E : TokEnv) (icase chset : Bool) (prev : Nat) (t : Token) (cs : List Nat) :
    M (Token × List Nat) :=
  if chset then throw_ "Charset cannot form start of range"
  else
    match cs with
    | [] => throw_ "Unexpected end of regex following '-'"
    | c :: cs => do
      let (curr, cs) ←
        if c = 92 then do
          let (e, cs) ← escapeSeq E cs
          match e with
          | .text _ => throw_ "Charset cannot form end of range"
          | .char c => .ok (c, cs)
        else if c = 91 ∧ cs.head? = some 58 then throw_ "POSIX char class cannot form end of range"
        else .ok (c, cs)
      if cs = [] then throw_ "Unexpected end of regex (missing ']')"
      else if curr < prev then throw_ "Max less than Min in charset range"
      else .ok (addRange E icase (prev, curr) t, cs)

/-- re_tokeniser_helper.hpp:118-193: the loop of `charset`.  The list starts with the
character `ch_`; `sub` reads the charsets that escape sequences and POSIX names stand for;
`n` bounds the number of rounds.  The result is the text after the `]`. -/
def charsetLoop (E : TokEnv) (icase : Bool) (sub : List Nat → M Token) : Nat → Token → List Nat → M (Token × List Nat)
  | 0, _, _ => .error .fuel
  | _ + 1, _, [] => .error (.ub "charset at the end")
  | n + 1, t, c :: cs => do
    let (chset, prev, t, cs) ←
      if c = 92 then do
        let (e, cs) ← escapeSeq E cs
        match e with
        | .text str => do
          let temp ← sub str.tail
          .ok (true, 0, t.insertToken temp, cs)
        | .char c => .ok (false, c, t, cs)
      else if c = 91 ∧ cs.head? = some 58 then do
        let (str, neg, cs) ← posixClass E cs.tail
        let temp ← sub str.tail
        .ok (true, 0, t.insertToken (if neg then temp.negate E.max else temp), cs)
      else .ok (false, c, t, cs)
    match cs with
    | [] => throw_ "Unexpected end of regex (missing ']')"
    | c :: cs => do
      let (t, cs) ←
        -- `*_curr` is the terminator at the end
        if c = 45 ∧ cs.headD 0 ≠ 93 then charsetRange E icase chset prev t cs
        else if chset then .ok (t, c :: cs)
        else .ok (addRange E icase (prev, prev) t, c :: cs)
      match cs with
      | [] => .error (.ub "charset at the end")
      | c :: cs' => if c ≠ 93 then charsetLoop E icase sub n t (c :: cs') else .ok (t, cs')

/-- re_tokeniser_helper.hpp:81-209 `charset`, after the `[`; `depth` bounds the nesting of
charsets standing for charsets. -/
def charset (E : TokEnv) (icase : Bool) : Nat → List Nat → M (Token × List Nat)
  | 0, _ => .error .fuel
  | depth + 1, cs =>
    match cs with
    | [] => throw_ "Unexpected end of regex following '['"
    | c :: cs' => do
      let cs ←
        if c = 94 then
          if cs' = [] then throw_ "Unexpected end of regex following '^'" else .ok cs'
        else .ok (c :: cs')
      let (t, rest) ← charsetLoop E icase (fun str => do let (t, _) ← charset E icase depth str; .ok t)
        (cs.length + 1) [] cs
      let t := if c = 94 then t.negate E.max else t
      if t = [] then throw_ "Empty charset not allowed" else .ok (t, rest)

/-- More than the nesting depth of the charsets in `posixTexts` and `unicode.hpp`. -/
def charsetDepth : Nat := 8

/-- re_tokeniser_state.hpp:19-33, without `_id`, `_locale` and `_macro_name`.  `len` is
`_end - _start`, `rest` the text from `_curr` on. -/
structure TkState where
  len : Nat
  rest : List Nat
  flags : ReFlags
  flagsStack : List ReFlags := []
  parens : Nat := 0
  inString : Bool := false
  deriving DecidableEq, Repr

/-- A token of re_token.hpp, or a `DIFF` token with its character. -/
inductive Lexeme
  | tok (t : Tok)
  | diff (c : Nat)
  deriving DecidableEq, Repr

/-- re_tokeniser.hpp:43-47: the `"` signs at the start of the text; whether inside a
string. -/
def quotes : Bool → List Nat → Bool × List Nat
  | b, [] => (b, [])
  | b, c :: cs => if c = 34 then quotes (!b) cs else (b, c :: cs)

/-- re_tokeniser.hpp:254-286: the rest of a comment, after the `(?#`. -/
def commentEnd : Nat → List Nat → M (List Nat)
  | _, [] => throw_ "Unexpected end of regex (unterminated comment)"
  | n, c :: cs =>
    if c = 40 then commentEnd (n + 1) cs
    else if c = 41 then if n = 1 then .ok cs else commentEnd (n - 1) cs
    else commentEnd n cs

/-- re_tokeniser.hpp:246-292 `comment`; the list starts with `ch_`. -/
def comment (inString : Bool) (cs : List Nat) : M (Bool × List Nat) :=
  match cs with
  | 40 :: 63 :: 35 :: cs' =>
    if inString then .ok (false, cs)
    else do
      let cs ← commentEnd 1 cs'
      .ok (true, cs)
  | cs => .ok (false, cs)

/-- re_tokeniser.hpp:312-337: the rest of a C comment, after its start. -/
def cCommentEnd : List Nat → M (List Nat)
  | [] => throw_ "Unexpected end of regex (unterminated C style comment)"
  | c :: cs => if c = 42 ∧ cs.head? = some 47 then .ok cs.tail else cCommentEnd cs

def isWs (c : Nat) : Bool := c = 32 || c = 9 || c = 10 || c = 13 || c = 12 || c = 11

/-- re_tokeniser.hpp:304-346: the loop of `skip`; `n` bounds the number of rounds. -/
def skipLoop : Nat → Bool → List Nat → M (Bool × List Nat)
  | 0, _, _ => .error .fuel
  | _ + 1, skipped, [] => .ok (skipped, [])
  | n + 1, skipped, c :: cs =>
    if c = 47 ∧ cs.head? = some 42 then do
      let cs ← cCommentEnd cs.tail
      skipLoop n true cs
    else if isWs c then skipLoop n true cs
    else .ok (skipped, c :: cs)

/-- re_tokeniser.hpp:294-350 `skip`. -/
def skip (flags : ReFlags) (inString : Bool) (cs : List Nat) : M (Bool × List Nat) :=
  if flags.skipWs ∧ inString = false then skipLoop (cs.length + 1) false cs else .ok (false, cs)

/-- re_tokeniser.hpp:34-58: the loop at the start of `next`; whether inside a string, and
the text from the first character of the token on. -/
def leadIn (flags : ReFlags) : Nat → Bool → List Nat → M (Bool × List Nat)
  | 0, _, _ => .error .fuel
  | n + 1, b, cs => do
    let (b, cs) := quotes b cs
    if cs = [] then .ok (b, cs)
    else do
      let (s1, cs) ← comment b cs
      if cs = [] then .ok (b, cs)
      else do
        let (s2, cs) ← skip flags b cs
        if cs ≠ [] ∧ (s1 || s2) then leadIn flags n b cs else .ok (b, cs)

/-- re_tokeniser.hpp:364-433: the loop of `read_options` (not `_WIN32`), after `(?`: flags and rest. -/
def readOptions : Bool → ReFlags → List Nat → M (ReFlags × List Nat)
  | _, f, [] => .ok (f, [])
  | neg, f, c :: cs =>
    if c = 58 then .ok (f, cs)
    else if c = 45 then readOptions (!neg) f cs
    else if c = 105 then readOptions false { f with icase := !neg } cs
    else if c = 115 then readOptions false { f with dotNotNewline := neg } cs
    else if c = 120 then readOptions false { f with skipWs := !neg } cs
    else throw_ "Unknown option"

/-- A token without text, followed by an optional `?` (re_tokeniser.hpp:135-170 and
702-735). -/
def lazyTok (greedy lazy_ : TT) (extra : List Nat) (cs : List Nat) : Tok × List Nat :=
  match cs with
  | 63 :: cs => (⟨lazy_, extra, []⟩, cs)
  | cs => (⟨greedy, extra, []⟩, cs)

/-- re_tokeniser.hpp:564-570, 631-637: a number, its digits and the rest. -/
def number : Nat → List Nat → Nat × List Nat × List Nat
  | n, [] => (n, [], [])
  | n, c :: cs =>
    if isDigit c then
      let (m, ds, cs) := number ((n * 10 + (c - 48)) % 2 ^ 64) cs
      (m, c :: ds, cs)
    else (n, [], c :: cs)

/-- re_tokeniser.hpp:547-736 `repeat_n`, after the `{`. -/
def repeatN (cs : List Nat) : M (Tok × List Nat) :=
  let (min, d1, cs) := number 0 cs
  match cs with
  | [] => throw_ "Unexpected end of regex (missing repeat terminator '}')"
  | c :: cs =>
    if c = 44 then
      match cs with
      | [] => throw_ "Unexpected end of regex (missing repeat terminator '}')"
      | c :: cs =>
        if c = 125 then
          if min = 0 then .ok (lazyTok .zeroormore .azeroormore (d1 ++ [44]) cs)
          else if min = 1 then .ok (lazyTok .oneormore .aoneormore (d1 ++ [44]) cs)
          else .ok (lazyTok .repeatn .arepeatn (d1 ++ [44]) cs)
        else if isDigit c = false then throw_ "Missing repeat terminator '}'"
        else
          let (max, d2, cs) := number 0 (c :: cs)
          match cs with
          | [] => throw_ "Unexpected end of regex (missing repeat terminator '}')"
          | c :: cs =>
            if c ≠ 125 then throw_ "Missing repeat terminator '}'"
            else if min = 0 ∧ max = 1 then .ok (lazyTok .opt .aopt (d1 ++ [44] ++ d2) cs)
            else if min = max then
              if min = 0 then throw_ "Cannot have exactly zero repeats"
              else .ok (lazyTok .repeatn .arepeatn d1 cs)
            else if max < min then
              throw_ "Max less than min"
            else .ok (lazyTok .repeatn .arepeatn (d1 ++ [44] ++ d2) cs)
    else if c ≠ 125 then throw_ "Missing repeat terminator '}'"
    else if min = 0 then throw_ "Cannot have exactly zero repeats"
    else .ok (lazyTok .repeatn .arepeatn d1 cs)

def isLetter (c : Nat) : Bool := c = 95 || (65 ≤ c && c ≤ 90) || (97 ≤ c && c ≤ 122)

def isNameChar (c : Nat) : Bool := isLetter c || c = 45 || isDigit c

/-- re_tokeniser.hpp:755-773: the rest of a macro name, and what follows it. -/
def macroName : List Nat → List Nat × List Nat
  | [] => ([], [])
  | c :: cs => if isNameChar c then let (a, b) := macroName cs; (c :: a, b) else ([], c :: cs)

/-- re_tokeniser.hpp:738-786 `macro`, after the `{`. -/
def macroTok (cs : List Nat) : M (Tok × List Nat) :=
  match cs with
  | [] => throw_ "Invalid MACRO name"
  | c :: cs =>
    if isLetter c = false then throw_ "Invalid MACRO name"
    else
      let (name, cs) := macroName cs
      match cs with
      | [] => throw_ "Unexpected end of regex (missing MACRO name terminator '}')"
      | d :: cs =>
        if d ≠ 125 then throw_ "Missing MACRO name terminator '}'" else .ok (⟨.macro_, c :: name, []⟩, cs)

/-- re_tokeniser.hpp:485-545 `open_curly`, after the `{`; `lhs` is the type of the previous
token. -/
def openCurly (lhs : TT) (cs : List Nat) : M (Lexeme × List Nat) :=
  match cs with
  | [] => throw_ "Unexpected end of regex (missing '}')"
  | c :: cs' =>
    if c = 45 ∨ c = 43 then
      if lhs ≠ .charset then throw_ "CHARSET must precede {"
      else
        match cs' with
        | [] => throw_ "Unexpected end of regex (missing '}')"
        | d :: cs => if d ≠ 125 then throw_ "Missing '}'" else .ok (.diff c, cs)
    else if isDigit c then do
      let (t, cs) ← repeatN cs
      .ok (.tok t, cs)
    else do
      let (t, cs) ← macroTok cs
      .ok (.tok t, cs)

/-- re_tokeniser.hpp:443-461 `escape`, after the backslash: charset and rest. -/
def escapeTok (E : TokEnv) (icase : Bool) (cs : List Nat) : M (Token × List Nat) := do
  let (e, cs) ← escapeSeq E cs
  match e with
  | .text str => do
    let (t, _) ← charset E icase charsetDepth str.tail
    .ok (t, cs)
  | .char c => .ok (addRange E icase (c, c) [], cs)

/-- re_tokeniser.hpp:201-218: the charset of `.`. -/
def dotSet (E : TokEnv) (f : ReFlags) : Token :=
  let t : Token :=
    if f.dotNotNewline then Token.insert [] (10, 10)
    else if f.dotNotCrLf then Token.insert (Token.insert [] (10, 10)) (13, 13)
    else []
  t.negate E.max

/-- re_tokeniser.hpp:32-241 `next`, with 352-441 `read_options`. -/
def TkState.next (E : TokEnv) (lhs : TT) (s : TkState) : M (Lexeme × TkState) := do
  let (b, cs) ← leadIn s.flags (s.rest.length + 2) s.inString s.rest
  let s := { s with inString := b, rest := cs }
  match cs with
  | [] =>
    if s.inString then throw_ "Unexpected end of regex (missing '\"')"
    else if s.parens ≠ 0 then throw_ "Unexpected end of regex (missing ')')"
    else .ok (.tok ⟨.end_, [], []⟩, s)
  | c :: cs =>
    let s := { s with rest := cs }
    if c = 92 then do
      let (t, cs) ← escapeTok E s.flags.icase cs
      .ok (.tok ⟨.charset, [], t⟩, { s with rest := cs })
    else if s.inString then .ok (.tok ⟨.charset, [], addRange E s.flags.icase (c, c) []⟩, s)
    else if c = 40 then
      match cs with
      | 63 :: cs => do
        let (f, cs) ← readOptions false s.flags cs
        .ok (.tok ⟨.openparen, [], []⟩,
          { s with parens := s.parens + 1, flags := f, flagsStack := s.flags :: s.flagsStack, rest := cs })
      | _ => .ok (.tok ⟨.openparen, [], []⟩,
          { s with parens := s.parens + 1
                   flagsStack := if s.flagsStack = [] then [] else s.flags :: s.flagsStack })
    else if c = 41 then
      if s.parens = 0 then throw_ "Number of open parenthesis < 0"
      else
        match s.flagsStack with
        | [] => .ok (.tok ⟨.closeparen, [], []⟩, { s with parens := s.parens - 1 })
        | f :: fs => .ok (.tok ⟨.closeparen, [], []⟩, { s with parens := s.parens - 1, flags := f, flagsStack := fs })
    else if c = 63 then
      let (t, cs) := lazyTok .opt .aopt [] cs
      .ok (.tok t, { s with rest := cs })
    else if c = 42 then
      let (t, cs) := lazyTok .zeroormore .azeroormore [] cs
      .ok (.tok t, { s with rest := cs })
    else if c = 43 then
      let (t, cs) := lazyTok .oneormore .aoneormore [] cs
      .ok (.tok t, { s with rest := cs })
    else if c = 123 then do
      let (t, cs) ← openCurly lhs cs
      .ok (t, { s with rest := cs })
    else if c = 124 then .ok (.tok ⟨.or_, [], []⟩, s)
    else if c = 94 then
      if cs.length + 1 = s.len then .ok (.tok ⟨.bol, [], []⟩, s)
      else .ok (.tok ⟨.charset, [], Token.insert [] (c, c)⟩, s)
    else if c = 36 then
      if cs = [] then .ok (.tok ⟨.eol, [], []⟩, s)
      else .ok (.tok ⟨.charset, [], Token.insert [] (c, c)⟩, s)
    else if c = 46 then .ok (.tok ⟨.charset, [], dotSet E s.flags⟩, s)
    else if c = 91 then do
      let (t, cs) ← charset E s.flags.icase charsetDepth cs
      .ok (.tok ⟨.charset, [], t⟩, { s with rest := cs })
    else if c = 47 then throw_ "Lookahead ('/') is not supported yet"
    else .ok (.tok ⟨.charset, [], addRange E s.flags.icase (c, c) []⟩, s)

end Lexertl
