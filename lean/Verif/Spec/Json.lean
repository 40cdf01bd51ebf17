/-
JSON texts (RFC 8259), as code points, and their tokens, as the JSON example numbers them.
-/
namespace Lexertl.Spec.Json

/-- White space. -/
def Ws (w : List Nat) : Prop := ∀ c ∈ w, c = 32 ∨ c = 9 ∨ c = 13 ∨ c = 10

def Digits (w : List Nat) : Prop := ∀ c ∈ w, 48 ≤ c ∧ c ≤ 57

def Hex (c : Nat) : Prop := (48 ≤ c ∧ c ≤ 57) ∨ (97 ≤ c ∧ c ≤ 102) ∨ (65 ≤ c ∧ c ≤ 70)

/-- What stands between the quotes: characters from the space on, apart from the quote (34) and
the backslash (92); a backslash with one of `"`, `\`, `/`, `b`, `f`, `n`, `r`, `t`; a
backslash with `u` and four hexadecimal digits. -/
inductive StrBody : List Nat → Prop
  | nil : StrBody []
  | char (c w) : 32 ≤ c → c ≤ 0x10ffff → c ≠ 34 → c ≠ 92 → StrBody w → StrBody (c :: w)
  | esc (c w) : c ∈ [34, 92, 47, 98, 102, 110, 114, 116] → StrBody w → StrBody (92 :: c :: w)
  | uni (a b c d w) : Hex a → Hex b → Hex c → Hex d → StrBody w → StrBody (92 :: 117 :: a :: b :: c :: d :: w)

/-- A number: an optional `-`, an integer without superfluous zeros, an optional fraction, an
optional exponent. -/
def IsNumber (w : List Nat) : Prop :=
  ∃ s i f e, w = s ++ i ++ f ++ e ∧ (s = [] ∨ s = [45]) ∧
    (i = [48] ∨ ∃ d ds, 49 ≤ d ∧ d ≤ 57 ∧ Digits ds ∧ i = d :: ds) ∧
    (f = [] ∨ ∃ ds, ds ≠ [] ∧ Digits ds ∧ f = 46 :: ds) ∧
    (e = [] ∨ ∃ m s ds, (m = 101 ∨ m = 69) ∧ (s = [] ∨ s = [43] ∨ s = [45]) ∧ ds ≠ [] ∧ Digits ds ∧ e = m :: (s ++ ds))

/-- A token: its number and its text.  1: string (without the quotes), 2: number, 3: `true` or
`false`, 4: `{`, 5: name of a member (with the quotes), 6: `}`, 7: `[`, 8: `]`, 9: `null`. -/
abbrev Tok := Nat × List Nat

inductive Kind
  | value
  | members
  | elements
  deriving DecidableEq, Repr

/-- `Txt kind w ts`: the text `w` is a value, or are the members of an object, or the elements
of an array, with the white space around them; `ts`: its tokens. -/
inductive Txt : Kind → List Nat → List Tok → Prop
  | string (b) : StrBody b → Txt .value (34 :: b ++ [34]) [(1, b)]
  | number (w) : IsNumber w → Txt .value w [(2, w)]
  | true : Txt .value [116, 114, 117, 101] [(3, [116, 114, 117, 101])]
  | false : Txt .value [102, 97, 108, 115, 101] [(3, [102, 97, 108, 115, 101])]
  | null : Txt .value [110, 117, 108, 108] [(9, [110, 117, 108, 108])]
  | noMembers (s) : Ws s → Txt .value (123 :: s ++ [125]) [(4, [123]), (6, [125])]
  | object (w ts) : Txt .members w ts → Txt .value (123 :: w ++ [125]) ((4, [123]) :: ts ++ [(6, [125])])
  | noElements (s) : Ws s → Txt .value (91 :: s ++ [93]) [(7, [91]), (8, [93])]
  | array (w ts) : Txt .elements w ts → Txt .value (91 :: w ++ [93]) ((7, [91]) :: ts ++ [(8, [93])])
  | member (s b t u v ts x) : Ws s → StrBody b → Ws t → Ws u → Txt .value v ts → Ws x →
      Txt .members (s ++ (34 :: b ++ [34]) ++ t ++ 58 :: u ++ v ++ x) ((5, 34 :: b ++ [34]) :: ts)
  | moreMembers (s b t u v ts x w ts') : Ws s → StrBody b → Ws t → Ws u → Txt .value v ts → Ws x → Txt .members w ts' →
      Txt .members (s ++ (34 :: b ++ [34]) ++ t ++ 58 :: u ++ v ++ x ++ 44 :: w) ((5, 34 :: b ++ [34]) :: ts ++ ts')
  | element (s v ts x) : Ws s → Txt .value v ts → Ws x → Txt .elements (s ++ v ++ x) ts
  | moreElements (s v ts x w ts') : Ws s → Txt .value v ts → Ws x → Txt .elements w ts' →
      Txt .elements (s ++ v ++ x ++ 44 :: w) (ts ++ ts')

/-- A text consisting of an object or an array, with white space around it, and its tokens. -/
def Document (w : List Nat) (ts : List Tok) : Prop :=
  ∃ s v t, Ws s ∧ Ws t ∧ (v.head? = some 123 ∨ v.head? = some 91) ∧ Txt .value v ts ∧ w = s ++ v ++ t

end Lexertl.Spec.Json
