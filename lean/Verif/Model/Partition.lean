import Verif.Model.Basic
import Verif.Model.StringToken

/-
Model of `partition/charset.hpp`, `partition/equivset.hpp` and of the two
splitting loops of `generator.hpp` that use them.
-/
namespace Lexertl

/-- partition/charset.hpp:20-38 `basic_charset`. -/
structure Charset where
  token : Token
  indexSet : List Nat
  deriving DecidableEq, Repr

namespace Charset

/-- charset.hpp:35-38 `empty`. -/
def isEmpty (c : Charset) : Bool := c.token.isEmpty && c.indexSet.isEmpty

/-- charset.hpp:40-61 `intersect` with a default constructed `overlap_` (as at
generator.hpp:800): new `*this`, `rhs_`, `overlap_`. -/
def intersect (l r : Charset) : Option (Charset × Charset × Charset) :=
  match Token.intersect l.token r.token [] with
  | none => none
  | some (lt, rt, ot) =>
    if ot.isEmpty then some (⟨lt, l.indexSet⟩, ⟨rt, r.indexSet⟩, ⟨ot, []⟩)
    else
      -- `std::merge` into an inserter of an empty set
      let merged := r.indexSet.foldl (fun s x => setInsert x s)
        (l.indexSet.foldl (fun s x => setInsert x s) [])
      some (⟨lt, if lt.isEmpty then [] else l.indexSet⟩,
            ⟨rt, if rt.isEmpty then [] else r.indexSet⟩, ⟨ot, merged⟩)

end Charset

/-- partition/equivset.hpp:21-42 `basic_equivset`; nodes are heap numbers. -/
structure Equivset where
  indexVector : List Nat
  id : Nat
  greedy : Greedy
  followpos : List Nat
  deriving DecidableEq, Repr

namespace Equivset

/-- equivset.hpp:44-47 `empty`. -/
def isEmpty (e : Equivset) : Bool := e.indexVector.isEmpty && e.followpos.isEmpty

/-- `std::set_intersection` on two increasing vectors (equivset.hpp:104-106). -/
def setIntersection : List Nat → List Nat → List Nat
  | [], _ => []
  | _ :: _, [] => []
  | x :: xs, y :: ys =>
    if x < y then setIntersection xs (y :: ys)
    else if y < x then setIntersection (x :: xs) ys
    else x :: setIntersection xs ys
termination_by xs ys => xs.length + ys.length

/-- equivset.hpp:115-141 `remove`: drops the elements of `source_` from `dest_`.
`none`: `*reader_` would be read at the end of `dest_`. -/
def removeIdx : List Nat → List Nat → Option (List Nat)
  | [], dest => some dest
  | _ :: _, [] => none
  | s :: ss, d :: ds =>
    if d = s then removeIdx ss ds
    else (removeIdx (s :: ss) ds).map (d :: ·)
termination_by s d => s.length + d.length

/-- equivset.hpp:88-100 `process_greedy`. -/
def processGreedy (l r : Greedy) : Greedy :=
  match l with
  | .no => if r = .hard then r else l
  | _ => l

/-- equivset.hpp:61-73: the nodes of `rhs_._followpos` not yet present are
appended. -/
def mergeFollow (l r : List Nat) : List Nat :=
  r.foldl (fun acc n => if n ∈ acc then acc else acc ++ [n]) l

/-- equivset.hpp:49-85 `intersect` (with 102-113 `intersect_indexes`) with a
default constructed `overlap_` (as at generator.hpp:1041). -/
def intersect (l r : Equivset) : Option (Equivset × Equivset × Equivset) :=
  let ov := setIntersection l.indexVector r.indexVector
  if ov.isEmpty then some (l, r, ⟨[], 0, .yes, []⟩)
  else
    match removeIdx ov l.indexVector, removeIdx ov r.indexVector with
    | some li, some ri =>
      some ({ l with indexVector := li, followpos := if li.isEmpty then [] else l.followpos },
            { r with indexVector := ri, followpos := if ri.isEmpty then [] else r.followpos },
            ⟨ov, l.id, processGreedy l.greedy r.greedy, mergeFollow l.followpos r.followpos⟩)
    | _, _ => none

end Equivset

section Split
variable {α : Type} (isect : α → α → Option (α × α × α)) (isEmpty : α → Bool)

/-- The inner loop shared by generator.hpp:793-826 (`partition_charsets`) and
generator.hpp:1034-1067 (`build_equiv_list`): split `r_` against the list from
`iter_` on.  Result: the new list and the new `r_`. -/
def splitInto (r : α) : List α → Option (List α × α)
  | [] => some ([], r)
  | l :: ls =>
    if isEmpty r then some (l :: ls, r)
    else
      match isect l r with
      | none => none
      | some (l', r', ov) =>
        if isEmpty ov then                                   -- 802-805, 1043-1046
          (splitInto r' ls).map fun p => (l' :: p.1, p.2)
        else if isEmpty l' then                              -- 806-811, 1047-1052
          (splitInto r' ls).map fun p => (ov :: p.1, p.2)
        else if isEmpty r' then                              -- 812-817, 1053-1058
          some (l' :: ls, ov)
        else                                                 -- 818-825, 1059-1066
          (splitInto r' ls).map fun p => (l' :: ov :: p.1, p.2)

/-- generator.hpp:788-832 and 1029-1073, the outer loop. -/
def splitLoop : List α → List α → Option (List α)
  | lhs, [] => some lhs
  | lhs, r :: rhs =>
    match splitInto isect isEmpty r lhs with
    | none => none
    | some (lhs', r') => splitLoop (if isEmpty r' then lhs' else lhs' ++ [r']) rhs

/-- generator.hpp:779-833 and 1020-1074: the first item is moved over as it is. -/
def splitAll : List α → Option (List α)
  | [] => some []
  | r :: rhs => splitLoop isect isEmpty [r] rhs

end Split

/-- parser.hpp:73 `charset_map` (`std::map<string_token, id_type>`) as the list
of its entries in key order. -/
abbrev CharsetMap := List (Token × Nat)

/-- generator.hpp:836-843 `fill_rhs_list` (charsets). -/
def fillRhsCharsets (m : CharsetMap) : List Charset := m.map fun p => ⟨p.1, [p.2]⟩

/-- generator.hpp:772-834 `partition_charsets` (DFA version). -/
def partitionCharsets (m : CharsetMap) : Option (List Charset) :=
  splitAll Charset.intersect Charset.isEmpty (fillRhsCharsets m)

/-- generator.hpp:859-862: `set_mapping_[i_].insert(index_)` for all `i_` in an
index set; `none` if some `i_` is outside `set_mapping_`. -/
def mapInsert (index : Nat) : List Nat → List (List Nat) → Option (List (List Nat))
  | [], m => some m
  | i :: is, m => if i < m.length then mapInsert index is (m.modify i (setInsert index)) else none

/-- generator.hpp:845-864 `build_set_mapping`, the part filling `set_mapping_`
(`index` is the loop counter `index_`). -/
def buildSetMapping : Nat → List Charset → List (List Nat) → Option (List (List Nat))
  | _, [], m => some m
  | index, c :: cs, m =>
    match mapInsert index c.indexSet m with
    | none => none
    | some m' => buildSetMapping (index + 1) cs m'

/-- generator.hpp:875-895 `fill_lookup` for one range, as the vector of
`ptr_[char_]` for `char_` = 0, 1, ...; a character beyond the vector would be an
out-of-bounds write, see `fillLookup`. -/
def fillRange (value : Nat) (r : Range) (lookup : List Nat) : List Nat :=
  lookup.mapIdx fun c v => if r.1 ≤ c ∧ c ≤ r.2 then value else v

/-- generator.hpp:875-895 `fill_lookup`; `none`: write outside `lookup_`.  (The
C++ loop writes `range_.second` even if `first > second`; ranges are well
formed, `C07_built_wellformed`.) -/
def fillLookup (index : Nat) (t : Token) (lookup : List Nat) : Option (List Nat) :=
  t.foldl (fun acc r => acc.bind fun lk =>
    if r.2 < lk.length then some (fillRange (index + ixTransitions) r lk) else none) (some lookup)

/-- generator.hpp:845-864 `build_set_mapping`, the part filling `_lookup`. -/
def buildLookup : Nat → List Charset → List Nat → Option (List Nat)
  | _, [], lk => some lk
  | index, c :: cs, lk =>
    match fillLookup index c.token lk with
    | none => none
    | some lk' => buildLookup (index + 1) cs lk'

end Lexertl
