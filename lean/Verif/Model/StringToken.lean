/-
Model of `include/lexertl/string_token.hpp` (`basic_string_token`).

A string token is the vector `_ranges` of closed ranges (`std::pair<index_type,
index_type>`); here a list of pairs of naturals.  `index_type` is an unsigned
type whose arithmetic is done after promotion, so naturals are exact as long as
no value exceeds the character maximum (which the theorems establish).  An
iterator into `_ranges` is its index, or a split of the list in two.
-/
namespace Lexertl

/-- string_token.hpp:26 `range`. -/
abbrev Range := Nat × Nat

/-- string_token.hpp:27, 31 `range_vector`, `_ranges`. -/
abbrev Token := List Range

namespace Token

/-- string_token.hpp:60-64 `any`; `max` is `char_traits::max_val()`. -/
def any (max : Nat) (t : Token) : Bool :=
  match t with
  | [r] => r.1 == 0 && r.2 == max
  | _ => false

/-- string_token.hpp:78-89 `negatable`. -/
def negatable (max : Nat) (t : Token) : Bool :=
  decide (t.foldl (fun size r => size + (r.2 + 1 - r.1)) 0 > max / 2)

/-- string_token.hpp:108-200, the loop of `insert(range)`.
`pre` holds the items before `erase_iter_` (or before `iter_` while
`erase_iter_ == end_`), `erased` the items from `erase_iter_` up to `iter_`,
`rest` the items from `iter_` on.  The result is the new vector and the index
of the returned iterator. -/
def insertGo (rhs : Range) (pre erased : Token) : Token → Token × Nat
  | [] =>
    match erased with
    | [] => (pre ++ [rhs], pre.length)                       -- line 196
    | _ :: _ => (pre ++ [rhs], pre.length + 1)               -- lines 188-192
  | it :: rest =>
    if rhs.1 > it.2 then
      if rhs.1 = it.2 + 1 then                               -- auto normalise, 120-124
        insertGo (it.1, rhs.2) pre (erased ++ [it]) rest
      else                                                   -- 125-130
        match erased with
        | [] => insertGo rhs (pre ++ [it]) [] rest
        | _ :: _ => insertGo rhs pre (erased ++ [it]) rest
    else if rhs.2 < it.1 then
      if rhs.2 + 1 = it.1 then                               -- auto normalise, 135-139
        insertGo (rhs.1, it.2) pre (erased ++ [it]) rest
      else                                                   -- insert here, 140-144
        match erased with
        | [] => (pre ++ rhs :: it :: rest, pre.length)
        | _ :: _ => (pre ++ rhs :: it :: rest, pre.length + 1)
    else if rhs.1 < it.1 then                                -- overlap (under), 149-155
      insertGo (rhs.1, if rhs.2 < it.2 then it.2 else rhs.2) pre (erased ++ [it]) rest
    else if rhs.2 > it.2 then                                -- overlap (over), 157-163
      insertGo (if rhs.1 > it.1 then it.1 else rhs.1, rhs.2) pre (erased ++ [it]) rest
    else                                                     -- subset, 165-170
      match erased with
      | [] => (pre ++ it :: rest, (pre ++ it :: rest).length)
      | _ :: _ => (pre, pre.length)      -- `erase(erase_iter_, end())`, line 192

/-- string_token.hpp:108-200 `insert(range)`: new vector and returned iterator. -/
def insertIter (t : Token) (r : Range) : Token × Nat := insertGo r [] [] t

/-- string_token.hpp:108-200 `insert(range)` when the result is ignored. -/
def insert (t : Token) (r : Range) : Token := (insertIter t r).1

/-- string_token.hpp:96-105 `insert(token)`. -/
def insertToken (t rhs : Token) : Token := rhs.foldl insert t

/-- string_token.hpp:35-38 constructor from one character. -/
def ofChar (c : Nat) : Token := insert [] (c, c)

/-- string_token.hpp:40-43 constructor from a range. -/
def ofRange (a b : Nat) : Token := insert [] (a, b)

/-- string_token.hpp:211-233, the loop of `negate`; `next` is `next_`, `temp`
is `temp_`. -/
def negateGo (max : Nat) (next : Nat) (temp : Token) : Token → Token
  | [] => insert temp (next, max)                            -- 230-233
  | it :: rest =>
    let temp := if next < it.1 then insert temp (next, it.1 - 1) else temp
    if it.2 < max then negateGo max (it.2 + 1) temp rest     -- 219-222
    else temp                                                -- finished_, 223-227

/-- string_token.hpp:202-236 `negate`. -/
def negate (max : Nat) (t : Token) : Token := negateGo max 0 [] t

/-- string_token.hpp:409-437 `adjust`.  The token is `pre ++ cur :: post` with
`iter_` at `cur`; the result is the token split at the new `iter_`. -/
def adjust (range : Range) (pre : Token) (cur : Range) (post : Token) : Token × Token :=
  if range.1 > cur.1 then
    if range.2 < cur.2 then                                  -- 419-426
      let res := insertIter (pre ++ (cur.1, range.1 - 1) :: post) (range.2 + 1, cur.2)
      (res.1.take res.2, res.1.drop res.2)
    else (pre, (cur.1, range.1 - 1) :: post)                 -- 417
  else if range.2 < cur.2 then (pre, (range.2 + 1, cur.2) :: post)  -- 428-431
  else (pre, post)                                           -- 434-435

/-- The common part of two ranges as computed in string_token.hpp:257-275 and
303-321. -/
def common (l r : Range) : Range :=
  (if r.1 > l.1 then r.1 else l.1, if r.2 < l.2 then r.2 else l.2)

/-- string_token.hpp:245-281, the loop of `intersect`.  `lpre ++ lrest` is
`_ranges` with `lhs_iter_` at the head of `lrest`, likewise for `rhs_`.  The
first argument bounds the number of iterations; `none` means the bound was not
enough (theorem `intersect_correct` shows that it always is). -/
def intersectGo : Nat → Token → Token → Token → Token → Token →
    Option (Token × Token × Token)
  | 0, _, _, _, _, _ => none
  | fuel + 1, lpre, lrest, rpre, rrest, overlap =>
    match lrest, rrest with
    | [], _ => some (lpre, rpre ++ rrest, overlap)
    | _ :: _, [] => some (lpre ++ lrest, rpre, overlap)
    | l :: ls, r :: rs =>
      if r.1 > l.2 then intersectGo fuel (lpre ++ [l]) ls rpre (r :: rs) overlap
      else if r.2 < l.1 then intersectGo fuel lpre (l :: ls) (rpre ++ [r]) rs overlap
      else
        let range := common l r
        let la := adjust range lpre l ls
        let ra := adjust range rpre r rs
        intersectGo fuel la.1 la.2 ra.1 ra.2 (insert overlap range)

/-- Bound on the number of loop iterations one token can cause: its characters
plus its ranges. -/
def weight (t : Token) : Nat := (t.map fun r => r.2 + 1 - r.1).sum + t.length

/-- string_token.hpp:238-282 `intersect`: the new `*this`, `rhs_`, `overlap_`. -/
def intersect (l r overlap : Token) : Option (Token × Token × Token) :=
  intersectGo (weight l + weight r + 1) [] l [] r overlap

/-- string_token.hpp:291-325, the loop of `remove`; conventions as in
`intersectGo`. -/
def removeGo : Nat → Token → Token → Token → Option Token
  | 0, _, _, _ => none
  | fuel + 1, lpre, lrest, rrest =>
    match lrest, rrest with
    | [], _ => some lpre
    | _ :: _, [] => some (lpre ++ lrest)
    | l :: ls, r :: rs =>
      if r.1 > l.2 then removeGo fuel (lpre ++ [l]) ls (r :: rs)
      else if r.2 < l.1 then removeGo fuel lpre (l :: ls) rs
      else
        let la := adjust (common l r) lpre l ls
        removeGo fuel la.1 la.2 (r :: rs)

/-- string_token.hpp:284-326 `remove`. -/
def remove (l r : Token) : Option Token :=
  removeGo (weight l + weight r + 1) [] l r

end Token
end Lexertl
