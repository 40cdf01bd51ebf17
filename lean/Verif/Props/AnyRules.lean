import Verif.Spec.SameRules
import Verif.Props.States

/-
C71 for all lexers: several lexer states, the stack, skipped and continued tokens, `^`, rules matching the empty text.
-/
namespace Lexertl.Props
open Spec

namespace AnyRules

theorem SameAction.symm {x y : Rule} (h : SameAction x y) : SameAction y x :=
  ⟨h.1.symm, h.2.1.symm, h.2.2.1.symm, h.2.2.2.1.symm, h.2.2.2.2.symm⟩

theorem sameRules_symm {xs ys : List SRule} (h : SameRules xs ys) : SameRules ys xs := fun b w =>
  ⟨fun y hy => let ⟨x, h1, h2⟩ := (h b w).2 y hy; ⟨x, h1, SameAction.symm h2⟩,
   fun x hx => let ⟨y, h1, h2⟩ := (h b w).1 x hx; ⟨y, h1, SameAction.symm h2⟩⟩

theorem sameStates_symm {xss yss : List (List SRule)} (h : SameStates xss yss) : SameStates yss xss :=
  ⟨h.1.symm, fun i ys xs h1 h2 => sameRules_symm (h.2 i xs ys h2 h1)⟩

/-- If some rule matches, there is a first one. -/
theorem first_exists {b : Bool} {w : List Sym} : ∀ {xs : List SRule} {x : SRule}, x ∈ xs → LineMatch b x.2 w → ∃ y, FirstFor b xs w y := by
  intro xs
  induction xs with
  | nil => intro x hx; cases hx
  | cons z xs ih =>
    intro x hx hm
    by_cases hz : LineMatch b z.2 w
    · exact ⟨z, 0, rfl, hz, fun i _ hi => absurd hi (Nat.not_lt_zero i)⟩
    · rcases List.mem_cons.1 hx with rfl | hx
      · exact absurd hm hz
      · obtain ⟨y, j, h1, h2, h3⟩ := ih hx hm
        refine ⟨y, j + 1, by simpa using h1, h2, fun i y' hi hy => ?_⟩
        cases i with
        | zero =>
          simp only [List.getElem?_cons_zero, Option.some.injEq] at hy
          subst hy
          exact hz
        | succ i => exact h3 i y' (by omega) (by simpa using hy)

theorem first_mem {b : Bool} {w : List Sym} {xs : List SRule} {x : SRule} (h : FirstFor b xs w x) : x ∈ xs ∧ LineMatch b x.2 w := by
  obtain ⟨j, h1, h2, _⟩ := h
  exact ⟨List.mem_of_getElem? h1, h2⟩

/-- Then the same texts are matched. -/
theorem matched {xs ys : List SRule} (h : SameRules xs ys) {b : Bool} {w : List Sym} (hn : ∀ e ∈ xs.map (·.2), ¬ LineMatch b e w) :
    ∀ e ∈ ys.map (·.2), ¬ LineMatch b e w := by
  intro e he hm
  obtain ⟨y, hy, rfl⟩ := List.mem_map.1 he
  obtain ⟨z, hz⟩ := first_exists hy hm
  obtain ⟨x, hx, _⟩ := (h b w).2 z hz
  obtain ⟨h1, h2⟩ := first_mem hx
  exact hn _ (List.mem_map_of_mem h1) h2

theorem noMatch {xs ys : List SRule} (h : SameRules xs ys) {b : Bool} {inp : List Nat} {p e : Nat} (hn : NoMatch (LineMatch b) (xs.map (·.2)) inp p e) :
    NoMatch (LineMatch b) (ys.map (·.2)) inp p e := fun k h1 h2 => matched h (hn k h1 h2)

theorem lineMatch_false {e : Option Re} {w : List Sym} : LineMatch false e w ↔ RMatches e w := by simp [LineMatch]

theorem noEmpty {xs ys : List SRule} (h : SameRules xs ys) (hn : NoEmpty (xs.map (·.2))) : NoEmpty (ys.map (·.2)) := fun e he hm =>
  matched h (b := false) (w := []) (fun d hd hm => hn d hd (lineMatch_false.1 hm)) e he (lineMatch_false.2 hm)

theorem first_of {L : Option Re → List Sym → Prop} {b : Bool} {w : List Sym} {xs : List SRule} {x : SRule} {j : Nat} (hL : ∀ e, L e w ↔ LineMatch b e w) (hx : xs[j]? = some x)
    (h1 : ∃ e, (xs.map (·.2))[j]? = some e ∧ L e w) (h2 : ∀ (i : Nat) (e : Option Re), i < j → (xs.map (·.2))[i]? = some e → ¬ L e w) : FirstFor b xs w x := by
  obtain ⟨e, g1, g2⟩ := h1
  rw [List.getElem?_map, hx] at g1
  cases g1
  refine ⟨j, hx, (hL _).1 g2, fun i y hi hy hm => h2 i y.2 hi ?_ ((hL _).2 hm)⟩
  rw [List.getElem?_map, hy]
  rfl

theorem of_first {L : Option Re → List Sym → Prop} {b : Bool} {w : List Sym} {xs : List SRule} {x : SRule} (hL : ∀ e, L e w ↔ LineMatch b e w) (h : FirstFor b xs w x) :
    ∃ j : Nat, xs[j]? = some x ∧ (∃ e, (xs.map (·.2))[j]? = some e ∧ L e w) ∧ ∀ (i : Nat) (e : Option Re), i < j → (xs.map (·.2))[i]? = some e → ¬ L e w := by
  obtain ⟨j, h1, h2, h3⟩ := h
  refine ⟨j, h1, ⟨x.2, by rw [List.getElem?_map, h1]; rfl, (hL _).2 h2⟩, fun i e hi he hm => ?_⟩
  rw [List.getElem?_map] at he
  obtain ⟨y, hy, rfl⟩ := Option.map_eq_some_iff.1 he
  exact h3 i y hi hy ((hL _).1 hm)

theorem other {xss yss : List (List SRule)} (h : SameStates xss yss) {i : Nat} {xs : List SRule} (hx : xss[i]? = some xs) : ∃ ys, yss[i]? = some ys ∧ SameRules xs ys := by
  have hlt : i < yss.length := h.1 ▸ (List.getElem?_eq_some_iff.1 hx).1
  exact ⟨yss[i], List.getElem?_eq_getElem hlt, h.2 i xs yss[i] hx (List.getElem?_eq_getElem hlt)⟩

theorem chosen {xss yss : List (List SRule)} (h : SameStates xss yss) {npos eoi : Nat} {f : Flags} {inp : List Nat} {r : Results} {p : Nat} {x : SRule} {k next : Nat} {b : Bool}
    (hc : LexEnv.Chosen ⟨xss, npos, eoi, f, inp⟩ r p x k next b) :
    ∃ y, LexEnv.Chosen ⟨yss, npos, eoi, f, inp⟩ r p y k next b ∧ SameAction x.1 y.1 := by
  cases hc with
  | text xs x k j g1 g2 g3 =>
    obtain ⟨ys, k1, k2⟩ := other h g1
    obtain ⟨y, m1, m2⟩ := (k2 _ _).1 x (first_of (b := LexEnv.atLine ⟨xss, npos, eoi, f, inp⟩ r) (fun _ => Iff.rfl) g2 g3.hit g3.earliest)
    obtain ⟨j', n1, n2, n3⟩ := of_first (L := LineMatch (LexEnv.atLine ⟨yss, npos, eoi, f, inp⟩ r)) (fun _ => Iff.rfl) m1
    refine ⟨y, ?_, m2⟩
    rw [m2.2.2.1]
    exact .text ys y k j' k1 n1 ⟨g3.nonempty, g3.inside, n2, n3, fun k' i1 i2 => matched k2 (g3.longest k' i1 i2)⟩
  | empty xs x j g1 g2 g3 g4 =>
    obtain ⟨ys, k1, k2⟩ := other h g1
    obtain ⟨y, m1, m2⟩ := (k2 false []).1 x (first_of (L := RMatches) (fun _ => lineMatch_false.symm) g2 g4.hit g4.earliest)
    obtain ⟨j', n1, n2, n3⟩ := of_first (L := RMatches) (fun _ => lineMatch_false.symm) m1
    exact ⟨y, .empty ys y j' k1 n1 (noMatch k2 g3) ⟨n2, n3⟩, m2⟩

theorem accept {xss yss : List (List SRule)} {npos eoi : Nat} {f : Flags} {inp : List Nat} {x y : Rule} (h : SameAction x y) (r : Results) (k next : Nat) (b : Bool) :
    LexEnv.accept ⟨xss, npos, eoi, f, inp⟩ x r k next b = LexEnv.accept ⟨yss, npos, eoi, f, inp⟩ y r k next b := by
  unfold LexEnv.accept
  rw [h.1, h.2.2.2.1, h.2.2.2.2]

theorem continues {xss yss : List (List SRule)} {npos eoi : Nat} {f : Flags} {inp : List Nat} {x y : Rule} (h : SameAction x y) (r : Results) :
    LexEnv.continues ⟨xss, npos, eoi, f, inp⟩ x r ↔ LexEnv.continues ⟨yss, npos, eoi, f, inp⟩ y r := by
  unfold LexEnv.continues
  rw [h.1, h.2.2.2.2]

theorem lex {xss yss : List (List SRule)} (h : SameStates xss yss) {npos eoi : Nat} {f : Flags} {inp : List Nat} {r : Results} {p : Nat} {o : M Results}
    (hl : LexEnv.Lex ⟨xss, npos, eoi, f, inp⟩ r p o) : LexEnv.Lex ⟨yss, npos, eoi, f, inp⟩ r p o := by
  induction hl with
  | eoi r => exact .eoi r
  | none r p xs c g1 g2 g3 g4 g5 =>
    obtain ⟨ys, k1, k2⟩ := other h g2
    exact .none r p ys c g1 k1 (noMatch k2 g3) (noEmpty k2 g4) g5
  | throw r p x k next b e g1 g2 g3 =>
    obtain ⟨y, m1, m2⟩ := chosen h g2
    exact .throw r p y k next b e g1 m1 ((accept m2 r k next b).symm.trans g3)
  | skip r r' p x k next b o g1 g2 g3 g4 _ ih =>
    obtain ⟨y, m1, m2⟩ := chosen h g2
    exact .skip r r' p y k next b o g1 m1 ((accept m2 r k next b).symm.trans g3) (m2.1 ▸ g4) ih
  | again r r' p x k next b o g1 g2 g3 g4 g5 _ ih =>
    obtain ⟨y, m1, m2⟩ := chosen h g2
    exact .again r r' p y k next b o g1 m1 ((accept m2 r k next b).symm.trans g3) (m2.1 ▸ g4) ((continues m2 r').1 g5) ih
  | token r r' p x k next b g1 g2 g3 g4 g5 =>
    obtain ⟨y, m1, m2⟩ := chosen h g2
    rw [m2.1, m2.2.1]
    exact .token r r' p y k next b g1 m1 ((accept m2 r k next b).symm.trans g3) (m2.1 ▸ g4) (fun hc => g5 ((continues m2 r').2 hc))

end AnyRules

/-- C71, for rules of several lexer states, with skipped and continued tokens, the stack, `^` and empty matches: if in each lexer state, for each text, the
first matching rules of two lexers do the same, then `lookup` does the same with both: it returns the same result object, with the same lexer state and
stack, or throws the same exception. -/
theorem C71_any {tr : Traits} {R R' : Rules} {xss yss : List (List SRule)} {f : Flags} {inp : List Nat} {sm sm' : Internals}
    (B : BuiltFor tr R xss f inp sm) (B' : BuiltFor tr R' yss f inp sm') (heoi : R.eoi = R'.eoi) (hs : SameStates xss yss)
    {r : Results} (hp : r.second ≤ r.eoi) (hr : ROk ⟨xss, tr.npos, R.eoi, f, inp⟩ r) (o : M Results) :
    Returns f tr.npos (bytesOf tr) sm inp r o ↔ Returns f tr.npos (bytesOf tr) sm' inp r o := by
  rw [call_iff B hp hr, call_iff B' hp ⟨hs.1 ▸ hr.state, fun e he => hs.1 ▸ hr.stack e he, hr.eoi⟩, heoi]
  exact ⟨AnyRules.lex hs, AnyRules.lex (AnyRules.sameStates_symm hs)⟩

/-- A rule can be left out if earlier rules match all its texts. -/
theorem sameRules_leave_out (xs ys : List SRule) (x : SRule) (h : ∀ b w, LineMatch b x.2 w → ∃ y ∈ xs, LineMatch b y.2 w) : SameRules (xs ++ x :: ys) (xs ++ ys) := by
  intro b w
  refine ⟨fun z hz => ⟨z, ?_, rfl, rfl, rfl, rfl, rfl⟩, fun z hz => ⟨z, ?_, rfl, rfl, rfl, rfl, rfl⟩⟩
  · obtain ⟨j, h1, h2, h3⟩ := hz
    rcases Nat.lt_trichotomy j xs.length with hj | hj | hj
    · refine ⟨j, by grind, h2, fun i y hi hy => h3 i y hi (by grind)⟩
    · have hz : z = x := by grind
      subst hz
      obtain ⟨y, hy, hm⟩ := h b w h2
      obtain ⟨i, hi⟩ := List.getElem?_of_mem hy
      have hlt := (List.getElem?_eq_some_iff.1 hi).1
      exact absurd hm (h3 i y (by omega) (by grind))
    · refine ⟨j - 1, by grind, h2, fun i y hi hy => ?_⟩
      by_cases hix : i < xs.length
      · exact h3 i y (by omega) (by grind)
      · exact h3 (i + 1) y (by omega) (by grind)
  · obtain ⟨j, h1, h2, h3⟩ := hz
    by_cases hj : j < xs.length
    · exact ⟨j, by grind, h2, fun i y hi hy => h3 i y hi (by grind)⟩
    · refine ⟨j + 1, by grind, h2, fun i y hi hy => ?_⟩
      rcases Nat.lt_trichotomy i xs.length with hix | hix | hix
      · exact h3 i y (by omega) (by grind)
      · have hy : y = x := by grind
        subst hy
        intro hm
        obtain ⟨y', hy', hm'⟩ := h b w hm
        obtain ⟨i', hi'⟩ := List.getElem?_of_mem hy'
        have hlt := (List.getElem?_eq_some_iff.1 hi').1
        exact h3 i' y' (by omega) (by grind) hm'
      · exact h3 (i - 1) y (by omega) (by grind)

/-- The order of the rules does not matter if rules matching the same text do the same. -/
theorem sameRules_order {xs ys : List SRule} (h : ∀ x, x ∈ xs ↔ x ∈ ys)
    (hd : ∀ x ∈ xs, ∀ y ∈ xs, ∀ b w, LineMatch b x.2 w → LineMatch b y.2 w → SameAction x.1 y.1) : SameRules xs ys := by
  intro b w
  refine ⟨fun x hx => ?_, fun y hy => ?_⟩
  · obtain ⟨h1, h2⟩ := AnyRules.first_mem hx
    obtain ⟨y, hy⟩ := AnyRules.first_exists ((h x).1 h1) h2
    obtain ⟨h3, h4⟩ := AnyRules.first_mem hy
    exact ⟨y, hy, hd x h1 y ((h y).2 h3) b w h2 h4⟩
  · obtain ⟨h1, h2⟩ := AnyRules.first_mem hy
    obtain ⟨x, hx⟩ := AnyRules.first_exists ((h y).2 h1) h2
    obtain ⟨h3, h4⟩ := AnyRules.first_mem hx
    exact ⟨x, hx, hd x h3 y ((h y).2 h1) b w h4 h2⟩

/-- Only the texts of a rule and what it does count. -/
theorem sameRules_texts {xs ys : List SRule} (hlen : xs.length = ys.length)
    (h : ∀ (i : Nat) (x y : SRule), xs[i]? = some x → ys[i]? = some y → SameAction x.1 y.1 ∧ ∀ w, RMatches x.2 w ↔ RMatches y.2 w) : SameRules xs ys := by
  have hl : ∀ (i : Nat) (x y : SRule), xs[i]? = some x → ys[i]? = some y → ∀ b w, LineMatch b x.2 w ↔ LineMatch b y.2 w := by
    intro i x y hx hy b w
    have h2 := (h i x y hx hy).2
    simp only [LineMatch, h2]
  intro b w
  constructor
  · rintro x ⟨j, h1, h2, h3⟩
    have hlt : j < ys.length := hlen ▸ (List.getElem?_eq_some_iff.1 h1).1
    have hy := List.getElem?_eq_getElem hlt
    refine ⟨ys[j], ⟨j, hy, (hl j _ _ h1 hy b w).1 h2, fun i y hi hyi hm => ?_⟩, (h j _ _ h1 hy).1⟩
    have hlt' : i < xs.length := hlen ▸ (List.getElem?_eq_some_iff.1 hyi).1
    exact h3 i xs[i] hi (List.getElem?_eq_getElem hlt') ((hl i _ _ (List.getElem?_eq_getElem hlt') hyi b w).2 hm)
  · rintro y ⟨j, h1, h2, h3⟩
    have hlt : j < xs.length := hlen ▸ (List.getElem?_eq_some_iff.1 h1).1
    have hx := List.getElem?_eq_getElem hlt
    refine ⟨xs[j], ⟨j, hx, (hl j _ _ hx h1 b w).2 h2, fun i x hi hxi hm => ?_⟩, (h j _ _ hx h1).1⟩
    have hlt' : i < ys.length := hlen ▸ (List.getElem?_eq_some_iff.1 hxi).1
    exact h3 i ys[i] hi (List.getElem?_eq_getElem hlt') ((hl i _ _ hxi (List.getElem?_eq_getElem hlt') b w).1 hm)

theorem AnyRules.sameRules_refl (xs : List SRule) : SameRules xs xs := fun _ _ =>
  ⟨fun x hx => ⟨x, hx, rfl, rfl, rfl, rfl, rfl⟩, fun x hx => ⟨x, hx, rfl, rfl, rfl, rfl, rfl⟩⟩

/-- C71, for all lexers: the order of the rules of the lexer states does not matter if rules matching the same text do the same. -/
theorem C71_any_order {tr : Traits} {R R' : Rules} {xss yss : List (List SRule)} {f : Flags} {inp : List Nat} {sm sm' : Internals}
    (B : BuiltFor tr R xss f inp sm) (B' : BuiltFor tr R' yss f inp sm') (heoi : R.eoi = R'.eoi) (hlen : xss.length = yss.length)
    (h : ∀ (i : Nat) (xs ys : List SRule), xss[i]? = some xs → yss[i]? = some ys → (∀ x, x ∈ xs ↔ x ∈ ys) ∧
      ∀ x ∈ xs, ∀ y ∈ xs, ∀ b w, LineMatch b x.2 w → LineMatch b y.2 w → SameAction x.1 y.1)
    {r : Results} (hp : r.second ≤ r.eoi) (hr : ROk ⟨xss, tr.npos, R.eoi, f, inp⟩ r) (o : M Results) :
    Returns f tr.npos (bytesOf tr) sm inp r o ↔ Returns f tr.npos (bytesOf tr) sm' inp r o :=
  C71_any B B' heoi ⟨hlen, fun i xs ys hx hy => sameRules_order (h i xs ys hx hy).1 (h i xs ys hx hy).2⟩ hp hr o

/-- C71, for all lexers: only the texts that a rule matches and what it does count. -/
theorem C71_any_texts {tr : Traits} {R R' : Rules} {xss yss : List (List SRule)} {f : Flags} {inp : List Nat} {sm sm' : Internals}
    (B : BuiltFor tr R xss f inp sm) (B' : BuiltFor tr R' yss f inp sm') (heoi : R.eoi = R'.eoi) (hlen : xss.length = yss.length)
    (h : ∀ (i : Nat) (xs ys : List SRule), xss[i]? = some xs → yss[i]? = some ys → xs.length = ys.length ∧
      ∀ (j : Nat) (x y : SRule), xs[j]? = some x → ys[j]? = some y → SameAction x.1 y.1 ∧ ∀ w, RMatches x.2 w ↔ RMatches y.2 w)
    {r : Results} (hp : r.second ≤ r.eoi) (hr : ROk ⟨xss, tr.npos, R.eoi, f, inp⟩ r) (o : M Results) :
    Returns f tr.npos (bytesOf tr) sm inp r o ↔ Returns f tr.npos (bytesOf tr) sm' inp r o :=
  C71_any B B' heoi ⟨hlen, fun i xs ys hx hy => sameRules_texts (h i xs ys hx hy).1 (h i xs ys hx hy).2⟩ hp hr o

/-- C71, for all lexers: in any lexer state a rule all of whose texts are matched by earlier rules can be left out. -/
theorem C71_any_suppressed {tr : Traits} {R R' : Rules} {before after : List (List SRule)} {xs ys : List SRule} {x : SRule} {f : Flags} {inp : List Nat} {sm sm' : Internals}
    (B : BuiltFor tr R (before ++ (xs ++ x :: ys) :: after) f inp sm) (B' : BuiltFor tr R' (before ++ (xs ++ ys) :: after) f inp sm') (heoi : R.eoi = R'.eoi)
    (h : ∀ b w, LineMatch b x.2 w → ∃ y ∈ xs, LineMatch b y.2 w)
    {r : Results} (hp : r.second ≤ r.eoi) (hr : ROk ⟨before ++ (xs ++ x :: ys) :: after, tr.npos, R.eoi, f, inp⟩ r) (o : M Results) :
    Returns f tr.npos (bytesOf tr) sm inp r o ↔ Returns f tr.npos (bytesOf tr) sm' inp r o := by
  refine C71_any B B' heoi ⟨by simp, fun i us vs hu hv => ?_⟩ hp hr o
  rcases Nat.lt_trichotomy i before.length with hi | hi | hi
  · have : us = vs := by grind
    exact this ▸ AnyRules.sameRules_refl us
  · have h1 : us = xs ++ x :: ys := by grind
    have h2 : vs = xs ++ ys := by grind
    rw [h1, h2]
    exact sameRules_leave_out xs ys x h
  · have : us = vs := by
      obtain ⟨n, rfl⟩ : ∃ n, i = before.length + (n + 1) := ⟨i - before.length - 1, by omega⟩
      rw [List.getElem?_append_right (by omega)] at hu hv
      rw [show before.length + (n + 1) - before.length = n + 1 by omega, List.getElem?_cons_succ] at hu hv
      rw [hu] at hv
      exact Option.some.inj hv
    exact this ▸ AnyRules.sameRules_refl us

namespace AnyRules

theorem line_chr {b : Bool} {d id n p : Nat} {q : Bool} {w : List Sym} : LineMatch b (Ex.chr d id n p q).2 w ↔ w = [.ch d] := by
  change LineMatch b (some (.chars [(d, d)])) w ↔ _
  rw [line_noBol (by rfl)]
  constructor
  · rintro ⟨e, ⟨y, hy, h1⟩, rfl⟩
    simp only [List.mem_singleton] at hy
    subst hy
    rw [show e = d by omega]
  · rintro rfl
    exact ⟨d, ⟨_, List.mem_singleton.2 rfl, Nat.le_refl _, Nat.le_refl _⟩, rfl⟩

/-- The parenthesis lexer with the rules of both states in another order. -/
def rulesPar2 : List (List SRule) := [[Ex.chr 40 2 1 0, Ex.chr 97 1], [Ex.chr 99 65534 1, Ex.chr 40 2 1 1, Ex.chr 41 3 65535 65535 true]]

def RPar2 : Rules := ⟨rulesPar2.map (·.map (·.1)), [48, 48], 0, false, false⟩

theorem par2_built (inp : List Nat) (h : ∀ c ∈ inp, c < charsOf Ex.tr) : BuiltFor Ex.tr RPar2 rulesPar2 Ex.fRec inp (Ex.machine RPar2) where
  wide := by decide
  rules := by
    refine Ex.ruleSet_of rfl ?_ (by decide)
    simp only [rulesPar2, List.mem_cons, List.not_mem_nil, or_false, forall_eq_or_imp, forall_eq]
    exact ⟨⟨Ex.one_chr (by decide) .., Ex.one_chr (by decide) ..⟩, Ex.one_chr (by decide) .., Ex.one_chr (by decide) .., Ex.one_chr (by decide) ..⟩
  states := by
    refine ⟨?_, ?_⟩
    · show ∀ xs ∈ rulesPar2, ∀ x ∈ xs, (true = true ∧ x.1.popDfa = true) ∨ x.1.nextDfa < rulesPar2.length
      decide
    · show ∀ xs ∈ rulesPar2, ∀ x ∈ xs, x.1.pushDfa ≠ Ex.tr.npos → x.1.pushDfa < rulesPar2.length
      decide
  built := ⟨_, Ex.machine_ok (by decide +kernel)⟩
  chars := h

theorem par2_same : SameStates Ex.rulesPar rulesPar2 := by
  refine ⟨rfl, fun i xs ys hx hy => ?_⟩
  have key : ∀ xs ys : List SRule, (∀ x, x ∈ xs ↔ x ∈ ys) →
      (∀ x ∈ xs, ∀ y ∈ xs, ∀ b w, LineMatch b x.2 w → LineMatch b y.2 w → SameAction x.1 y.1) → SameRules xs ys := fun _ _ => sameRules_order
  match i, hx, hy with
  | 0, hx, hy =>
    cases hx
    cases hy
    refine key _ _ (fun x => by simp only [List.mem_cons, List.not_mem_nil, or_false]; grind) ?_
    simp only [List.mem_cons, List.not_mem_nil, or_false, forall_eq_or_imp, forall_eq, line_chr]
    refine ⟨⟨?_, ?_⟩, ?_, ?_⟩ <;> (intro b h; first | exact ⟨rfl, rfl, rfl, rfl, rfl⟩ | (exfalso; revert h; decide))
  | 1, hx, hy =>
    cases hx
    cases hy
    refine key _ _ (fun x => by simp only [List.mem_cons, List.not_mem_nil, or_false]; grind) ?_
    simp only [List.mem_cons, List.not_mem_nil, or_false, forall_eq_or_imp, forall_eq, line_chr]
    refine ⟨⟨?_, ?_, ?_⟩, ⟨?_, ?_, ?_⟩, ?_, ?_, ?_⟩ <;> (intro b h; first | exact ⟨rfl, rfl, rfl, rfl, rfl⟩ | (exfalso; revert h; decide))
  | _ + 2, hx, _ => cases hx

end AnyRules

/-- The hypotheses of `C71_any` and `C71_any_order` are met by the two lexers. -/
example {inp : List Nat} (h : ∀ c ∈ inp, c < 256) (o : M Results) :
    Returns Ex.fRec 65535 1 (Ex.machine Ex.RPar) inp (.mk' 65535 0 inp.length) o ↔ Returns Ex.fRec 65535 1 (Ex.machine AnyRules.RPar2) inp (.mk' 65535 0 inp.length) o :=
  C71_any (exPar_built inp h) (AnyRules.par2_built inp h) rfl AnyRules.par2_same (Nat.zero_le _) ⟨Nat.zero_lt_succ 1, by simp [Results.mk'], Nat.le_refl _⟩ o

namespace AnyRules

/-- The parenthesis lexer with a second rule for `a` in state 0 (the flag that allows such rules is set). -/
def rulesPar3 : List (List SRule) := [[Ex.chr 97 1, Ex.chr 97 9, Ex.chr 40 2 1 0], [Ex.chr 40 2 1 1, Ex.chr 41 3 65535 65535 true, Ex.chr 99 65534 1]]

def RPar3 : Rules := ⟨rulesPar3.map (·.map (·.1)), [48, 48], 0, false, true⟩

theorem par3_built (inp : List Nat) (h : ∀ c ∈ inp, c < charsOf Ex.tr) : BuiltFor Ex.tr RPar3 rulesPar3 Ex.fRec inp (Ex.machine RPar3) where
  wide := by decide
  rules := by
    refine Ex.ruleSet_of rfl ?_ (by decide)
    simp only [rulesPar3, List.mem_cons, List.not_mem_nil, or_false, forall_eq_or_imp, forall_eq]
    exact ⟨⟨Ex.one_chr (by decide) .., Ex.one_chr (by decide) .., Ex.one_chr (by decide) ..⟩, Ex.one_chr (by decide) .., Ex.one_chr (by decide) .., Ex.one_chr (by decide) ..⟩
  states := by
    refine ⟨?_, ?_⟩
    · show ∀ xs ∈ rulesPar3, ∀ x ∈ xs, (true = true ∧ x.1.popDfa = true) ∨ x.1.nextDfa < rulesPar3.length
      decide
    · show ∀ xs ∈ rulesPar3, ∀ x ∈ xs, x.1.pushDfa ≠ Ex.tr.npos → x.1.pushDfa < rulesPar3.length
      decide
  built := ⟨_, Ex.machine_ok (by decide +kernel)⟩
  chars := h

/-- `a|a`, with the ids of `a`. -/
def aOrA : SRule :=
  (⟨[Ex.tBegin, ⟨.charset, [], [(97, 97)]⟩, ⟨.or_, [], []⟩, ⟨.charset, [], [(97, 97)]⟩, Ex.tEnd], 1, 65535, 0, 65535, false⟩, some (.alt (.chars [(97, 97)]) (.chars [(97, 97)])))

/-- The parenthesis lexer with `a|a` for `a`. -/
def rulesPar4 : List (List SRule) := [[aOrA, Ex.chr 40 2 1 0], [Ex.chr 40 2 1 1, Ex.chr 41 3 65535 65535 true, Ex.chr 99 65534 1]]

def RPar4 : Rules := ⟨rulesPar4.map (·.map (·.1)), [48, 48], 0, false, false⟩

theorem par4_built (inp : List Nat) (h : ∀ c ∈ inp, c < charsOf Ex.tr) : BuiltFor Ex.tr RPar4 rulesPar4 Ex.fRec inp (Ex.machine RPar4) where
  wide := by decide
  rules := by
    have h1 : CharSets Ex.tr (some (.chars [(97, 97)])) := (Ex.one_chr (tr := Ex.tr) (c := 97) (by decide) 1 0 65535 false).sets
    refine Ex.ruleSet_of rfl ?_ (by decide)
    simp only [rulesPar4, List.mem_cons, List.not_mem_nil, or_false, forall_eq_or_imp, forall_eq]
    refine ⟨⟨⟨?_, ⟨h1, h1⟩, rfl, rfl, rfl⟩, Ex.one_chr (by decide) ..⟩, Ex.one_chr (by decide) .., Ex.one_chr (by decide) .., Ex.one_chr (by decide) ..⟩
    exact .re Ex.tBegin Ex.tEnd _ _ rfl rfl (.alt [⟨.charset, [], [(97, 97)]⟩] [⟨.charset, [], [(97, 97)]⟩] _ _ _ rfl
      (.alt1 _ _ (.seq1 _ _ (.item _ _ (.charset _ _)))) (.seq1 _ _ (.item _ _ (.charset _ _))))
  states := by
    refine ⟨?_, ?_⟩
    · show ∀ xs ∈ rulesPar4, ∀ x ∈ xs, (true = true ∧ x.1.popDfa = true) ∨ x.1.nextDfa < rulesPar4.length
      decide
    · show ∀ xs ∈ rulesPar4, ∀ x ∈ xs, x.1.pushDfa ≠ Ex.tr.npos → x.1.pushDfa < rulesPar4.length
      decide
  built := ⟨_, Ex.machine_ok (by decide +kernel)⟩
  chars := h

end AnyRules

/-- The hypotheses of `C71_any_suppressed` are met: the second rule for `a` can be left out. -/
example {inp : List Nat} (h : ∀ c ∈ inp, c < 256) (o : M Results) :
    Returns Ex.fRec 65535 1 (Ex.machine AnyRules.RPar3) inp (.mk' 65535 0 inp.length) o ↔ Returns Ex.fRec 65535 1 (Ex.machine Ex.RPar) inp (.mk' 65535 0 inp.length) o :=
  C71_any_suppressed (before := []) (xs := [Ex.chr 97 1]) (x := Ex.chr 97 9) (ys := [Ex.chr 40 2 1 0]) (AnyRules.par3_built inp h) (exPar_built inp h) rfl
    (fun _ _ h => ⟨Ex.chr 97 1, List.mem_cons_self .., AnyRules.line_chr.2 (AnyRules.line_chr.1 h)⟩)
    (Nat.zero_le _) ⟨Nat.zero_lt_succ 1, by simp [Results.mk'], Nat.le_refl _⟩ o

/-- The hypotheses of `C71_any_texts` are met by `a` and `a|a`. -/
example {inp : List Nat} (h : ∀ c ∈ inp, c < 256) (o : M Results) :
    Returns Ex.fRec 65535 1 (Ex.machine Ex.RPar) inp (.mk' 65535 0 inp.length) o ↔ Returns Ex.fRec 65535 1 (Ex.machine AnyRules.RPar4) inp (.mk' 65535 0 inp.length) o := by
  refine C71_any_texts (exPar_built inp h) (AnyRules.par4_built inp h) rfl rfl (fun i xs ys hx hy => ?_)
    (Nat.zero_le _) ⟨Nat.zero_lt_succ 1, by simp [Results.mk'], Nat.le_refl _⟩ o
  match i, hx, hy with
  | 0, hx, hy =>
    cases hx
    cases hy
    refine ⟨rfl, fun j x y hx hy => ?_⟩
    match j, hx, hy with
    | 0, hx, hy => cases hx; cases hy; exact ⟨⟨rfl, rfl, rfl, rfl, rfl⟩, fun w => ⟨fun h => .inl h, fun h => h.elim id id⟩⟩
    | 1, hx, hy => cases hx; cases hy; exact ⟨⟨rfl, rfl, rfl, rfl, rfl⟩, fun w => Iff.rfl⟩
    | _ + 2, hx, _ => cases hx
  | 1, hx, hy =>
    cases hx
    cases hy
    refine ⟨rfl, fun j x y hx hy => ?_⟩
    cases hx.symm.trans hy
    exact ⟨⟨rfl, rfl, rfl, rfl, rfl⟩, fun w => Iff.rfl⟩
  | _ + 2, hx, _ => cases hx

/-- The condition is needed: two rules for `a` with different ids. -/
example : ¬ SameRules [Ex.chr 97 1, Ex.chr 97 2] [Ex.chr 97 2, Ex.chr 97 1] := by
  intro h
  obtain ⟨y, ⟨j, h1, h2, h3⟩, h4⟩ := (h false [.ch 97]).1 (Ex.chr 97 1) ⟨0, rfl, AnyRules.line_chr.2 rfl, fun i _ hi => absurd hi (Nat.not_lt_zero i)⟩
  match j, h1, h3 with
  | 0, h1, _ => cases h1; exact absurd h4.1 (by decide)
  | _ + 1, _, h3 => exact h3 0 (Ex.chr 97 2) (Nat.zero_lt_succ _) rfl (AnyRules.line_chr.2 rfl)

end Lexertl.Props
