import Verif.Spec.RuleOrder
import Verif.Props.Lexing
import Verif.Props.Example

/-
C71: what adding a rule, or changing the order of rules, does to tokens.
-/
namespace Lexertl.Props
open Spec

theorem order_best_unique {L : Option Re → List Sym → Prop} {es : List (Option Re)} {inp : List Nat} {p eoi k j k' j' : Nat}
    (h : Best L es inp p eoi k j) (h' : Best L es inp p eoi k' j') : k = k' ∧ j = j' := by
  obtain ⟨e, h1, h2⟩ := h.hit
  obtain ⟨e', h1', h2'⟩ := h'.hit
  have hk : k = k' := by
    rcases Nat.lt_trichotomy k k' with hlt | heq | hlt
    · exact absurd h2' (h.longest k' hlt h'.inside e' (List.mem_of_getElem? h1'))
    · exact heq
    · exact absurd h2 (h'.longest k hlt h.inside e (List.mem_of_getElem? h1))
  subst hk
  refine ⟨rfl, ?_⟩
  rcases Nat.lt_trichotomy j j' with hlt | heq | hlt
  · exact absurd h2 (h'.earliest j e hlt h1)
  · exact heq
  · exact absurd h2' (h.earliest j' e' hlt h1')

theorem best_last {L : Option Re → List Sym → Prop} {es : List (Option Re)} {e : Option Re} {inp : List Nat} {p eoi k j : Nat}
    (h : Best L es inp p eoi k j) (he : ∀ k', k < k' → k' ≤ eoi → ¬ L e (text inp p k')) : Best L (es ++ [e]) inp p eoi k j := by
  obtain ⟨e', h1, h2⟩ := h.hit
  have hj : j < es.length := (List.getElem?_eq_some_iff.1 h1).1
  refine ⟨h.nonempty, h.inside, ⟨e', by rw [List.getElem?_append_left hj, h1], h2⟩, fun i d hi hd => ?_, fun k' g1 g2 d hd => ?_⟩
  · rw [List.getElem?_append_left (by omega)] at hd
    exact h.earliest i d hi hd
  · rcases List.mem_append.1 hd with hd | hd
    · exact h.longest k' g1 g2 d hd
    · rw [List.mem_singleton.1 hd]
      exact he k' g1 g2

/-- C71: a rule `x` added after the rules of a lexer state changes a token only where it
matches a text that no other rule matches and for which no other rule matches a longer one; there the
token becomes the longest such text, with the ids of the new rule. -/
theorem C71_last_rule {tr : Traits} (hnpos : 263 ≤ tr.npos) {R R' : Rules} {sm sm' : Internals} {f : Flags} {r : Results} {xs : List SRule} {x : SRule}
    (h : PlainLexer tr R sm f r xs) (h' : PlainLexer tr R' sm' f r (xs ++ [x])) {inp : List Nat} (hinp : ∀ c ∈ inp, c < charsOf tr)
    (hp : r.second < r.eoi) (he : r.eoi ≤ inp.length) :
    ∃ r1 r2, lookup f tr.npos (bytesOf tr) sm inp r = .ok r1 ∧ lookup f tr.npos (bytesOf tr) sm' inp r = .ok r2 ∧
      ((∀ k, ¬ Outdoes x.2 (xs.map (·.2)) inp r.second r.eoi k) → sameToken r1 r2) ∧
      (∀ k, Outdoes x.2 (xs.map (·.2)) inp r.second r.eoi k → (∀ k', k < k' → k' ≤ r.eoi → ¬ RMatches x.2 (text inp r.second k')) →
        r2.first = r.second ∧ r2.second = k ∧ r2.id = x.1.id ∧ r2.userId = x.1.userId) := by
  obtain ⟨xss, a1, a2, a3⟩ := h.rules
  obtain ⟨addr, a4⟩ := h.built
  obtain ⟨xss', b1, b2, b3⟩ := h'.rules
  obtain ⟨addr', b4⟩ := h'.built
  obtain ⟨r1, h1, c1⟩ := C01_lookup_total hnpos a1 a2 a4 f hinp hp he a3 h.nonempty h.ids
  obtain ⟨r2, h2, c2⟩ := C01_lookup_total hnpos b1 b2 b4 f hinp hp he b3 h'.nonempty h'.ids
  rw [List.map_append] at c2
  refine ⟨r1, r2, h1, h2, fun hno => ?_, fun k ho hl => ?_⟩
  · rcases c1 with ⟨k, j, y, d1, d2, d3, d4, d5, d6⟩ | ⟨d1, d2, d3, d4, d5⟩
    · have hb : Best RMatches (xs.map (·.2) ++ [x].map (·.2)) inp r.second r.eoi k j :=
        best_last d1 fun k' g1 g2 g3 => hno k' ⟨by have := d1.nonempty; omega, g2, g3, fun k'' i1 i2 => d1.longest k'' (by omega) i2⟩
      rcases c2 with ⟨k', j', y', e1, e2, e3, e4, e5, e6⟩ | ⟨e1, -⟩
      · obtain ⟨rfl, rfl⟩ := order_best_unique hb e1
        rw [List.getElem?_append_left (List.getElem?_eq_some_iff.1 d2).1, d2] at e2
        cases e2
        exact ⟨d3.trans e3.symm, d4.trans e4.symm, d5.trans e5.symm, d6.trans e6.symm⟩
      · obtain ⟨e, g1, g2⟩ := hb.hit
        exact absurd g2 (e1 k hb.nonempty hb.inside e (List.mem_of_getElem? g1))
    · rcases c2 with ⟨k', j', y', e1, e2, e3, e4, e5, e6⟩ | ⟨e1, e2, e3, e4, e5⟩
      · obtain ⟨e, g1, g2⟩ := e1.hit
        rcases List.mem_append.1 (List.mem_of_getElem? g1) with hm | hm
        · exact absurd g2 (d1 k' e1.nonempty e1.inside e hm)
        · rw [List.map_singleton, List.mem_singleton] at hm
          subst hm
          exact absurd ⟨e1.nonempty, e1.inside, g2, fun k'' i1 i2 => d1 k'' (by have := e1.nonempty; omega) i2⟩ (hno k')
      · exact ⟨d2.trans e2.symm, d3.trans e3.symm, d4.trans e4.symm, d5.trans e5.symm⟩
  · have hb : Best RMatches (xs.map (·.2) ++ [x].map (·.2)) inp r.second r.eoi k xs.length := by
      refine ⟨ho.nonempty, ho.inside, ⟨x.2, by simp, ho.hit⟩, fun i e hi hd => ?_, fun k' g1 g2 e hd => ?_⟩
      · rw [List.getElem?_append_left (by simpa using hi)] at hd
        exact ho.others k (Nat.le_refl _) ho.inside e (List.mem_of_getElem? hd)
      · rcases List.mem_append.1 hd with hd | hd
        · exact ho.others k' (by omega) g2 e hd
        · rw [List.map_singleton, List.mem_singleton] at hd
          subst hd
          exact hl k' g1 g2
    rcases c2 with ⟨k', j', y', e1, e2, e3, e4, e5, e6⟩ | ⟨e1, -⟩
    · obtain ⟨rfl, rfl⟩ := order_best_unique hb e1
      rw [List.getElem?_append_right (Nat.le_refl _), Nat.sub_self] at e2
      cases e2
      exact ⟨e3, e4, e5, e6⟩
    · exact absurd ho.hit (e1 k ho.nonempty ho.inside x.2 (by simp))

/-- C71: the order of rules matters only where two of them match the same text: if the lexer states of two
machines have the same rules in any two orders, and no text is matched by two
rules with different ids, all tokens are the same. -/
theorem C71_order {tr : Traits} (hnpos : 263 ≤ tr.npos) {R R' : Rules} {sm sm' : Internals} {f : Flags} {r : Results} {xs ys : List SRule}
    (h : PlainLexer tr R sm f r xs) (h' : PlainLexer tr R' sm' f r ys) (hxy : ∀ x, x ∈ xs ↔ x ∈ ys)
    (hdis : ∀ x ∈ xs, ∀ y ∈ xs, ∀ w, RMatches x.2 w → RMatches y.2 w → x.1.id = y.1.id ∧ x.1.userId = y.1.userId)
    {inp : List Nat} (hinp : ∀ c ∈ inp, c < charsOf tr) (hp : r.second < r.eoi) (he : r.eoi ≤ inp.length) :
    ∃ r1 r2, lookup f tr.npos (bytesOf tr) sm inp r = .ok r1 ∧ lookup f tr.npos (bytesOf tr) sm' inp r = .ok r2 ∧ sameToken r1 r2 := by
  obtain ⟨xss, a1, a2, a3⟩ := h.rules
  obtain ⟨addr, a4⟩ := h.built
  obtain ⟨xss', b1, b2, b3⟩ := h'.rules
  obtain ⟨addr', b4⟩ := h'.built
  obtain ⟨r1, h1, c1⟩ := C01_lookup_total hnpos a1 a2 a4 f hinp hp he a3 h.nonempty h.ids
  obtain ⟨r2, h2, c2⟩ := C01_lookup_total hnpos b1 b2 b4 f hinp hp he b3 h'.nonempty h'.ids
  have hm : ∀ e, e ∈ xs.map (·.2) ↔ e ∈ ys.map (·.2) := fun e => by
    simp only [List.mem_map, hxy]
  refine ⟨r1, r2, h1, h2, ?_⟩
  rcases c1 with ⟨k, j, x, d1, d2, d3, d4, d5, d6⟩ | ⟨d1, d2, d3, d4, d5⟩ <;>
  rcases c2 with ⟨k', j', y, e1, e2, e3, e4, e5, e6⟩ | ⟨e1, e2, e3, e4, e5⟩
  · obtain ⟨e, g1, g2⟩ := d1.hit
    obtain ⟨e', g1', g2'⟩ := e1.hit
    have hk : k = k' := by
      rcases Nat.lt_trichotomy k k' with hlt | heq | hlt
      · exact absurd g2' (d1.longest k' hlt e1.inside e' ((hm _).2 (List.mem_of_getElem? g1')))
      · exact heq
      · exact absurd g2 (e1.longest k hlt d1.inside e ((hm _).1 (List.mem_of_getElem? g1)))
    subst hk
    rw [List.getElem?_map, d2] at g1
    rw [List.getElem?_map, e2] at g1'
    cases g1
    cases g1'
    obtain ⟨i1, i2⟩ := hdis x (List.mem_of_getElem? d2) y ((hxy _).2 (List.mem_of_getElem? e2)) _ g2 g2'
    exact ⟨d3.trans e3.symm, d4.trans e4.symm, by rw [d5, e5, i1], by rw [d6, e6, i2]⟩
  · obtain ⟨e, g1, g2⟩ := d1.hit
    exact absurd g2 (e1 k d1.nonempty d1.inside e ((hm _).1 (List.mem_of_getElem? g1)))
  · obtain ⟨e, g1, g2⟩ := e1.hit
    exact absurd g2 (d1 k' e1.nonempty e1.inside e ((hm _).2 (List.mem_of_getElem? g1)))
  · exact ⟨d2.trans e2.symm, d3.trans e3.symm, d4.trans e4.symm, d5.trans e5.symm⟩

/-- C71: rules of other lexer states do not matter: two machines with the same rules in this lexer state
report the same tokens in it, whatever rules the others have. -/
theorem C71_other_states {tr : Traits} (hnpos : 263 ≤ tr.npos) {R R' : Rules} {sm sm' : Internals} {f : Flags} {r : Results} {xs : List SRule}
    (h : PlainLexer tr R sm f r xs) (h' : PlainLexer tr R' sm' f r xs) {inp : List Nat} (hinp : ∀ c ∈ inp, c < charsOf tr)
    (hp : r.second < r.eoi) (he : r.eoi ≤ inp.length) :
    ∃ r1 r2, lookup f tr.npos (bytesOf tr) sm inp r = .ok r1 ∧ lookup f tr.npos (bytesOf tr) sm' inp r = .ok r2 ∧ sameToken r1 r2 := by
  obtain ⟨xss, a1, a2, a3⟩ := h.rules
  obtain ⟨addr, a4⟩ := h.built
  obtain ⟨xss', b1, b2, b3⟩ := h'.rules
  obtain ⟨addr', b4⟩ := h'.built
  obtain ⟨r1, h1, c1⟩ := C01_lookup_total hnpos a1 a2 a4 f hinp hp he a3 h.nonempty h.ids
  obtain ⟨r2, h2, c2⟩ := C01_lookup_total hnpos b1 b2 b4 f hinp hp he b3 h'.nonempty h'.ids
  refine ⟨r1, r2, h1, h2, ?_⟩
  rcases c1 with ⟨k, j, x, d1, d2, d3, d4, d5, d6⟩ | ⟨d1, d2, d3, d4, d5⟩ <;>
  rcases c2 with ⟨k', j', y, e1, e2, e3, e4, e5, e6⟩ | ⟨e1, e2, e3, e4, e5⟩
  · obtain ⟨rfl, rfl⟩ := order_best_unique d1 e1
    rw [d2] at e2
    cases e2
    exact ⟨d3.trans e3.symm, d4.trans e4.symm, d5.trans e5.symm, d6.trans e6.symm⟩
  · obtain ⟨e, g1, g2⟩ := d1.hit
    exact absurd g2 (e1 k d1.nonempty d1.inside e (List.mem_of_getElem? g1))
  · obtain ⟨e, g1, g2⟩ := e1.hit
    exact absurd g2 (d1 k' e1.nonempty e1.inside e (List.mem_of_getElem? g1))
  · exact ⟨d2.trans e2.symm, d3.trans e3.symm, d4.trans e4.symm, d5.trans e5.symm⟩

/-- C71: only the texts a rule matches count: if the rules of a lexer state are replaced, one by one, by rules that
match the same texts, possibly with other ids, tokens have the same texts, and the ids of the
corresponding rules. -/
theorem C71_same_texts {tr : Traits} (hnpos : 263 ≤ tr.npos) {R R' : Rules} {sm sm' : Internals} {f : Flags} {r : Results} {xs ys : List SRule}
    (h : PlainLexer tr R sm f r xs) (h' : PlainLexer tr R' sm' f r ys) (hlen : xs.length = ys.length)
    (hxy : ∀ (i : Nat) (x y : SRule), xs[i]? = some x → ys[i]? = some y → ∀ w, RMatches x.2 w ↔ RMatches y.2 w)
    {inp : List Nat} (hinp : ∀ c ∈ inp, c < charsOf tr) (hp : r.second < r.eoi) (he : r.eoi ≤ inp.length) :
    ∃ r1 r2, lookup f tr.npos (bytesOf tr) sm inp r = .ok r1 ∧ lookup f tr.npos (bytesOf tr) sm' inp r = .ok r2 ∧
      r1.first = r2.first ∧ r1.second = r2.second ∧
      ((∃ (i : Nat) (x y : SRule), xs[i]? = some x ∧ ys[i]? = some y ∧ r1.id = x.1.id ∧ r1.userId = x.1.userId ∧ r2.id = y.1.id ∧ r2.userId = y.1.userId) ∨
       (r1.id = tr.npos ∧ r1.userId = tr.npos ∧ r2.id = tr.npos ∧ r2.userId = tr.npos)) := by
  obtain ⟨xss, a1, a2, a3⟩ := h.rules
  obtain ⟨addr, a4⟩ := h.built
  obtain ⟨xss', b1, b2, b3⟩ := h'.rules
  obtain ⟨addr', b4⟩ := h'.built
  obtain ⟨r1, h1, c1⟩ := C01_lookup_total hnpos a1 a2 a4 f hinp hp he a3 h.nonempty h.ids
  obtain ⟨r2, h2, c2⟩ := C01_lookup_total hnpos b1 b2 b4 f hinp hp he b3 h'.nonempty h'.ids
  have hmap : ∀ (i : Nat) (e : Option Re), (ys.map (·.2))[i]? = some e → ∃ d, (xs.map (·.2))[i]? = some d ∧ ∀ w, RMatches d w ↔ RMatches e w := by
    intro i e hi
    rw [List.getElem?_map] at hi
    obtain ⟨y, hy, rfl⟩ := Option.map_eq_some_iff.1 hi
    have hlt := (List.getElem?_eq_some_iff.1 hy).1
    exact ⟨(xs[i]'(by omega)).2, by rw [List.getElem?_map, List.getElem?_eq_getElem (by omega)]; rfl,
      hxy i _ y (List.getElem?_eq_getElem _) hy⟩
  have hmem : ∀ e ∈ ys.map (·.2), ∃ d ∈ xs.map (·.2), ∀ w, RMatches d w ↔ RMatches e w := by
    intro e he
    obtain ⟨i, hi⟩ := List.getElem?_of_mem he
    obtain ⟨d, hd, hw⟩ := hmap i e hi
    exact ⟨d, List.mem_of_getElem? hd, hw⟩
  have hback : ∀ (i : Nat) (x : SRule), xs[i]? = some x → ∃ y, ys[i]? = some y ∧ ∀ w, RMatches x.2 w ↔ RMatches y.2 w := by
    intro i x hx
    have hlt := (List.getElem?_eq_some_iff.1 hx).1
    exact ⟨ys[i]'(by omega), List.getElem?_eq_getElem _, hxy i x _ hx (List.getElem?_eq_getElem _)⟩
  refine ⟨r1, r2, h1, h2, ?_⟩
  rcases c1 with ⟨k, j, x, d1, d2, d3, d4, d5, d6⟩ | ⟨d1, d2, d3, d4, d5⟩
  · obtain ⟨y, hy, hw⟩ := hback j x d2
    have hb : Best RMatches (ys.map (·.2)) inp r.second r.eoi k j := by
      refine ⟨d1.nonempty, d1.inside, ⟨y.2, by rw [List.getElem?_map, hy]; rfl, ?_⟩, fun i e hi he hm => ?_, fun k' g1 g2 e he hm => ?_⟩
      · obtain ⟨e, g1, g2⟩ := d1.hit
        rw [List.getElem?_map, d2] at g1
        cases g1
        exact (hw _).1 g2
      · obtain ⟨d, hd, hw⟩ := hmap i e he
        exact d1.earliest i d hi hd ((hw _).2 hm)
      · obtain ⟨d, hd, hw⟩ := hmem e he
        exact d1.longest k' g1 g2 d hd ((hw _).2 hm)
    rcases c2 with ⟨k', j', y', e1, e2, e3, e4, e5, e6⟩ | ⟨e1, -⟩
    · obtain ⟨rfl, rfl⟩ := order_best_unique hb e1
      exact ⟨d3.trans e3.symm, d4.trans e4.symm, .inl ⟨j, x, y', d2, e2, d5, d6, e5, e6⟩⟩
    · obtain ⟨e, g1, g2⟩ := hb.hit
      exact absurd g2 (e1 k hb.nonempty hb.inside e (List.mem_of_getElem? g1))
  · rcases c2 with ⟨k', j', y', e1, e2, e3, e4, e5, e6⟩ | ⟨e1, e2, e3, e4, e5⟩
    · obtain ⟨e, g1, g2⟩ := e1.hit
      obtain ⟨d, hd, hw⟩ := hmem e (List.mem_of_getElem? g1)
      exact absurd ((hw _).2 g2) (d1 k' e1.nonempty e1.inside d hd)
    · exact ⟨d2.trans e2.symm, d3.trans e3.symm, .inr ⟨d4, d5, e4, e5⟩⟩

/-- C71: a rule all of whose texts are matched by earlier rules can be left out: tokens stay the same. -/
theorem C71_suppressed {tr : Traits} (hnpos : 263 ≤ tr.npos) {R R' : Rules} {sm sm' : Internals} {f : Flags} {r : Results} {xs ys : List SRule} {x : SRule}
    (h : PlainLexer tr R sm f r (xs ++ x :: ys)) (h' : PlainLexer tr R' sm' f r (xs ++ ys))
    (hx : ∀ w, RMatches x.2 w → ∃ y ∈ xs, RMatches y.2 w)
    {inp : List Nat} (hinp : ∀ c ∈ inp, c < charsOf tr) (hp : r.second < r.eoi) (he : r.eoi ≤ inp.length) :
    ∃ r1 r2, lookup f tr.npos (bytesOf tr) sm inp r = .ok r1 ∧ lookup f tr.npos (bytesOf tr) sm' inp r = .ok r2 ∧ sameToken r1 r2 := by
  obtain ⟨xss, a1, a2, a3⟩ := h.rules
  obtain ⟨addr, a4⟩ := h.built
  obtain ⟨xss', b1, b2, b3⟩ := h'.rules
  obtain ⟨addr', b4⟩ := h'.built
  obtain ⟨r1, h1, c1⟩ := C01_lookup_total hnpos a1 a2 a4 f hinp hp he a3 h.nonempty h.ids
  obtain ⟨r2, h2, c2⟩ := C01_lookup_total hnpos b1 b2 b4 f hinp hp he b3 h'.nonempty h'.ids
  have hsub : ∀ e ∈ (xs ++ ys).map (·.2), e ∈ (xs ++ x :: ys).map (·.2) := by
    intro e he
    simp only [List.map_append, List.map_cons, List.mem_append, List.mem_cons] at he ⊢
    rcases he with h | h
    · exact .inl h
    · exact .inr (.inr h)
  have hsup : ∀ e ∈ (xs ++ x :: ys).map (·.2), ∀ w, RMatches e w → ∃ d ∈ (xs ++ ys).map (·.2), RMatches d w := by
    intro e he w hw
    simp only [List.map_append, List.map_cons, List.mem_append, List.mem_cons] at he ⊢
    rcases he with h | rfl | h
    · exact ⟨e, .inl h, hw⟩
    · obtain ⟨y, hy, hw⟩ := hx w hw
      exact ⟨y.2, .inl (List.mem_map_of_mem hy), hw⟩
    · exact ⟨e, .inr h, hw⟩
  refine ⟨r1, r2, h1, h2, ?_⟩
  rcases c1 with ⟨k, j, z, d1, d2, d3, d4, d5, d6⟩ | ⟨d1, d2, d3, d4, d5⟩ <;>
  rcases c2 with ⟨k', j', z', e1, e2, e3, e4, e5, e6⟩ | ⟨e1, e2, e3, e4, e5⟩
  · obtain ⟨e, g1, g2⟩ := d1.hit
    obtain ⟨e', g1', g2'⟩ := e1.hit
    obtain ⟨d, gd, gm⟩ := hsup e (List.mem_of_getElem? g1) _ g2
    have hk : k = k' := by
      rcases Nat.lt_trichotomy k k' with hlt | heq | hlt
      · exact absurd g2' (d1.longest k' hlt e1.inside e' (hsub _ (List.mem_of_getElem? g1')))
      · exact heq
      · exact absurd gm (e1.longest k hlt d1.inside d gd)
    subst hk
    have hz : z = z' := by
      rw [List.getElem?_map, d2] at g1
      rw [List.getElem?_map, e2] at g1'
      cases g1
      cases g1'
      have hbefore : ∀ (i : Nat) (u : SRule), i < xs.length → ((xs ++ x :: ys)[i]? = some u ↔ (xs ++ ys)[i]? = some u) := fun i u hi => by
        rw [List.getElem?_append_left hi, List.getElem?_append_left hi]
      have hafter : ∀ (i : Nat) (u : SRule), xs.length ≤ i → ((xs ++ x :: ys)[i + 1]? = some u ↔ (xs ++ ys)[i]? = some u) := fun i u hi => by
        rw [List.getElem?_append_right (by omega), List.getElem?_append_right hi, show i + 1 - xs.length = (i - xs.length) + 1 by omega, List.getElem?_cons_succ]
      have hd := fun i (u : SRule) hi (hu : (xs ++ x :: ys)[i]? = some u) => d1.earliest i u.2 hi (by rw [List.getElem?_map, hu]; rfl)
      have he := fun i (u : SRule) hi (hu : (xs ++ ys)[i]? = some u) => e1.earliest i u.2 hi (by rw [List.getElem?_map, hu]; rfl)
      by_cases hj : j < xs.length
      · have e2' := (hbefore j z hj).1 d2
        rcases Nat.lt_trichotomy j j' with hlt | heq | hlt
        · exact absurd g2 (he j z hlt e2')
        · subst heq
          exact Option.some.inj (e2'.symm.trans e2)
        · exact absurd g2' (hd j' z' hlt ((hbefore j' z' (by omega)).2 e2))
      · by_cases hj0 : j = xs.length
        · subst hj0
          rw [List.getElem?_append_right (Nat.le_refl _), Nat.sub_self, List.getElem?_cons_zero] at d2
          cases d2
          obtain ⟨y, hy, hw⟩ := hx _ g2
          obtain ⟨i, hi⟩ := List.getElem?_of_mem hy
          have hlt := (List.getElem?_eq_some_iff.1 hi).1
          exact absurd hw (hd i y hlt (by rw [List.getElem?_append_left hlt, hi]))
        · obtain ⟨i, rfl⟩ : ∃ i, j = i + 1 := ⟨j - 1, by omega⟩
          have e2' := (hafter i z (by omega)).1 d2
          rcases Nat.lt_trichotomy i j' with hlt | heq | hlt
          · exact absurd g2 (he i z hlt e2')
          · subst heq
            exact Option.some.inj (e2'.symm.trans e2)
          · by_cases hj' : j' < xs.length
            · exact absurd g2' (hd j' z' (by omega) ((hbefore j' z' hj').2 e2))
            · exact absurd g2' (hd (j' + 1) z' (by omega) ((hafter j' z' (by omega)).2 e2))
    subst hz
    exact ⟨d3.trans e3.symm, d4.trans e4.symm, d5.trans e5.symm, d6.trans e6.symm⟩
  · obtain ⟨e, g1, g2⟩ := d1.hit
    obtain ⟨d, gd, gm⟩ := hsup e (List.mem_of_getElem? g1) _ g2
    exact absurd gm (e1 k d1.nonempty d1.inside d gd)
  · obtain ⟨e, g1, g2⟩ := e1.hit
    exact absurd g2 (d1 k' e1.nonempty e1.inside e (hsub _ (List.mem_of_getElem? g1)))
  · exact ⟨d2.trans e2.symm, d3.trans e3.symm, d4.trans e4.symm, d5.trans e5.symm⟩

namespace Ex.Order
open Ex

/-- `a` with id 1, and the same with `[a-b]+` (id 2) added. -/
def xsA : List SRule := [chr 97 1]
def xAB : SRule := (rAB, some (.plus (.chars [(97, 98)]) false))

/-- `a` with id 1 and `b` with id 2, in both orders. -/
def xsAb : List SRule := [chr 97 1, chr 98 2]
def xsBa : List SRule := [chr 98 2, chr 97 1]

def one (xs : List SRule) : Rules := ⟨[xs.map (·.1)], [0], 0, false, false⟩

def oneAllowed (xs : List SRule) : Rules := ⟨[xs.map (·.1)], [0], 0, false, true⟩

theorem plain {xs : List SRule} {f : Flags} (hf : f.recursive = false) (h : ∀ x ∈ xs, One tr x) (hb : ∀ x ∈ xs, NoBol x.2) (hn : NoEmpty (xs.map (·.2)))
    (hc : ∀ ys ∈ [xs], (ys.map fun x => setsOf tr x.2).sum + 2 ≤ tr.npos)
    (hi : ∀ x ∈ xs, x.1.id ≠ 65534 ∧ x.1.id ≠ 0) (hm : (buildTemp tr (fun n => n) (one xs)).isOk = true) (e : Nat) :
    PlainLexer tr (one xs) (machine (one xs)) f (.mk' 65535 0 e) xs where
  rules := ⟨[xs], ruleSet_of rfl (by simpa using h) hc, by simpa using hb, rfl⟩
  built := ⟨_, machine_ok hm⟩
  nonempty := hn
  ids := fun x hx => ⟨(hi x hx).1, (hi x hx).2, .inl hf⟩

end Ex.Order

/-- The hypotheses of `C71_last_rule` are met: on `ab` the rule `[a-b]+` added after `a` takes both
characters. -/
example : ∃ r1 r2, lookup ⟨false, false, false, false, true⟩ 65535 1 (Ex.machine (Ex.Order.one Ex.Order.xsA)) [97, 98] (.mk' 65535 0 2) = .ok r1 ∧
    lookup ⟨false, false, false, false, true⟩ 65535 1 (Ex.machine (Ex.Order.one (Ex.Order.xsA ++ [Ex.Order.xAB]))) [97, 98] (.mk' 65535 0 2) = .ok r2 ∧
    r2.second = 2 ∧ r2.id = 2 := by
  have hA : ∀ w, RMatches (Ex.chr 97 1).2 w → w = [.ch 97] := by
    rintro w ⟨c, hc, rfl⟩
    have : c = 97 := by
      obtain ⟨q, hq, h1, h2⟩ := hc
      cases List.mem_singleton.1 hq
      exact Nat.le_antisymm h2 h1
    rw [this]
  have hAB : RMatches Ex.Order.xAB.2 [.ch 97, .ch 98] :=
    ⟨2, by omega, [.ch 97], [.ch 98], rfl, ⟨97, by decide, rfl⟩, [.ch 98], [], rfl, ⟨98, by decide, rfl⟩, rfl⟩
  have hABn : ¬ RMatches Ex.Order.xAB.2 [] := by
    rintro ⟨n, hn, hp⟩
    match n, hn, hp with
    | n + 1, _, ⟨u, v, h1, ⟨c, _, h2⟩, _⟩ =>
      rw [h2] at h1
      cases h1
  have hone : Ex.One Ex.tr Ex.Order.xAB := ⟨Ex.denAB, by simp only [CharSets, Ex.Order.xAB, Re.AllChars]; decide, rfl, rfl, rfl⟩
  obtain ⟨r1, r2, h1, h2, -, h3⟩ := C71_last_rule (tr := Ex.tr) (by decide) (f := ⟨false, false, false, false, true⟩)
    (Ex.Order.plain (xs := Ex.Order.xsA) rfl
      (by simp only [Ex.Order.xsA, List.mem_singleton, forall_eq]; exact Ex.one_chr (by decide) ..) (by simp only [Ex.Order.xsA, List.mem_singleton, forall_eq]; rfl)
      (by simp only [Ex.Order.xsA, NoEmpty, List.map_cons, List.map_nil, List.mem_singleton, forall_eq]; exact fun h => by cases hA _ h) (by decide) (by decide)
      (by decide +kernel) 2)
    (Ex.Order.plain (xs := Ex.Order.xsA ++ [Ex.Order.xAB]) rfl
      (by simp only [Ex.Order.xsA, List.cons_append, List.nil_append, List.mem_cons, List.not_mem_nil, or_false, forall_eq_or_imp, forall_eq]
          exact ⟨Ex.one_chr (by decide) .., hone⟩)
      (by simp only [Ex.Order.xsA, List.cons_append, List.nil_append, List.mem_cons, List.not_mem_nil, or_false, forall_eq_or_imp, forall_eq]; exact ⟨rfl, rfl⟩)
      (by simp only [Ex.Order.xsA, NoEmpty, List.cons_append, List.nil_append, List.map_cons, List.map_nil, List.mem_cons, List.not_mem_nil, or_false, forall_eq_or_imp, forall_eq]
          exact ⟨fun h => (by cases hA _ h), hABn⟩) (by decide) (by decide)
      (by decide +kernel) 2)
    (inp := [97, 98]) (by decide) (by decide) (by decide)
  obtain ⟨-, h5, h6, -⟩ := h3 2 ⟨by decide, by decide, hAB, fun k' g1 g2 e' he' hm => by
      obtain rfl : k' = 2 := Nat.le_antisymm g2 g1
      simp only [Ex.Order.xsA, List.map_cons, List.map_nil, List.mem_singleton] at he'
      subst he'
      cases hA _ hm⟩ (fun k' g1 g2 => absurd g2 (by simp only [Results.mk']; omega))
  exact ⟨r1, r2, h1, h2, h5, h6⟩

/-- The hypotheses of `C71_order` are met by `a` and `b` in both orders. -/
example : ∃ r1 r2, lookup ⟨false, false, false, false, true⟩ 65535 1 (Ex.machine (Ex.Order.one Ex.Order.xsAb)) [97, 98] (.mk' 65535 0 2) = .ok r1 ∧
    lookup ⟨false, false, false, false, true⟩ 65535 1 (Ex.machine (Ex.Order.one Ex.Order.xsBa)) [97, 98] (.mk' 65535 0 2) = .ok r2 ∧ sameToken r1 r2 := by
  have hC : ∀ (c id : Nat) w, RMatches (Ex.chr c id).2 w → w = [.ch c] := by
    rintro c id w ⟨d, hd, rfl⟩
    have : d = c := by
      obtain ⟨q, hq, h1, h2⟩ := hd
      cases List.mem_singleton.1 hq
      exact Nat.le_antisymm h2 h1
    rw [this]
  refine C71_order (tr := Ex.tr) (by decide) (f := ⟨false, false, false, false, true⟩)
    (Ex.Order.plain (xs := Ex.Order.xsAb) rfl ?_ ?_ ?_ (by decide) (by decide) (by decide +kernel) 2)
    (Ex.Order.plain (xs := Ex.Order.xsBa) rfl ?_ ?_ ?_ (by decide) (by decide) (by decide +kernel) 2)
    (fun x => by simp only [Ex.Order.xsAb, Ex.Order.xsBa, List.mem_cons, List.not_mem_nil, or_false]; exact Or.comm) ?_
    (inp := [97, 98]) (by decide) (by decide) (by decide)
  all_goals simp only [Ex.Order.xsAb, Ex.Order.xsBa, NoEmpty, List.map_cons, List.map_nil, List.mem_cons, List.not_mem_nil, or_false, forall_eq_or_imp, forall_eq]
  · exact ⟨Ex.one_chr (by decide) .., Ex.one_chr (by decide) ..⟩
  · exact ⟨rfl, rfl⟩
  · exact ⟨fun h => (by cases hC _ _ _ h), fun h => (by cases hC _ _ _ h)⟩
  · exact ⟨Ex.one_chr (by decide) .., Ex.one_chr (by decide) ..⟩
  · exact ⟨rfl, rfl⟩
  · exact ⟨fun h => (by cases hC _ _ _ h), fun h => (by cases hC _ _ _ h)⟩
  · refine ⟨⟨fun _ _ _ => (by simp), fun w g1 g2 => ?_⟩, fun w g1 g2 => ?_, fun _ _ _ => (by simp)⟩ <;>
    · have := (hC _ _ _ g1).symm.trans (hC _ _ _ g2)
      simp at this

/-- The hypotheses of `C71_other_states` are met: `a` and `b` alone, and with a second lexer state that has
the rule `c`. -/
example : ∃ r1 r2, lookup ⟨false, false, false, false, true⟩ 65535 1 (Ex.machine (Ex.Order.one Ex.Order.xsAb)) [97, 98] (.mk' 65535 0 2) = .ok r1 ∧
    lookup ⟨false, false, false, false, true⟩ 65535 1 (Ex.machine ⟨[Ex.Order.xsAb.map (·.1), [(Ex.chr 99 3).1]], [0, 0], 0, false, false⟩) [97, 98]
      (.mk' 65535 0 2) = .ok r2 ∧ sameToken r1 r2 := by
  have hC : ∀ (c id : Nat), ¬ RMatches (Ex.chr c id).2 [] := by
    rintro c id ⟨d, hd, h⟩
    cases h
  have hone : ∀ x ∈ Ex.Order.xsAb, Ex.One Ex.tr x := by
    simp only [Ex.Order.xsAb, List.mem_cons, List.not_mem_nil, or_false, forall_eq_or_imp, forall_eq]
    exact ⟨Ex.one_chr (by decide) .., Ex.one_chr (by decide) ..⟩
  have hbol : ∀ x ∈ Ex.Order.xsAb, NoBol x.2 := by
    simp only [Ex.Order.xsAb, List.mem_cons, List.not_mem_nil, or_false, forall_eq_or_imp, forall_eq]
    exact ⟨rfl, rfl⟩
  have hne : NoEmpty (Ex.Order.xsAb.map (·.2)) := by
    simp only [Ex.Order.xsAb, NoEmpty, List.map_cons, List.map_nil, List.mem_cons, List.not_mem_nil, or_false, forall_eq_or_imp, forall_eq]
    exact ⟨hC _ _, hC _ _⟩
  refine C71_other_states (tr := Ex.tr) (by decide) (f := ⟨false, false, false, false, true⟩)
    (Ex.Order.plain (xs := Ex.Order.xsAb) rfl hone hbol hne (by decide) (by decide) (by decide +kernel) 2)
    ⟨⟨[Ex.Order.xsAb, [Ex.chr 99 3]], Ex.ruleSet_of rfl ?_ (by decide), ?_, rfl⟩, ⟨_, Ex.machine_ok (by decide +kernel)⟩, hne, ?_⟩
    (inp := [97, 98]) (by decide) (by decide) (by decide)
  · intro ys hys
    rcases List.mem_cons.1 hys with rfl | hys
    · exact hone
    · cases List.mem_singleton.1 hys
      simp only [List.mem_singleton, forall_eq]
      exact Ex.one_chr (by decide) ..
  · intro ys hys
    rcases List.mem_cons.1 hys with rfl | hys
    · exact hbol
    · cases List.mem_singleton.1 hys
      simp only [List.mem_singleton, forall_eq]
      rfl
  · intro x hx
    have : ∀ x ∈ Ex.Order.xsAb, x.1.id ≠ 65534 ∧ x.1.id ≠ 0 := by decide
    exact ⟨(this x hx).1, (this x hx).2, .inl rfl⟩

/-- The hypotheses of `C71_same_texts` are met by `a` and `b` with ids 1 and 2, and with ids 5 and 6. -/
example : ∃ r1 r2, lookup ⟨false, false, false, false, true⟩ 65535 1 (Ex.machine (Ex.Order.one Ex.Order.xsAb)) [98, 97] (.mk' 65535 0 2) = .ok r1 ∧
    lookup ⟨false, false, false, false, true⟩ 65535 1 (Ex.machine (Ex.Order.one [Ex.chr 97 5, Ex.chr 98 6])) [98, 97] (.mk' 65535 0 2) = .ok r2 ∧
    r1.first = r2.first ∧ r1.second = r2.second := by
  have hC : ∀ (c id : Nat), ¬ RMatches (Ex.chr c id).2 [] := by
    rintro c id ⟨d, hd, h⟩
    cases h
  obtain ⟨r1, r2, h1, h2, h3, h4, -⟩ := C71_same_texts (tr := Ex.tr) (by decide) (f := ⟨false, false, false, false, true⟩)
    (Ex.Order.plain (xs := Ex.Order.xsAb) rfl
      (by simp only [Ex.Order.xsAb, List.mem_cons, List.not_mem_nil, or_false, forall_eq_or_imp, forall_eq]
          exact ⟨Ex.one_chr (by decide) .., Ex.one_chr (by decide) ..⟩)
      (by simp only [Ex.Order.xsAb, List.mem_cons, List.not_mem_nil, or_false, forall_eq_or_imp, forall_eq]; exact ⟨rfl, rfl⟩)
      (by simp only [Ex.Order.xsAb, NoEmpty, List.map_cons, List.map_nil, List.mem_cons, List.not_mem_nil, or_false, forall_eq_or_imp, forall_eq]
          exact ⟨hC _ _, hC _ _⟩) (by decide) (by decide) (by decide +kernel) 2)
    (Ex.Order.plain (xs := [Ex.chr 97 5, Ex.chr 98 6]) rfl
      (by simp only [List.mem_cons, List.not_mem_nil, or_false, forall_eq_or_imp, forall_eq]
          exact ⟨Ex.one_chr (by decide) .., Ex.one_chr (by decide) ..⟩)
      (by simp only [List.mem_cons, List.not_mem_nil, or_false, forall_eq_or_imp, forall_eq]; exact ⟨rfl, rfl⟩)
      (by simp only [NoEmpty, List.map_cons, List.map_nil, List.mem_cons, List.not_mem_nil, or_false, forall_eq_or_imp, forall_eq]
          exact ⟨hC _ _, hC _ _⟩) (by decide) (by decide) (by decide +kernel) 2)
    rfl (fun i x y hx hy => by
      match i with
      | 0 => cases hx; cases hy; exact fun w => Iff.rfl
      | 1 => cases hx; cases hy; exact fun w => Iff.rfl
      | i + 2 => cases hx) (inp := [98, 97]) (by decide) (by decide) (by decide)
  exact ⟨r1, r2, h1, h2, h3, h4⟩

/-- The hypotheses of `C71_suppressed` are met by `[a-b]+` followed by `a`. -/
example : ∃ r1 r2, lookup ⟨false, false, false, false, true⟩ 65535 1 (Ex.machine (Ex.Order.oneAllowed [Ex.Order.xAB, Ex.chr 97 1])) [97, 98] (.mk' 65535 0 2) = .ok r1 ∧
    lookup ⟨false, false, false, false, true⟩ 65535 1 (Ex.machine (Ex.Order.oneAllowed [Ex.Order.xAB])) [97, 98] (.mk' 65535 0 2) = .ok r2 ∧ sameToken r1 r2 := by
  have hC : ∀ (c id : Nat), ¬ RMatches (Ex.chr c id).2 [] := by
    rintro c id ⟨d, hd, h⟩
    cases h
  have hABn : ¬ RMatches Ex.Order.xAB.2 [] := by
    rintro ⟨n, hn, hp⟩
    match n, hn, hp with
    | n + 1, _, ⟨u, v, h1, ⟨c, _, h2⟩, _⟩ =>
      rw [h2] at h1
      cases h1
  have hone : Ex.One Ex.tr Ex.Order.xAB := ⟨Ex.denAB, by simp only [CharSets, Ex.Order.xAB, Re.AllChars]; decide, rfl, rfl, rfl⟩
  refine C71_suppressed (tr := Ex.tr) (R := Ex.Order.oneAllowed [Ex.Order.xAB, Ex.chr 97 1]) (R' := Ex.Order.oneAllowed [Ex.Order.xAB]) (by decide) (f := ⟨false, false, false, false, true⟩) (xs := [Ex.Order.xAB]) (ys := []) (x := Ex.chr 97 1)
    ⟨⟨[[Ex.Order.xAB, Ex.chr 97 1]], Ex.ruleSet_of rfl ?_ (by decide), ?_, rfl⟩, ⟨_, Ex.machine_ok (by decide +kernel)⟩, ?_, ?_⟩
    ⟨⟨[[Ex.Order.xAB]], Ex.ruleSet_of rfl ?_ (by decide), ?_, rfl⟩, ⟨_, Ex.machine_ok (by decide +kernel)⟩, ?_, ?_⟩
    ?_ (inp := [97, 98]) (by decide) (by decide) (by decide)
  all_goals simp only [NoEmpty, List.cons_append, List.nil_append, List.append_nil, List.map_cons, List.map_nil, List.mem_cons, List.not_mem_nil, or_false, forall_eq_or_imp, forall_eq]
  · exact ⟨hone, Ex.one_chr (by decide) ..⟩
  · exact ⟨rfl, rfl⟩
  · exact ⟨hABn, hC _ _⟩
  · exact ⟨⟨by decide, by decide, .inl trivial⟩, by decide, by decide, .inl trivial⟩
  · exact hone
  · rfl
  · exact hABn
  · exact ⟨by decide, by decide, .inl trivial⟩
  · rintro w ⟨d, hd, rfl⟩
    have : d = 97 := by
      obtain ⟨q, hq, h1, h2⟩ := hd
      cases List.mem_singleton.1 hq
      exact Nat.le_antisymm h2 h1
    subst this
    exact ⟨Ex.Order.xAB, rfl, 1, by omega, [.ch 97], [], rfl, ⟨97, by decide, rfl⟩, rfl⟩

end Lexertl.Props
