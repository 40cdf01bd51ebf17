import Verif.Props.RuleOrder

/-
C72: how far a token looks ahead.
-/
namespace Lexertl.Props
open Spec

theorem text_take {inp : List Nat} {p k q : Nat} (h : k ≤ q) : text (inp.take q) p k = text inp p k := by
  unfold text
  rw [List.drop_take, List.take_take, Nat.min_eq_left (by omega)]

theorem text_append {inp : List Nat} {p q k : Nat} (hp : p ≤ q) (hq : q ≤ k) : text inp p k = text inp p q ++ text inp q k := by
  unfold text
  rw [← List.map_append]
  congr 1
  have : inp.drop q = (inp.drop p).drop (q - p) := by rw [List.drop_drop]; congr 1; omega
  rw [this, show k - p = (q - p) + (k - q) by omega, List.take_add]

/-- C72: a token depends only on the characters up to a position `q` from which no rule can go on, that is,
no rule matches a text that starts with the characters up to `q`.  What follows may be anything, and
the input may end there. -/
theorem C72_lookahead {tr : Traits} (hnpos : 263 ≤ tr.npos) {R : Rules} {sm : Internals} {f : Flags} {r : Results} {xs : List SRule}
    (h : PlainLexer tr R sm f r xs) {inp inp' : List Nat} (hinp : ∀ c ∈ inp, c < charsOf tr) (hinp' : ∀ c ∈ inp', c < charsOf tr)
    {q eoi' : Nat} (hq : r.second < q) (he : q ≤ r.eoi) (he' : q ≤ eoi') (hl : r.eoi ≤ inp.length) (hl' : eoi' ≤ inp'.length)
    (hsame : inp.take q = inp'.take q) (hstuck : ∀ x ∈ xs, ∀ w, ¬ RMatches x.2 (text inp r.second q ++ w)) :
    ∃ r1 r2, lookup f tr.npos (bytesOf tr) sm inp r = .ok r1 ∧ lookup f tr.npos (bytesOf tr) sm inp' { r with eoi := eoi' } = .ok r2 ∧
      sameToken r1 r2 ∧ r1.second ≤ q := by
  obtain ⟨xss, a1, a2, a3⟩ := h.rules
  obtain ⟨addr, a4⟩ := h.built
  obtain ⟨r1, h1, c1⟩ := C01_lookup_total hnpos a1 a2 a4 f hinp (show r.second < r.eoi by omega) hl a3 h.nonempty h.ids
  obtain ⟨r2, h2, c2⟩ := C01_lookup_total hnpos a1 a2 a4 f hinp' (r := { r with eoi := eoi' }) (show r.second < eoi' by omega) hl' a3 h.nonempty h.ids
  have ht : ∀ k, k ≤ q → text inp r.second k = text inp' r.second k := fun k hk => by
    rw [← text_take hk, hsame, text_take hk]
  have hs1 : ∀ k, q ≤ k → ∀ e ∈ xs.map (·.2), ¬ RMatches e (text inp r.second k) := by
    intro k hk e he hm
    obtain ⟨x, hx, rfl⟩ := List.mem_map.1 he
    rw [text_append (Nat.le_of_lt hq) hk] at hm
    exact hstuck x hx _ hm
  have hs2 : ∀ k, q ≤ k → ∀ e ∈ xs.map (·.2), ¬ RMatches e (text inp' r.second k) := by
    intro k hk e he hm
    obtain ⟨x, hx, rfl⟩ := List.mem_map.1 he
    rw [text_append (Nat.le_of_lt hq) hk, ← ht q (Nat.le_refl _)] at hm
    exact hstuck x hx _ hm
  have hb : ∀ k j, Best RMatches (xs.map (·.2)) inp r.second r.eoi k j → k < q ∧ Best RMatches (xs.map (·.2)) inp' r.second eoi' k j := by
    intro k j hb
    obtain ⟨e, g1, g2⟩ := hb.hit
    have hk : k < q := Nat.lt_of_not_le fun hk => hs1 k hk e (List.mem_of_getElem? g1) g2
    refine ⟨hk, hb.nonempty, by omega, ⟨e, g1, ht k (Nat.le_of_lt hk) ▸ g2⟩, fun i d hi hd => ht k (Nat.le_of_lt hk) ▸ hb.earliest i d hi hd,
      fun k' i1 i2 d hd => ?_⟩
    by_cases hk' : k' ≤ q
    · exact ht k' hk' ▸ hb.longest k' i1 (by omega) d hd
    · exact hs2 k' (by omega) d hd
  have hn : NoMatch RMatches (xs.map (·.2)) inp r.second r.eoi → NoMatch RMatches (xs.map (·.2)) inp' r.second eoi' := by
    intro hn k i1 i2 d hd
    by_cases hk : k ≤ q
    · exact ht k hk ▸ hn k i1 (by omega) d hd
    · exact hs2 k (by omega) d hd
  refine ⟨r1, r2, h1, h2, ?_⟩
  rcases c1 with ⟨k, j, x, d1, d2, d3, d4, d5, d6⟩ | ⟨d1, d2, d3, d4, d5⟩
  · obtain ⟨hk, hb'⟩ := hb k j d1
    refine ⟨?_, by omega⟩
    rcases c2 with ⟨k', j', y, e1, e2, e3, e4, e5, e6⟩ | ⟨e1, -⟩
    · obtain ⟨rfl, rfl⟩ := order_best_unique hb' e1
      rw [d2] at e2
      cases e2
      exact ⟨d3.trans e3.symm, d4.trans e4.symm, d5.trans e5.symm, d6.trans e6.symm⟩
    · obtain ⟨e, g1, g2⟩ := hb'.hit
      exact absurd g2 (e1 k hb'.nonempty hb'.inside e (List.mem_of_getElem? g1))
  · refine ⟨?_, by rw [d3]; split <;> omega⟩
    rcases c2 with ⟨k', j', y, e1, e2, e3, e4, e5, e6⟩ | ⟨e1, e2, e3, e4, e5⟩
    · obtain ⟨e, g1, g2⟩ := e1.hit
      exact absurd g2 (hn d1 k' e1.nonempty e1.inside e (List.mem_of_getElem? g1))
    · exact ⟨d2.trans e2.symm, d3.trans e3.symm, d4.trans e4.symm, d5.trans e5.symm⟩

/-- The hypotheses are met: with the rules `a` and `b` no rule goes on from the second character. -/
example : ∃ r1 r2, lookup ⟨false, false, false, false, true⟩ 65535 1 (Ex.machine (Ex.Order.one Ex.Order.xsAb)) [97, 98] (.mk' 65535 0 2) = .ok r1 ∧
    lookup ⟨false, false, false, false, true⟩ 65535 1 (Ex.machine (Ex.Order.one Ex.Order.xsAb)) [97, 98, 99, 99] (.mk' 65535 0 4) = .ok r2 ∧
    sameToken r1 r2 ∧ r1.second ≤ 2 := by
  have hC : ∀ (c id : Nat) w, RMatches (Ex.chr c id).2 w → w = [.ch c] := by
    rintro c id w ⟨d, hd, rfl⟩
    have : d = c := by
      obtain ⟨q, hq, h1, h2⟩ := hd
      cases List.mem_singleton.1 hq
      exact Nat.le_antisymm h2 h1
    rw [this]
  refine C72_lookahead (tr := Ex.tr) (by decide) (f := ⟨false, false, false, false, true⟩) (q := 2) (eoi' := 4)
    (Ex.Order.plain (xs := Ex.Order.xsAb) rfl ?_ ?_ ?_ (by decide) (by decide) (by decide +kernel) 2)
    (inp := [97, 98]) (inp' := [97, 98, 99, 99]) (by decide) (by decide) (by decide) (by decide) (by decide) (by decide) (by decide) rfl ?_
  all_goals simp only [Ex.Order.xsAb, NoEmpty, List.map_cons, List.map_nil, List.mem_cons, List.not_mem_nil, or_false, forall_eq_or_imp, forall_eq]
  · exact ⟨Ex.one_chr (by decide) .., Ex.one_chr (by decide) ..⟩
  · exact ⟨rfl, rfl⟩
  · exact ⟨fun h => (by cases hC _ _ _ h), fun h => (by cases hC _ _ _ h)⟩
  · exact ⟨fun w h => (by cases hC _ _ _ h), fun w h => (by cases hC _ _ _ h)⟩

end Lexertl.Props
