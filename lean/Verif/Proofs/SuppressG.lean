import Verif.Proofs.LexG
import Verif.Proofs.Suppress

/-
Suppressed rules and rules matching the empty text, for rules with `$` and non-greedy
operators.
-/
namespace Lexertl.Line
open Spec

theorem earliest_canWin {tr : Traits} {R : Rules} {xss : List (List SRule)} (h : AnyRules tr R xss) {i : Nat}
    {xs : List SRule} (hi : xss[i]? = some xs) (htwo : ∀ x ∈ xs, TwoPlanes tr x.2) (j : Nat) :
    (∃ w, Earliest (Wide.words tr) (stateBol R.features i) xs j w) ↔ CanWinAny (xs.map (·.2)) j := by
  have hmem := List.mem_of_getElem? hi
  have hat : ∀ (atLine : Bool) (pre : List Sym) (v : List Sym), (∀ s ∈ v, Wide.Known tr s) → Sym.bol ∉ v →
      ((pre = [.bol] ∧ atLine = true ∧ ∃ j w, j < xs.length ∧
          ruleWords (Wide.words tr) (stateBol R.features i) xs j (.bol :: w)) ∨
       (pre = [] ∧ (atLine = true → ∀ j w, j < xs.length →
          ¬ ruleWords (Wide.words tr) (stateBol R.features i) xs j (.bol :: w)))) →
      (Earliest (Wide.words tr) (stateBol R.features i) xs j (pre ++ v.flatMap (Wide.encode tr)) ↔
      First (LineMatch atLine) (xs.map (·.2)) v j) := by
    intro atLine pre v hk hv hpre
    have key := fun j' => words_at (h.sets xs hmem) (stateBol_of h hi) atLine pre (by
      rcases hpre with hpre | ⟨h1, h2⟩
      · exact .inl hpre
      · exact .inr ⟨h1, fun ha => .inl (h2 ha)⟩) j' hk hv
    constructor
    · rintro ⟨h1, h2, h3⟩
      rw [key] at h2
      obtain ⟨x, g1, g2⟩ := h2
      refine ⟨⟨x.2, by simp [g1], g2⟩, fun i' e hi' he hm => ?_⟩
      rw [List.getElem?_map] at he
      cases hx' : xs[i']? with
      | none => rw [hx'] at he; cases he
      | some x' =>
        rw [hx'] at he
        cases he
        exact h3 i' hi' ((key i').2 ⟨x', hx', hm⟩)
    · rintro ⟨⟨e, h1, h2⟩, h3⟩
      rw [List.getElem?_map] at h1
      cases hx : xs[j]? with
      | none => rw [hx] at h1; cases h1
      | some x =>
        rw [hx] at h1
        cases h1
        refine ⟨(List.getElem?_eq_some_iff.1 hx).1, (key j).2 ⟨x, hx, h2⟩, fun i' hi' hm => ?_⟩
        obtain ⟨x', g1, g2⟩ := (key i').1 hm
        exact h3 i' x'.2 hi' (by simp [g1]) g2
  have hform : ∀ x ∈ xs, NoEol x.2 ∨ EndsDollar x.2 := by
    intro x hx
    rcases h.dollar xs hmem with hd | ⟨_, hd⟩
    · exact .inl (hd x hx)
    · exact hd.form _ (List.mem_map.2 ⟨x, hx, rfl⟩)
  have hshape : ∀ v : List Sym, Sym.bol ∉ v → (∀ u w, v = u ++ .eol :: w → w = [] ∧ Sym.eol ∉ u) →
      ∃ (cs : List Nat) (d : Bool), v = cs.map .ch ++ if d then [.eol] else [] := by
    intro v h1 h2
    by_cases he : Sym.eol ∈ v
    · obtain ⟨u, w, rfl⟩ := List.append_of_mem he
      obtain ⟨rfl, h4⟩ := h2 u w rfl
      obtain ⟨cs, rfl⟩ := chars_of u (fun hb => h1 (by simp [hb])) h4
      exact ⟨cs, true, rfl⟩
    · obtain ⟨cs, rfl⟩ := chars_of v h1 he
      exact ⟨cs, false, by simp⟩
  constructor
  · rintro ⟨w, hw⟩
    have hw0 := hw
    obtain ⟨hj, ⟨x, hx, hfx⟩, _⟩ := hw0
    have hxm := List.mem_of_getElem? hx
    have htail : ∀ v, RMatches x.2 v → Sym.bol ∉ v.tail := by
      intro v hv
      have n2 := h.bolHead xs hmem x hxm
      cases hr : x.2 with
      | none => rw [hr] at hv; rw [show v = [] from hv]; simp
      | some r =>
        rw [hr] at hv n2
        exact bolHead_words n2 hv
    have hknown : ∀ v, RMatches x.2 v → ∀ s ∈ v, Wide.Known tr s :=
      fun v hv => matches_known (h.sets xs hmem x hxm) hv
    have heol : ∀ v, RMatches x.2 v → ∀ u w, v = u ++ .eol :: w → w = [] ∧ Sym.eol ∉ u := by
      rintro v hv u w rfl
      exact eol_shape (hform x hxm) hv
    have hcases : ∃ (cs : List Nat) (d : Bool), (∀ s ∈ cs.map Sym.ch ++ (if d then [Sym.eol] else []), Wide.Known tr s) ∧
        (w = .bol :: (cs.map Sym.ch ++ (if d then [Sym.eol] else [])).flatMap (Wide.encode tr) ∨
         w = (cs.map Sym.ch ++ (if d then [Sym.eol] else [])).flatMap (Wide.encode tr)) := by
      rcases hfx with hfx | ⟨_, hno, w', rfl, hfx⟩
      · obtain ⟨v, hv, rfl⟩ := words_two (htwo x hxm) hfx
        have n2 := htail v hv
        have hk := hknown v hv
        have he := heol v hv
        by_cases hb : Sym.bol ∈ v
        · cases v with
          | nil => simp at hb
          | cons a v =>
            have : a = .bol := by
              rcases List.mem_cons.1 hb with hb | hb
              · exact hb.symm
              · exact absurd hb n2
            subst this
            obtain ⟨cs, d, rfl⟩ := hshape v n2 (fun u w huw => by
              have := he (.bol :: u) w (by rw [huw]; rfl)
              exact ⟨this.1, fun h => this.2 (by simp [h])⟩)
            exact ⟨cs, d, fun s hs => hk s (by simp only [List.mem_cons]; exact .inr hs), .inl rfl⟩
        · obtain ⟨cs, d, rfl⟩ := hshape v hb he
          exact ⟨cs, d, hk, .inr rfl⟩
      · obtain ⟨v, hv, rfl⟩ := words_two (htwo x hxm) hfx
        have n2 := htail v hv
        have hk := hknown v hv
        have n3 : Sym.bol ∉ v := by
          cases v with
          | nil => simp
          | cons a v =>
            simp only [List.mem_cons, not_or]
            refine ⟨fun ha => hno ⟨v.flatMap (Wide.encode tr), ?_⟩, n2⟩
            rw [← ha] at hfx
            exact hfx
        obtain ⟨cs, d, rfl⟩ := hshape v n3 (heol v hv)
        exact ⟨cs, d, hk, .inl rfl⟩
    obtain ⟨cs, d, hk, hw'⟩ := hcases
    have hb : Sym.bol ∉ cs.map Sym.ch ++ (if d then [Sym.eol] else []) := by
      cases d <;> simp
    rcases hw' with rfl | rfl
    · exact ⟨true, cs, d, (hat true [.bol] _ hk hb (.inl ⟨rfl, rfl, j, _, hj, hw.2.1⟩)).1 hw⟩
    · exact ⟨false, cs, d, (hat false [] _ hk hb (.inr ⟨rfl, by simp⟩)).1 hw⟩
  · rintro ⟨atLine, cs, d, hcs⟩
    have hv : Sym.bol ∉ cs.map Sym.ch ++ (if d then [Sym.eol] else []) := by
      cases d <;> simp
    have hck : ∀ s ∈ cs.map Sym.ch ++ (if d then [Sym.eol] else []), Wide.Known tr s := by
      obtain ⟨⟨e, he, hm⟩, _⟩ := hcs
      rw [List.getElem?_map] at he
      cases hx : xs[j]? with
      | none => rw [hx] at he; cases he
      | some x =>
        rw [hx] at he
        cases he
        have hs := h.sets xs hmem x (List.mem_of_getElem? hx)
        rcases hm with ⟨_, hm⟩ | ⟨_, hm⟩
        · exact fun s hs' => matches_known hs hm s (by simp only [List.mem_cons]; exact .inr hs')
        · exact matches_known hs hm
    by_cases hb : atLine = true ∧ ∃ j w, j < xs.length ∧
        ruleWords (Wide.words tr) (stateBol R.features i) xs j (.bol :: w)
    · exact ⟨_, (hat atLine [.bol] _ hck hv (.inl ⟨rfl, hb⟩)).2 hcs⟩
    · exact ⟨_, (hat atLine [] _ hck hv (.inr ⟨rfl, fun h1 j w h2 h3 => hb ⟨h1, j, w, h2, h3⟩⟩)).2 hcs⟩

end Lexertl.Line
