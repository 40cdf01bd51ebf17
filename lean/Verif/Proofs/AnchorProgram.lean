import Verif.Proofs.Program
import Verif.Spec.Line

/-
Programs whose rules use `^` and `$`.
-/
namespace Lexertl.Anchors
open Spec Reading

theorem both {P Q : List (Nat × Nat) → Prop} (r : Re) : r.AllChars P → r.AllChars Q → r.AllChars (fun t => P t ∧ Q t) := by
  induction r with
  | chars t => exact fun h1 h2 => ⟨h1, h2⟩
  | bol | eol => exact fun _ _ => trivial
  | seq l r ih1 ih2 => exact fun h1 h2 => ⟨ih1 h1.1 h2.1, ih2 h1.2 h2.2⟩
  | alt l r ih1 ih2 => exact fun h1 h2 => ⟨ih1 h1.1 h2.1, ih2 h1.2 h2.2⟩
  | opt r _ ih => exact ih
  | star r _ ih => exact ih
  | plus r _ ih => exact ih
  | rep r _ _ _ ih => exact ih

theorem mono {P Q : List (Nat × Nat) → Prop} (hPQ : ∀ t, P t → Q t) (r : Re) : r.AllChars P → r.AllChars Q := by
  induction r with
  | chars t => exact hPQ t
  | bol | eol => exact fun _ => trivial
  | seq l r ih1 ih2 => exact fun h1 => ⟨ih1 h1.1, ih2 h1.2⟩
  | alt l r ih1 ih2 => exact fun h1 => ⟨ih1 h1.1, ih2 h1.2⟩
  | opt r _ ih => exact ih
  | star r _ ih => exact ih
  | plus r _ ih => exact ih
  | rep r _ _ _ ih => exact ih

theorem ran_exprs {E : TokEnv} {tr : Traits} {f : ReFlags} {M : List (List Nat × Re)} {es : List (Re × Nat × Nat)} {o : RulesObj}
    {xs : List SRule} (h : Ran E tr f M es o xs) : xs.map (·.2) = es.map fun e => some e.1 := by
  have := congrArg (List.map (·.1)) h.rules
  simpa [Function.comp_def] using this

/-- The object a program leaves satisfies what the theorems about lexers assume. -/
theorem program_anyRules {E : TokEnv} {tr : Traits} (hmax : E.max + 1 = charsOf tr) {f : ReFlags} {M : List (List Nat × Re)}
    {es : List (Re × Nat × Nat)} {o : RulesObj} {xs : List SRule} (h : Ran E tr f M es o xs)
    (hbol : ∀ e ∈ es, e.1.bolHead = true)
    (heol : (∀ e ∈ es, e.1.noEol = true) ∨ (264 ≤ tr.npos ∧ DollarOk tr (es.map fun e => some e.1)))
    (hplanes : tr.compressed = true → tr.char24 = true → ∀ e ∈ es, e.1.AllChars fun t => ∀ x ∈ t, FewPlanes x)
    (hcount : (es.map fun e => e.1.slots tr + 2 * e.1.dollars).sum + 2 ≤ tr.npos) : AnyRules tr o.rules [xs] := by
  have hmem : ∀ x ∈ xs, ∃ e ∈ es, x.2 = some e.1 := by
    intro x hx
    have : (x.2, x.1.id, x.1.userId) ∈ es.map (fun e => (some e.1, e.2.1, e.2.2)) := h.rules ▸ List.mem_map_of_mem hx
    obtain ⟨e, he, heq⟩ := List.mem_map.1 this
    exact ⟨e, he, by injection heq with h1 _; exact h1.symm⟩
  refine ⟨by simp [RulesObj.rules, h.states], ?_, ?_, ?_, ?_, ?_, ?_, ?_⟩
  · intro ys hys x hx
    simp at hys; subst hys
    exact (h.each x hx).1
  · intro ys hys x hx
    simp at hys; subst hys
    obtain ⟨r, hr, _, hs⟩ := (h.each x hx).2.2.2.2
    obtain ⟨e, he, hxe⟩ := hmem x hx
    rw [hr] at hxe
    injection hxe with hxe
    rw [hr]
    have hw : E.max = charsOf tr - 1 := by omega
    show r.AllChars _
    by_cases hc : tr.compressed = true ∧ tr.char24 = true
    · refine mono (fun t ht => ?_) r (both r hs (hxe ▸ hplanes hc.1 hc.2 e he))
      exact ⟨ht.1.1, ht.1.2.1, hw ▸ ht.1.2.2, fun _ _ => ht.2⟩
    · refine mono (fun t ht => ?_) r hs
      exact ⟨ht.1, ht.2.1, hw ▸ ht.2.2, fun h1 h2 => absurd ⟨h1, h2⟩ hc⟩
  · intro ys hys x hx
    simp at hys; subst hys
    obtain ⟨e, he, hxe⟩ := hmem x hx
    rw [hxe]
    exact hbol e he
  · intro ys hys
    simp at hys; subst hys
    rcases heol with heol | heol
    · refine .inl fun x hx => ?_
      obtain ⟨e, he, hxe⟩ := hmem x hx
      rw [hxe]
      exact heol e he
    · rw [ran_exprs h]
      exact .inr heol
  · intro ys hys
    simp at hys; subst hys
    refine .inr fun x hx hn => ?_
    obtain ⟨r, hr, hg, _⟩ := (h.each x hx).2.2.2.2
    rw [hr] at hn
    exact absurd hg hn
  · intro ys hys
    simp at hys; subst hys
    have : (ys.map fun x => setsOf tr x.2 + 2 * dollarsOf x.2) = es.map fun e => e.1.slots tr + 2 * e.1.dollars := by
      have := congrArg (List.map fun p : Option Re × Nat × Nat => setsOf tr p.1 + 2 * dollarsOf p.1) h.rules
      simpa [List.map_map, Function.comp_def, setsOf, dollarsOf] using this
    rw [this]
    exact hcount
  · intro i ys hi hb
    cases i with
    | zero =>
      simp at hi; subst hi
      obtain ⟨n, h1, h2⟩ := h.bol
      exact ⟨n, by simp [RulesObj.rules, h1], h2 hb⟩
    | succ i => simp at hi

end Lexertl.Anchors
