import Verif.Proofs.EolTree

/-
Charsets which the parser knows after reading a rule.
-/
namespace Lexertl
open Spec

/-- Reading the expression makes the parser know the charset `t`. -/
def Adds (tr : Traits) (t : Token) (r : Option Re) : Prop :=
  ∃ r', r = some r' ∧ ∀ p p1, PState.act tr r' p = .ok p1 → ∃ id, (t, id) ∈ p1.charsets

theorem wrapUp_charsets {tr : Traits} {info : RuleInfo} {g : Greedy} {seenBol : Bool} {p p' : PState} {root : Tree}
    (h : wrapUp tr info g seenBol p = .ok (p', root)) : p'.charsets = p.charsets := by
  have hfin : ∀ {q : PState} {t : Tree}, p.finish info g = .ok (q, t) → q.charsets = p.charsets := by
    intro q t hq
    unfold PState.finish at hq
    split at hq
    · cases hq; rfl
    · simp only [bind, Except.bind] at hq
      split at hq
      · cases hq
      · cases hq; rfl
    · cases hq
  unfold wrapUp at h
  simp only [bind, Except.bind] at h
  split at h
  · cases h
  · rename_i y hy
    obtain ⟨q, t⟩ := y
    have h1 := hfin hy
    simp only at h
    split at h
    · unfold PState.fixupBol at h
      split at h
      · cases h; exact h1
      · simp only [bind, Except.bind] at h
        split at h
        · cases h
        · cases h; exact h1
    · cases h; exact h1

theorem parse_adds {tr : Traits} {p p' : PState} {regex : List Tok} {r : Option Re} {info : RuleInfo} {seenBol : Bool}
    {root : Tree} {t : Token} (hd : Denotes regex r) (ha : Adds tr t r)
    (hok : ∀ r', r = some r' → ∃ p1, PState.act tr r' p = .ok p1)
    (he : PState.parse tr p regex info seenBol = .ok (p', root)) : ∃ id, (t, id) ∈ p'.charsets := by
  obtain ⟨r', rfl, h⟩ := ha
  obtain ⟨p1, h1⟩ := hok r' rfl
  obtain ⟨g, h2⟩ := parse_act tr p p1 regex r' info seenBol hd h1
  rw [he] at h2
  rw [wrapUp_charsets h2.symm]
  exact h p p1 h1

end Lexertl
