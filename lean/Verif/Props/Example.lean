import Verif.Spec.Lexer
import Verif.Spec.Calls

/-
Small lexers used to show that the hypotheses of the property theorems can be met:
single byte characters, 16-bit ids.
-/
namespace Lexertl.Props.Ex
open Spec

def tr : Traits := ⟨65535, false, false⟩

def tBegin : Tok := ⟨.begin, [], []⟩
def tEnd : Tok := ⟨.end_, [], []⟩
def tA : Tok := ⟨.charset, [], [(97, 97)]⟩
def tAB : Tok := ⟨.charset, [], [(97, 98)]⟩
def tC : Tok := ⟨.charset, [], [(99, 99)]⟩
def tNl : Tok := ⟨.charset, [], [(10, 10)]⟩
def tPlus : Tok := ⟨.oneormore, [], []⟩
def tBol : Tok := ⟨.bol, [], []⟩

/-- `[a-b]+` -/
def rAB : Rule := ⟨[tBegin, tAB, tPlus, tEnd], 2, 65535, 0, 65535, false⟩
/-- `a` -/
def rA : Rule := ⟨[tBegin, tA, tEnd], 1, 7, 0, 65535, false⟩
/-- `c`, id `skip` -/
def rC : Rule := ⟨[tBegin, tC, tEnd], 65534, 65535, 0, 65535, false⟩
/-- `^c` -/
def rBolC : Rule := ⟨[tBegin, tBol, tC, tEnd], 3, 65535, 0, 65535, false⟩
/-- `\n` -/
def rNl : Rule := ⟨[tBegin, tNl, tEnd], 5, 65535, 0, 65535, false⟩

/-- Anchor-free rules: `a`, `[a-b]+`, `c`. -/
def rules : List SRule :=
  [(rA, some (.chars [(97, 97)])), (rAB, some (.plus (.chars [(97, 98)]) false)),
   (rC, some (.chars [(99, 99)]))]

def R : Rules := ⟨[rules.map (·.1)], [0], 0, false, false⟩

theorem denA : Denotes rA.regex (some (.chars [(97, 97)])) :=
  .re tBegin tEnd [tA] _ rfl rfl (.alt1 _ _ (.seq1 _ _ (.item _ _ (.charset _ _))))

theorem denAB : Denotes rAB.regex (some (.plus (.chars [(97, 98)]) false)) :=
  .re tBegin tEnd [tAB, tPlus] _ rfl rfl
    (.alt1 _ _ (.seq1 _ _ (.postfix_ [tAB] _ _ _ (.charset _ _) (.plus _ _ _))))

theorem denC : Denotes rC.regex (some (.chars [(99, 99)])) :=
  .re tBegin tEnd [tC] _ rfl rfl (.alt1 _ _ (.seq1 _ _ (.item _ _ (.charset _ _))))

theorem denNl : Denotes rNl.regex (some (.chars [(10, 10)])) :=
  .re tBegin tEnd [tNl] _ rfl rfl (.alt1 _ _ (.seq1 _ _ (.item _ _ (.charset _ _))))

theorem denBolC : Denotes rBolC.regex (some (.seq .bol (.chars [(99, 99)]))) :=
  .re tBegin tEnd [tBol, tC] _ rfl rfl
    (.alt1 _ _ (.seq [tBol] [tC] _ _ (.seq1 _ _ (.item _ _ (.bol _ _))) (.item _ _ (.charset _ _))))

theorem ruleSet : RuleSet tr R [rules] where
  states := rfl
  den := by
    intro xs hxs x hx
    simp only [List.mem_singleton] at hxs
    subst hxs
    simp only [rules, List.mem_cons, List.not_mem_nil, or_false] at hx
    rcases hx with rfl | rfl | rfl
    · exact denA
    · exact denAB
    · exact denC
  sets := by
    intro xs hxs x hx
    simp only [List.mem_singleton] at hxs
    subst hxs
    simp only [rules, List.mem_cons, List.not_mem_nil, or_false] at hx
    rcases hx with rfl | rfl | rfl <;> simp only [CharSets, Re.AllChars] <;> decide
  bolHead := by
    intro xs hxs x hx
    simp only [List.mem_singleton] at hxs
    subst hxs
    simp only [rules, List.mem_cons, List.not_mem_nil, or_false] at hx
    rcases hx with rfl | rfl | rfl <;> rfl
  noEol := by
    intro xs hxs x hx
    simp only [List.mem_singleton] at hxs
    subst hxs
    simp only [rules, List.mem_cons, List.not_mem_nil, or_false] at hx
    rcases hx with rfl | rfl | rfl <;> rfl
  greedy := by
    intro xs hxs x hx
    simp only [List.mem_singleton] at hxs
    subst hxs
    simp only [rules, List.mem_cons, List.not_mem_nil, or_false] at hx
    rcases hx with rfl | rfl | rfl <;> rfl
  count := by
    intro xs hxs
    simp only [List.mem_singleton] at hxs
    subst hxs
    decide
  bolBit := by
    intro i xs hxs hx
    obtain ⟨x, hx, hn⟩ := hx
    have hxs := List.mem_of_getElem? hxs
    simp only [List.mem_singleton] at hxs
    subst hxs
    simp only [rules, List.mem_cons, List.not_mem_nil, or_false] at hx
    rcases hx with rfl | rfl | rfl <;> exact absurd rfl hn

set_option maxRecDepth 20000 in
theorem built : ∃ sm, buildTemp tr (fun n => n) R = .ok sm := by
  have : (buildTemp tr (fun n => n) R).isOk = true := by decide +kernel
  cases h : buildTemp tr (fun n => n) R with
  | ok sm => exact ⟨sm, rfl⟩
  | error e => rw [h] at this; cases this

/-- The same with `^c` in front and newlines as tokens. -/
def rulesBol : List SRule :=
  [(rBolC, some (.seq .bol (.chars [(99, 99)])))] ++ rules ++ [(rNl, some (.chars [(10, 10)]))]

def RBol : Rules := ⟨[rulesBol.map (·.1)], [1], 0, false, false⟩

theorem ruleSetBol : RuleSet tr RBol [rulesBol] where
  states := rfl
  den := by
    intro xs hxs x hx
    simp only [List.mem_singleton] at hxs
    subst hxs
    simp only [rulesBol, rules, List.cons_append, List.nil_append, List.mem_cons, List.not_mem_nil, or_false] at hx
    rcases hx with rfl | rfl | rfl | rfl | rfl
    · exact denBolC
    · exact denA
    · exact denAB
    · exact denC
    · exact denNl
  sets := by
    intro xs hxs x hx
    simp only [List.mem_singleton] at hxs
    subst hxs
    simp only [rulesBol, rules, List.cons_append, List.nil_append, List.mem_cons, List.not_mem_nil, or_false] at hx
    rcases hx with rfl | rfl | rfl | rfl | rfl <;> simp only [CharSets, Re.AllChars] <;> decide
  bolHead := by
    intro xs hxs x hx
    simp only [List.mem_singleton] at hxs
    subst hxs
    simp only [rulesBol, rules, List.cons_append, List.nil_append, List.mem_cons, List.not_mem_nil, or_false] at hx
    rcases hx with rfl | rfl | rfl | rfl | rfl <;> rfl
  noEol := by
    intro xs hxs x hx
    simp only [List.mem_singleton] at hxs
    subst hxs
    simp only [rulesBol, rules, List.cons_append, List.nil_append, List.mem_cons, List.not_mem_nil, or_false] at hx
    rcases hx with rfl | rfl | rfl | rfl | rfl <;> rfl
  greedy := by
    intro xs hxs x hx
    simp only [List.mem_singleton] at hxs
    subst hxs
    simp only [rulesBol, rules, List.cons_append, List.nil_append, List.mem_cons, List.not_mem_nil, or_false] at hx
    rcases hx with rfl | rfl | rfl | rfl | rfl <;> rfl
  count := by
    intro xs hxs
    simp only [List.mem_singleton] at hxs
    subst hxs
    decide
  bolBit := by
    intro i xs hxs _
    have : i = 0 := by
      have := (List.getElem?_eq_some_iff.1 hxs).1
      simp at this
      exact this
    subst this
    exact ⟨1, rfl, rfl⟩

set_option maxRecDepth 20000 in
theorem builtBol : ∃ sm, buildTemp tr (fun n => n) RBol = .ok sm := by
  have : (buildTemp tr (fun n => n) RBol).isOk = true := by decide +kernel
  cases h : buildTemp tr (fun n => n) RBol with
  | ok sm => exact ⟨sm, rfl⟩
  | error e => rw [h] at this; cases this

/-- The conditions of `RuleSet` on one rule. -/
structure One (tr : Traits) (x : SRule) : Prop where
  den : Denotes x.1.regex x.2
  sets : CharSets tr x.2
  noBol : NoBol x.2
  noEol : NoEol x.2
  greedy : AllGreedy x.2

theorem bolHead_of {r : Re} (h : r.noBol = true) : r.bolHead = true := by
  induction r with
  | seq l r ih1 ih2 =>
    simp only [Re.noBol, Bool.and_eq_true] at h
    simp only [Re.bolHead, ih1 h.1, h.2, Bool.and_self]
  | alt l r ih1 ih2 =>
    simp only [Re.noBol, Bool.and_eq_true] at h
    simp only [Re.bolHead, ih1 h.1, ih2 h.2, Bool.and_self]
  | opt r lz ih => exact ih h
  | star r lz ih => exact h
  | plus r lz ih => exact h
  | rep r lo hi lz ih => exact h
  | _ => rfl

theorem ruleSet_of {tr : Traits} {R : Rules} {xss : List (List SRule)} (h0 : R.states = xss.map (·.map (·.1)))
    (h : ∀ xs ∈ xss, ∀ x ∈ xs, One tr x) (hc : ∀ xs ∈ xss, (xs.map fun x => setsOf tr x.2).sum + 2 ≤ tr.npos) :
    RuleSet tr R xss where
  states := h0
  den xs hxs x hx := (h xs hxs x hx).den
  sets xs hxs x hx := (h xs hxs x hx).sets
  bolHead xs hxs x hx := by
    have := (h xs hxs x hx).noBol
    cases hx2 : x.2 with
    | none => trivial
    | some r => rw [hx2] at this; exact bolHead_of this
  noEol xs hxs x hx := (h xs hxs x hx).noEol
  greedy xs hxs x hx := (h xs hxs x hx).greedy
  count := hc
  bolBit i xs hxs hx := by
    obtain ⟨x, hx, hn⟩ := hx
    exact absurd (h xs (List.mem_of_getElem? hxs) x hx).noBol hn

/-- A rule for one character. -/
def chr (c id : Nat) (next : Nat := 0) (push : Nat := 65535) (pop : Bool := false) : SRule :=
  (⟨[tBegin, ⟨.charset, [], [(c, c)]⟩, tEnd], id, 65535, next, push, pop⟩, some (.chars [(c, c)]))

theorem one_chr {tr : Traits} {c : Nat} (hc : c < charsOf tr) (id next push : Nat) (pop : Bool) :
    One tr (chr c id next push pop) where
  den := .re tBegin tEnd _ _ rfl rfl (.alt1 _ _ (.seq1 _ _ (.item _ _ (.charset _ _))))
  sets := by
    refine ⟨⟨?_, ?_⟩, by simp, ?_, ?_⟩
    · simp
    · simp
    · simp only [Within, List.mem_singleton]
      rintro r rfl
      show c ≤ charsOf tr - 1
      omega
    · simp only [List.mem_singleton]
      rintro _ _ r rfl
      exact .inl (Nat.le_succ _)
  noBol := rfl
  noEol := rfl
  greedy := rfl

/-- All flags, recursive. -/
def fRec : Flags := ⟨true, true, true, true, true⟩
/-- All flags, not recursive. -/
def fAll : Flags := ⟨true, true, true, false, true⟩

/-- Nested parentheses: `a` and `(` in state 0; `(`, `)` and skipped `c` in state 1. -/
def rulesPar : List (List SRule) :=
  [[chr 97 1, chr 40 2 1 0], [chr 40 2 1 1, chr 41 3 65535 65535 true, chr 99 65534 1]]

def RPar : Rules := ⟨rulesPar.map (·.map (·.1)), [48, 48], 0, false, false⟩

theorem ruleSetPar : RuleSet tr RPar rulesPar := by
  refine ruleSet_of rfl ?_ (by decide)
  simp only [rulesPar, List.mem_cons, List.not_mem_nil, or_false, forall_eq_or_imp, forall_eq]
  exact ⟨⟨one_chr (by decide) .., one_chr (by decide) ..⟩, one_chr (by decide) .., one_chr (by decide) ..,
    one_chr (by decide) ..⟩

/-- `a` continues, `b` ends a token. -/
def rulesCont : List (List SRule) := [[chr 97 0, chr 98 1]]

def RCont : Rules := ⟨rulesCont.map (·.map (·.1)), [16], 0, false, false⟩

theorem ruleSetCont : RuleSet tr RCont rulesCont := by
  refine ruleSet_of rfl ?_ (by decide)
  simp only [rulesCont, List.mem_cons, List.not_mem_nil, or_false, forall_eq_or_imp, forall_eq]
  exact ⟨one_chr (by decide) .., one_chr (by decide) ..⟩

/-- `c*`, skipped; empty matches allowed. -/
def rCstar : SRule :=
  (⟨[tBegin, tC, ⟨.zeroormore, [], []⟩, tEnd], 65534, 65535, 0, 65535, false⟩,
    some (.star (.chars [(99, 99)]) false))

def rulesEmpty : List (List SRule) := [[chr 97 1, rCstar]]

def REmpty : Rules := ⟨rulesEmpty.map (·.map (·.1)), [8], 0, true, false⟩

theorem ruleSetEmpty : RuleSet tr REmpty rulesEmpty := by
  refine ruleSet_of rfl ?_ (by decide)
  simp only [rulesEmpty, List.mem_cons, List.not_mem_nil, or_false, forall_eq_or_imp, forall_eq]
  refine ⟨one_chr (by decide) .., ?_, ?_, rfl, rfl, rfl⟩
  · exact .re tBegin tEnd [tC, ⟨.zeroormore, [], []⟩] _ rfl rfl
      (.alt1 _ _ (.seq1 _ _ (.postfix_ [tC] _ _ _ (.charset _ _) (.star _ _ _))))
  · simp only [CharSets, rCstar, Re.AllChars]
    decide

/-- `a$`, `a`, `\n`. -/
def RDollar : Rules :=
  ⟨[[⟨[tBegin, tA, ⟨.eol, [], []⟩, tEnd], 4, 65535, 0, 65535, false⟩, rA, rNl]], [2], 0, false, false⟩

/-- The machine built from `R` (an empty one if the build fails). -/
def machine (R : Rules) : Internals := ((buildTemp tr (fun n => n) R).toOption).getD ⟨0, [], [], 0, []⟩

theorem machine_ok {R : Rules} (h : (buildTemp tr (fun n => n) R).isOk = true) :
    buildTemp tr (fun n => n) R = .ok (machine R) := by
  unfold machine
  cases hb : buildTemp tr (fun n => n) R with
  | ok sm => rfl
  | error e => rw [hb] at h; cases h

/-- Run `n` calls. -/
def calls (L : Lexer) (fuel : Nat) : Nat → Results → Option (List Results)
  | 0, _ => some []
  | n + 1, r =>
    match lookupFuel L.flags L.npos L.bytes L.sm L.inp fuel r with
    | .ok r' => (calls L fuel n r').map (r' :: ·)
    | .error _ => none

theorem calls_sound {L : Lexer} {fuel n : Nat} {r : Results} {rs : List Results}
    (h : calls L fuel n r = some rs) : L.Calls r rs := by
  induction n generalizing r rs with
  | zero => cases h; exact .nil r
  | succ n ih =>
    unfold calls at h
    split at h
    · rename_i r' h'
      cases hc : calls L fuel n r' with
      | none => rw [hc] at h; cases h
      | some l =>
        rw [hc] at h
        cases h
        exact .cons _ _ _ ⟨by simp, fuel, h'⟩ (ih hc)
    · cases h

/-- End of line entries are followed by none. -/
def eolShort (sm : Internals) : Bool :=
  sm.dfa.all fun rows => 1 ≤ rows.length && rows.all fun row =>
    match row[ixEol]? with
    | some e => e == 0 || ((rows[e]?.bind (·[ixEol]?)).getD 0 == 0)
    | none => true

theorem eolEnds_of {L : Lexer} (h : eolShort L.sm = true) : L.EolEnds := by
  intro _ rows hrows
  have h := List.all_eq_true.1 h rows hrows
  simp only [Bool.and_eq_true, decide_eq_true_eq, List.all_eq_true] at h
  refine ⟨fun i => if (rows[i]?.bind (·[ixEol]?)).getD 0 = 0 then 0 else 1, ?_⟩
  intro i e row h1 h2 h3
  have := h.2 row (List.mem_of_getElem? h1)
  rw [h2] at this
  simp only [Bool.or_eq_true, beq_iff_eq, h3, false_or] at this
  simp only [this, if_true, h1, Option.bind_some, h2, Option.getD_some, h3, if_false]
  exact ⟨by decide, h.1⟩

end Lexertl.Props.Ex
