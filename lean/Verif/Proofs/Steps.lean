import Verif.Proofs.Lex

/-
Consequences of the rule level description of `lookup`: empty matches, skip and
continue rules, the stack.
-/
namespace Lexertl
open Spec

theorem accept_plain {E : LexEnv} {x : Rule} {r : Results} {k next : Nat} {b : Bool}
    (h : E.flags.recursive = false ∨ x.popDfa = false) :
    E.accept x r k next b = .ok { r with
      second := k, bol := if E.flags.bol then b else r.bol
      stack := if E.flags.recursive = true ∧ x.pushDfa ≠ E.npos then (x.pushDfa, x.id) :: r.stack
        else r.stack
      state := if E.flags.multiState then next else r.state } := by
  unfold LexEnv.accept
  rw [if_neg (by rcases h with h | h <;> simp [h])]

theorem lex_empty_loop {E : LexEnv} {xs : List SRule} {x : SRule} {j : Nat}
    (hx : xs[j]? = some x) (hfe : FirstEmpty (xs.map (·.2)) j)
    (hid : x.1.id = E.npos - 1 ∨ x.1.id = E.eoi)
    (hpop : E.flags.recursive = false ∨ x.1.popDfa = false) {r : Results} {p : Nat} {o : M Results}
    (h : E.Lex r p o) : p < r.eoi → E.rules[r.state]? = some xs →
    NoMatch (LineMatch (E.atLine r)) (xs.map (·.2)) E.inp p r.eoi → False := by
  have step : ∀ {r r' : Results} {p : Nat} {y : SRule} {k next : Nat} {b : Bool},
      E.rules[r.state]? = some xs → NoMatch (LineMatch (E.atLine r)) (xs.map (·.2)) E.inp p r.eoi →
      E.Chosen r p y k next b → y = x ∧ k = p ∧ next = r.state ∧ b = r.bol := by
    intro r r' p y k next b h1 h2 h3
    obtain ⟨e1, e2, e3, e4⟩ := chosen_unique h3 (.empty xs x j h1 hx h2 hfe)
    exact ⟨e1, e2, e3, e4⟩
  induction h with
  | eoi r => intro h; exact absurd h (Nat.lt_irrefl _)
  | none r p xs' c hp h1 h2 h3 h4 =>
    intro _ g1 _
    rw [h1] at g1
    cases g1
    obtain ⟨e, e1, e2⟩ := hfe.hit
    exact h3 e (List.mem_of_getElem? e1) e2
  | throw r p y k next b e hp h1 h2 =>
    intro _ g1 g2
    obtain ⟨rfl, rfl, rfl, rfl⟩ := step (r' := r) g1 g2 h1
    rw [accept_plain hpop] at h2
    cases h2
  | skip r r' p y k next b o hp h1 h2 h3 h4 ih =>
    intro _ g1 g2
    obtain ⟨rfl, rfl, rfl, rfl⟩ := step (r' := r) g1 g2 h1
    rw [accept_plain hpop] at h2
    cases h2
    simp only [ite_self] at ih
    exact ih hp g1 g2
  | again r r' p y k next b o hp h1 h2 h3 h4 h5 ih =>
    intro _ g1 g2
    obtain ⟨rfl, rfl, rfl, rfl⟩ := step (r' := r) g1 g2 h1
    rw [accept_plain hpop] at h2
    cases h2
    simp only [ite_self] at ih
    exact ih hp g1 g2
  | token r r' p y k next b hp h1 h2 h3 h4 =>
    intro _ g1 g2
    obtain ⟨rfl, rfl, rfl, rfl⟩ := step (r' := r) g1 g2 h1
    rcases hid with hid | hid
    · exact h3 hid
    · exact h4 (.inl hid)

/-- A skipped match does not show in the outcome. -/
theorem lex_skip {E : LexEnv} {r r' : Results} {p : Nat} {x : SRule} {k next : Nat} {b : Bool}
    (hp : p < r.eoi) (hch : E.Chosen r p x k next b) (hacc : E.accept x.1 r k next b = .ok r')
    (hid : x.1.id = E.npos - 1) (o : M Results) :
    E.Lex r p o ↔ E.Lex { r' with first := k } k o := by
  constructor
  · intro h
    cases h with
    | eoi => exact absurd hp (Nat.lt_irrefl _)
    | none _ _ xs c hp h1 h2 h3 h4 => exact (chosen_none hch h1 h2 h3).elim
    | throw _ _ x' k' next' b' e hp h1 h2 =>
      obtain ⟨rfl, rfl, rfl, rfl⟩ := chosen_unique hch h1
      rw [hacc] at h2; cases h2
    | skip _ r2 _ x' k' next' b' _ hp h1 h2 h3 h4 =>
      obtain ⟨rfl, rfl, rfl, rfl⟩ := chosen_unique hch h1
      rw [hacc] at h2; cases h2
      exact h4
    | again _ r2 _ x' k' next' b' _ hp h1 h2 h3 h4 =>
      obtain ⟨rfl, rfl, rfl, rfl⟩ := chosen_unique hch h1
      exact absurd hid h3
    | token _ r2 _ x' k' next' b' hp h1 h2 h3 h4 =>
      obtain ⟨rfl, rfl, rfl, rfl⟩ := chosen_unique hch h1
      exact absurd hid h3
  · exact fun h => .skip r r' p x k next b o hp hch hacc hid h

/-- A continuing match only moves on. -/
theorem lex_again {E : LexEnv} {r r' : Results} {p : Nat} {x : SRule} {k next : Nat} {b : Bool}
    (hp : p < r.eoi) (hch : E.Chosen r p x k next b) (hacc : E.accept x.1 r k next b = .ok r')
    (hid : x.1.id ≠ E.npos - 1) (hc : E.continues x.1 r') (o : M Results) :
    E.Lex r p o ↔ E.Lex r' k o := by
  constructor
  · intro h
    cases h with
    | eoi => exact absurd hp (Nat.lt_irrefl _)
    | none _ _ xs c hp h1 h2 h3 h4 => exact (chosen_none hch h1 h2 h3).elim
    | throw _ _ x' k' next' b' e hp h1 h2 =>
      obtain ⟨rfl, rfl, rfl, rfl⟩ := chosen_unique hch h1
      rw [hacc] at h2; cases h2
    | skip _ r2 _ x' k' next' b' _ hp h1 h2 h3 h4 =>
      obtain ⟨rfl, rfl, rfl, rfl⟩ := chosen_unique hch h1
      exact absurd h3 hid
    | again _ r2 _ x' k' next' b' _ hp h1 h2 h3 h4 h5 =>
      obtain ⟨rfl, rfl, rfl, rfl⟩ := chosen_unique hch h1
      rw [hacc] at h2; cases h2
      exact h5
    | token _ r2 _ x' k' next' b' hp h1 h2 h3 h4 =>
      obtain ⟨rfl, rfl, rfl, rfl⟩ := chosen_unique hch h1
      rw [hacc] at h2; cases h2
      exact absurd hc h4
  · exact fun h => .again r r' p x k next b o hp hch hacc hid hc h

end Lexertl

namespace Lexertl
open Spec

theorem stackAfter_append (a b : List Ev) (st : List (Nat × Nat)) :
    stackAfter (a ++ b) st = (stackAfter a st).bind (stackAfter b) := by
  induction a generalizing st with
  | nil => rfl
  | cons e a ih =>
    cases e with
    | push e => exact ih _
    | keep => exact ih _
    | pop =>
      cases st with
      | nil => rfl
      | cons x st => exact ih st

theorem stackAfter_balanced {l : List Ev} (h : Balanced l) (st : List (Nat × Nat)) :
    stackAfter l st = some st := by
  induction h generalizing st with
  | nil => rfl
  | keep l _ ih => exact ih st
  | pair e a b _ _ iha ihb =>
    rw [stackAfter, stackAfter_append, iha]
    exact ihb st

theorem accept_stack {E : LexEnv} {x : Rule} {r r' : Results} {k next : Nat} {b : Bool}
    (h : E.accept x r k next b = .ok r') : stackAfter [E.effect x] r.stack = some r'.stack := by
  unfold LexEnv.accept at h
  unfold LexEnv.effect
  split at h
  · rename_i hc
    rw [if_pos hc]
    split at h
    · cases h
    · rename_i e st hst
      cases h
      rw [hst]
      rfl
  · rename_i hc
    rw [if_neg hc]
    cases h
    dsimp only
    split <;> rfl

theorem steps_stack {E : LexEnv} {r r' : Results} {evs : List Ev} (h : Steps E r evs r') :
    stackAfter evs r.stack = some r'.stack := by
  induction h with
  | nil r r' _ h => rw [h]; rfl
  | step r r0 r1 r' p x k next b evs h1 h2 h3 h4 _ ih =>
    rw [show E.effect x.1 :: evs = [E.effect x.1] ++ evs from rfl, stackAfter_append, ← h2, accept_stack h4]
    exact ih

theorem Spec.Steps.congr {E : LexEnv} {a a' c : Results} {l : List Ev} (h : Steps E a l c)
    (h1 : a'.state = a.state) (h2 : a'.stack = a.stack) : Steps E a' l c := by
  cases h with
  | nil _ _ k1 k2 => exact .nil _ _ (k1.trans h1.symm) (k2.trans h2.symm)
  | step _ r0 r1 _ p x k next b evs g1 g2 g3 g4 g5 =>
    exact .step _ r0 r1 _ p x k next b evs (g1.trans h1.symm) (g2.trans h2.symm) g3 g4 g5

theorem Spec.Steps.trans {E : LexEnv} {a b c : Results} {l m : List Ev} (h : Steps E a l b)
    (hk : Steps E b m c) : Steps E a (l ++ m) c := by
  induction h with
  | nil r r' h1 h2 => exact hk.congr h1.symm h2.symm
  | step r r0 r1 r' p x k next b evs h1 h2 h3 h4 _ ih =>
    exact .step r r0 r1 _ p x k next b _ h1 h2 h3 h4 (ih hk)

theorem steps_append {E : LexEnv} {a c : Results} {l m : List Ev} (h : Steps E a (l ++ m) c) :
    ∃ b, Steps E a l b ∧ Steps E b m c := by
  induction l generalizing a with
  | nil => exact ⟨a, .nil _ _ rfl rfl, h⟩
  | cons e l ih =>
    rw [List.cons_append] at h
    cases h with
    | step _ r0 r1 _ p x k next b evs g1 g2 g3 g4 g5 =>
      obtain ⟨b', h1, h2⟩ := ih g5
      exact ⟨b', .step _ r0 r1 _ p x k next b _ g1 g2 g3 g4 h1, h2⟩

/-- A call that returns is a sequence of accepted matches. -/
theorem lex_steps {E : LexEnv} {r : Results} {p : Nat} {o : M Results} (h : E.Lex r p o) {r' : Results} :
    o = .ok r' → ∃ evs, Steps E r evs r' := by
  induction h with
  | eoi r => intro h; cases h; exact ⟨[], .nil _ _ rfl rfl⟩
  | none r p xs c hp h1 h2 h3 h4 => intro h; cases h; exact ⟨[], .nil _ _ rfl rfl⟩
  | throw => intro h; cases h
  | skip r r1 p x k next b o hp h1 h2 h3 h4 ih =>
    intro h
    obtain ⟨evs, g⟩ := ih h
    exact ⟨_, .step _ r r1 _ p x k next b evs rfl rfl h1 h2 (g.congr rfl rfl)⟩
  | again r r1 p x k next b o hp h1 h2 h3 h4 h5 ih =>
    intro h
    obtain ⟨evs, g⟩ := ih h
    exact ⟨_, .step _ r r1 _ p x k next b evs rfl rfl h1 h2 g⟩
  | token r r1 p x k next b hp h1 h2 h3 h4 =>
    intro h
    cases h
    exact ⟨_, .step _ r r1 _ p x k next b [] rfl rfl h1 h2 (.nil _ _ rfl rfl)⟩

/-- After a pop the lexer is in the popped state. -/
theorem steps_pop {E : LexEnv} {r r' : Results} {e : Nat × Nat} {st : List (Nat × Nat)}
    (h : Steps E r [.pop] r') (hst : r.stack = e :: st) :
    r'.stack = st ∧ (E.flags.multiState = true → r'.state = e.1) := by
  have h' := steps_stack h
  rw [hst] at h'
  simp only [stackAfter, Option.some.injEq] at h'
  refine ⟨h'.symm, fun hm => ?_⟩
  generalize hl : [Ev.pop] = l at h
  cases h with
  | nil => cases hl
  | step _ r0 r1 _ p x k next b evs g1 g2 g3 g4 g5 =>
    injection hl with h1 h2
    subst h2
    have heff : E.flags.recursive = true ∧ x.1.popDfa = true := by
      refine Classical.byContradiction fun hn => ?_
      unfold LexEnv.effect at h1
      rw [if_neg hn] at h1
      split at h1 <;> cases h1
    unfold LexEnv.accept at g4
    rw [if_pos heff, g2, hst] at g4
    simp only [hm, if_true] at g4
    cases g4
    cases g5 with
    | nil _ _ k1 k2 => exact k1

end Lexertl

namespace Lexertl
open Spec

/-- A match that throws decides the outcome. -/
theorem lex_throw {E : LexEnv} {r : Results} {p : Nat} {x : SRule} {k next : Nat} {b : Bool} {e : Fault}
    (hp : p < r.eoi) (hch : E.Chosen r p x k next b) (hacc : E.accept x.1 r k next b = .error e)
    (o : M Results) : E.Lex r p o ↔ o = .error e := by
  constructor
  · intro h
    cases h with
    | eoi => exact absurd hp (Nat.lt_irrefl _)
    | none _ _ xs c hp h1 h2 h3 h4 => exact (chosen_none hch h1 h2 h3).elim
    | throw _ _ x' k' next' b' e hp h1 h2 =>
      obtain ⟨rfl, rfl, rfl, rfl⟩ := chosen_unique hch h1
      rw [hacc] at h2; cases h2; rfl
    | skip _ r2 _ x' k' next' b' _ hp h1 h2 h3 h4 =>
      obtain ⟨rfl, rfl, rfl, rfl⟩ := chosen_unique hch h1
      rw [hacc] at h2; cases h2
    | again _ r2 _ x' k' next' b' _ hp h1 h2 h3 h4 h5 =>
      obtain ⟨rfl, rfl, rfl, rfl⟩ := chosen_unique hch h1
      rw [hacc] at h2; cases h2
    | token _ r2 _ x' k' next' b' hp h1 h2 h3 h4 =>
      obtain ⟨rfl, rfl, rfl, rfl⟩ := chosen_unique hch h1
      rw [hacc] at h2; cases h2
  · rintro rfl
    exact .throw r p x k next b e hp hch hacc

/-- Lexing keeps result objects meaningful. -/
theorem lex_rok {E : LexEnv} (S : StatesExist E) {r r' : Results} {p : Nat} {o : M Results} (h : E.Lex r p o) :
    ROk E r → o = .ok r' → ROk E r' := by
  induction h with
  | eoi r => intro g e; cases e; exact ⟨g.state, g.stack, g.eoi⟩
  | none r p xs c => intro g e; cases e; exact ⟨g.state, g.stack, g.eoi⟩
  | throw => intro g e; cases e
  | skip r r1 p x k next b o hp h1 h2 h3 h4 ih =>
    intro g e
    have := (accept_ok S h1 g h2).1
    exact ih ⟨this.state, this.stack, this.eoi⟩ e
  | again r r1 p x k next b o hp h1 h2 h3 h4 h5 ih =>
    intro g e
    exact ih (accept_ok S h1 g h2).1 e
  | token r r1 p x k next b hp h1 h2 h3 h4 =>
    intro g e
    cases e
    have := (accept_ok S h1 g h2).1
    exact ⟨this.state, this.stack, this.eoi⟩

end Lexertl
