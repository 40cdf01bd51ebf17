import Verif.Proofs.GenSim
import Verif.Props.Tables

/-
Properties C51 and C52: generated lexers, and flags that are not needed.
-/
namespace Lexertl.Props
open Spec

namespace Ex

/-- The boolean form of `FeaturesSay`. -/
def featuresSay (npos : Nat) (sm : Internals) : Bool :=
  sm.dfa.all fun rows =>
    (hasBit sm.features 1 || rows[0]?.all fun row => row[0]? == some 0) &&
    (rows.drop 1).all fun row =>
      (hasBit sm.features 2 || row[ixEol]? == some 0) &&
      (row[ixEnd]? == some 0 || ((hasBit sm.features 4 || row[ixId]? != some (npos - 1)) &&
        (hasBit sm.features 8 || row[ixId]? != some sm.eoi) &&
        (hasBit sm.features 32 || row[ixEnd]?.all fun e => !hasBit e bitPop && row[ixPushDfa]? == some npos)))

theorem featuresSay_ok {npos : Nat} {sm : Internals} (h : featuresSay npos sm = true) : FeaturesSay npos sm := by
  unfold featuresSay at h
  simp only [List.all_eq_true, Bool.and_eq_true, Bool.or_eq_true, beq_iff_eq, bne_iff_ne, Option.all_eq_true,
    Bool.not_eq_true'] at h
  refine ⟨?_, ?_, ?_, ?_, ?_⟩
  · intro h4 rows hr row hrow he
    rcases ((h rows hr).2 row hrow).2 with h | h
    · exact absurd h he
    · rcases h.1.1 with h | h
      · rw [h4] at h; cases h
      · exact h
  · intro h4 rows hr row hrow he
    rcases ((h rows hr).2 row hrow).2 with h | h
    · exact absurd h he
    · rcases h.1.2 with h | h
      · rw [h4] at h; cases h
      · exact h
  · intro h4 rows hr row hrow
    rcases (h rows hr).1 with h | h
    · rw [h4] at h; cases h
    · exact h row hrow
  · intro h4 rows hr row hrow
    rcases ((h rows hr).2 row hrow).1 with h | h
    · rw [h4] at h; cases h
    · exact h
  · intro h4 rows hr row hrow e he h0
    rcases ((h rows hr).2 row hrow).2 with h | h
    · rw [he] at h; exact absurd (Option.some.inj h) h0
    · rcases h.2 with h | h
      · rw [h4] at h; cases h
      · exact h e he

end Ex

theorem within {sm : Internals} {f : Flags} (h : Covers f sm) :
    Flg.Within (Flg.needOf sm) ⟨hasBit sm.features 1, hasBit sm.features 2, decide (sm.dfa.length > 1), hasBit sm.features 32, f.advance⟩ f :=
  ⟨rfl, h.bol, h.eol, fun hx => h.states (of_decide_eq_true hx), h.stack⟩

theorem SameResults.symm {b : Bool} {x y : Results} (h : SameResults b x y) : SameResults b y x :=
  ⟨h.id.symm, h.userId.symm, h.first.symm, h.second.symm, h.eoi.symm, fun hb => (h.bol hb).symm, h.state.symm, h.stack.symm⟩

theorem SameResults.trans {b : Bool} {x y z : Results} (h : SameResults b x y) (k : SameResults b y z) : SameResults b x z :=
  ⟨k.id.trans h.id, k.userId.trans h.userId, k.first.trans h.first, k.second.trans h.second, k.eoi.trans h.eoi,
    fun hb => (k.bol hb).trans (h.bol hb), k.state.trans h.state, k.stack.trans h.stack⟩

theorem SameResults.refl (b : Bool) (x : Results) : SameResults b x x := ⟨rfl, rfl, rfl, rfl, rfl, fun _ => rfl, rfl, rfl⟩

theorem flags_fuel {npos bytes : Nat} {sm : Internals} (hM : Machine npos sm) (hS : FeaturesSay npos sm) {inp : List Nat}
    (hin : bytes = 1 → ∀ c ∈ inp, c < 256) {f f' : Flags} (hf : Covers f sm) (hf' : Covers f' sm) (ha : f.advance = f'.advance)
    {r r' : Results} (hr : Ready sm inp r) (hrr : SameResults (hasBit sm.features 1) r r') (fuel : Nat) :
    SameOutcome (hasBit sm.features 1) (lookupFuel f npos bytes sm inp fuel r) (lookupFuel f' npos bytes sm inp fuel r') := by
  have hr' : Ready sm inp r' := ⟨by rw [hrr.second, hrr.eoi]; exact hr.pos, by rw [hrr.eoi]; exact hr.eoi,
    by rw [hrr.state]; exact hr.state, by rw [hrr.stack]; exact hr.stack⟩
  have k1 := Flg.nextLoop_rel hM hS (within hf) hin fuel (r := { r with first := r.second }) (r' := { r' with first := r'.second })
    (p := r.second) ⟨hrr.id, hrr.userId, hrr.second, hrr.second, hrr.eoi, hrr.bol, hrr.state, hrr.stack⟩
    ⟨hr.pos, hr.eoi, hr.state, hr.stack⟩ rfl
  have k2 := Flg.nextLoop_rel hM hS (within hf') hin fuel (r := { r' with first := r'.second }) (r' := { r' with first := r'.second })
    (p := r'.second) (SameResults.refl _ _) ⟨hr'.pos, hr'.eoi, hr'.state, hr'.stack⟩ rfl
  rw [← hrr.second, ha] at k1
  unfold lookupFuel
  rw [hrr.second] at k1 k2 ⊢
  revert k1 k2
  generalize nextLoop f npos bytes sm inp fuel { r with first := r.second } r.second r.second = x
  generalize nextLoop f' npos bytes sm inp fuel _ _ _ = y
  generalize nextLoop _ npos bytes sm inp fuel _ _ _ = z
  intro k1 k2
  cases x <;> cases y <;> cases z <;> simp only [Flg.Rel2, SameOutcome] at k1 k2 ⊢
  · rw [k1, k2]
  · exact SameResults.trans k1 (SameResults.symm k2)

/-- C52.  Two result objects whose flags both cover what the state machine needs get the same
tokens from it: a call on one of them has an outcome exactly if the corresponding call on the
other has, and then the outcomes are the same in all fields (in the flag for the beginning
of a line only if the machine has rules with `^`). -/
theorem C52_flags_irrelevant {npos bytes : Nat} {sm : Internals} (hM : Machine npos sm) (hS : FeaturesSay npos sm)
    {inp : List Nat} (hin : bytes = 1 → ∀ c ∈ inp, c < 256) {f f' : Flags} (hf : Covers f sm) (hf' : Covers f' sm)
    (ha : f.advance = f'.advance) {r r' : Results} (hr : Ready sm inp r) (hrr : SameResults (hasBit sm.features 1) r r') :
    (∀ o, Returns f npos bytes sm inp r o → ∃ o', Returns f' npos bytes sm inp r' o' ∧ SameOutcome (hasBit sm.features 1) o o') ∧
    (∀ o', Returns f' npos bytes sm inp r' o' → ∃ o, Returns f npos bytes sm inp r o ∧ SameOutcome (hasBit sm.features 1) o o') ∧
    (Diverges f npos bytes sm inp r ↔ Diverges f' npos bytes sm inp r') := by
  have key := flags_fuel hM hS hin hf hf' ha hr hrr
  refine ⟨?_, ?_, ?_⟩
  · rintro o ⟨h0, n, rfl⟩
    refine ⟨_, ⟨?_, n, rfl⟩, key n⟩
    intro h1
    have := key n
    rw [h1] at this
    revert this h0
    cases lookupFuel f npos bytes sm inp n r with
    | ok a => intro _ h; exact h
    | error e => intro h0 h; exact h0 (by rw [show e = .fuel from h])
  · rintro o ⟨h0, n, rfl⟩
    refine ⟨_, ⟨?_, n, rfl⟩, key n⟩
    intro h1
    have := key n
    rw [h1] at this
    revert this h0
    cases lookupFuel f' npos bytes sm inp n r' with
    | ok a => intro _ h; exact h
    | error e => intro h0 h; exact h0 (by rw [← show .fuel = e from h])
  · constructor
    · intro h n
      have := key n
      rw [h n] at this
      revert this
      cases lookupFuel f' npos bytes sm inp n r' with
      | ok a => intro h; exact h.elim
      | error e => intro h; rw [← show .fuel = e from h]
    · intro h n
      have := key n
      rw [h n] at this
      revert this
      cases lookupFuel f npos bytes sm inp n r with
      | ok a => intro h; exact h.elim
      | error e => intro h; rw [show e = .fuel from h]

/-- C52, for any number of calls. -/
theorem C52_flags_irrelevant_calls {npos bytes : Nat} {sm : Internals} (hM : Machine npos sm) (hS : FeaturesSay npos sm)
    {inp : List Nat} (hin : bytes = 1 → ∀ c ∈ inp, c < 256) {f f' : Flags} (hf : Covers f sm) (hf' : Covers f' sm)
    (ha : f.advance = f'.advance) {r r' : Results} (hr : Ready sm inp r) (hrr : SameResults (hasBit sm.features 1) r r')
    {rs : List Results} (h : Lexer.Calls ⟨f, npos, bytes, sm, inp⟩ r rs) :
    ∃ rs', Lexer.Calls ⟨f', npos, bytes, sm, inp⟩ r' rs' ∧ SameTokens (hasBit sm.features 1) rs rs' := by
  have hrec : f.recursive = true ∨ NoPops sm := by
    cases h : hasBit sm.features 32 with
    | true => exact .inl (hf.stack h)
    | false => exact .inr (Flg.noPops hS h)
  induction h generalizing r' with
  | nil r => exact ⟨[], .nil _, .nil⟩
  | cons r a rs h1 h2 ih =>
    obtain ⟨o', k1, k2⟩ := (C52_flags_irrelevant hM hS hin hf hf' ha hr hrr).1 _ h1
    cases o' with
    | error e => exact k2.elim
    | ok b =>
      have hra : Ready sm inp a := C14_calls_ready ⟨f, npos, bytes, sm, inp⟩ hM hrec hin hr (.cons _ _ _ h1 (.nil _)) a (by simp)
      obtain ⟨rs', g1, g2⟩ := ih hra k2
      exact ⟨b :: rs', .cons _ _ _ k1 g1, .cons k2 g2⟩

theorem getCell00 {rows : List Row} {v : Nat} (h : getCell rows 0 0 = .ok v) : ∃ row, rows[0]? = some row ∧ row[0]? = some v :=
  getCell_ok h

theorem gen_fuel {npos bytes : Nat} {sm : Internals} (hM : Machine npos sm) (hS : FeaturesSay npos sm)
    (hE : hasBit sm.features 2 = false) (hb : bytes ≠ 0) {pointers : Bool}
    (hp : pointers = true → hasBit sm.features 1 = true → AllStartLines sm) {inp : List Nat}
    (hin : bytes = 1 → ∀ c ∈ inp, c < 256) {f : Flags} (hf : Covers f sm) (ha : f.advance = true)
    {r r' : Results} (hr : Ready sm inp r) (hst : StackFits sm r.stack) (hrr : SameResults (hasBit sm.features 1) r r')
    (fuel sf : Nat) (hsf : r.eoi < sf) :
    Gen.SimR (fun a b => SameResults (hasBit sm.features 1) a b ∧ StackFits sm a.stack) (lookupFuel f npos bytes sm inp fuel r)
      ((generate sm pointers).callFuel npos bytes inp sf fuel r') := by
  have k1 := Flg.nextLoop_rel hM hS (within hf) hin fuel (r := { r with first := r.second }) (r' := { r with first := r.second })
    (p := r.second) (SameResults.refl _ _) ⟨hr.pos, hr.eoi, hr.state, hr.stack⟩ rfl
  have k2 := Gen.nextLoop_sim (f := ⟨hasBit sm.features 1, hasBit sm.features 2, decide (sm.dfa.length > 1), hasBit sm.features 32, f.advance⟩)
    (pointers := pointers) (bytes := bytes) (inp := inp) (sf := sf) hM hS ⟨hE, by rw [hE, ha]; rfl⟩ hb
    (fun h1 h2 rows hr h0 => by
      obtain ⟨row, g1, g2⟩ := getCell00 h0
      exact hp h1 h2 rows hr row g1 g2) fuel (r := { r with first := r.second }) (r' := { r' with first := r'.second })
      (curr := r.second) (tok := r.second)
    ⟨hrr.id, hrr.userId, hrr.second, hrr.second, hrr.eoi, hrr.bol, hrr.state, hrr.stack⟩ hst hsf
  unfold lookupFuel GenCode.callFuel
  rw [hrr.second] at k2 ⊢
  revert k1 k2
  generalize nextLoop f npos bytes sm inp fuel { r with first := r.second } r.second r.second = x
  generalize GenCode.nextLoop (generate sm pointers) npos bytes inp sf fuel _ _ _ = y
  generalize nextLoop _ npos bytes sm inp fuel _ _ _ = z
  intro k1 k2
  cases x with
  | ok a =>
    cases z with
    | error e => cases k1
    | ok b =>
      obtain ⟨c, rfl, k3, k4⟩ := k2
      exact ⟨c, rfl, SameResults.trans k1 k3, by rw [← SameResults.stack k1]; exact k4⟩
  | error e =>
    cases z with
    | ok b => cases k1
    | error e' =>
      have : e = e' := k1
      subst this
      exact k2

/-- C51.  The function that `generate` writes does what `lookup` does with the machine it was
written for, for every input: a call that returns, returns the same token, the same lexer
state and the same stack (and, if the machine has rules with `^`, the same flag for the
beginning of a line); a call that throws is one where the generated function, which has no
test, takes the top of an empty stack; a call that never returns, never returns.

The machine has no rules with `$` (the generated function treats those differently, see
`C51_dollar_differs`); with pointers and rules with `^`, every lexer state must have such a rule
(`C51_pointers_lose_rules`). -/
theorem C51_generated_same_partial {npos bytes : Nat} {sm : Internals} (hM : Machine npos sm) (hS : FeaturesSay npos sm)
    (hE : hasBit sm.features 2 = false) (hb : bytes ≠ 0) {pointers : Bool}
    (hp : pointers = true → hasBit sm.features 1 = true → AllStartLines sm) {inp : List Nat}
    (hin : bytes = 1 → ∀ c ∈ inp, c < 256) {f : Flags} (hf : Covers f sm) (ha : f.advance = true)
    {r r' : Results} (hr : Ready sm inp r) (hst : StackFits sm r.stack) (hrr : SameResults (hasBit sm.features 1) r r') :
    (∀ a, Returns f npos bytes sm inp r (.ok a) → ∃ b, (generate sm pointers).Returns npos bytes inp r' (.ok b) ∧
      SameResults (hasBit sm.features 1) a b ∧ StackFits sm a.stack) ∧
    (∀ what, Returns f npos bytes sm inp r (.error (.throw what)) →
      ∃ what', (generate sm pointers).Returns npos bytes inp r' (.error (.ub what'))) ∧
    (Diverges f npos bytes sm inp r → ∀ o, ¬ (generate sm pointers).Returns npos bytes inp r' o) := by
  have key := fun n sf hsf => gen_fuel hM hS hE hb hp hin hf ha hr hst hrr n sf hsf
  refine ⟨?_, ?_, ?_⟩
  · rintro a ⟨_, n, h⟩
    have k := key n (r.eoi + 1) (by omega)
    rw [h] at k
    obtain ⟨b, k1, k2, k3⟩ := k
    exact ⟨b, ⟨by simp, _, n, k1⟩, k2, k3⟩
  · rintro w ⟨_, n, h⟩
    have k := key n (r.eoi + 1) (by omega)
    rw [h] at k
    obtain ⟨m, k⟩ := k
    exact ⟨m, by simp, _, n, k⟩
  · rintro hd o ⟨h0, sf, n, h⟩
    have k := key n (max sf (r.eoi + 1)) (by omega)
    rw [hd n] at k
    have k1 := Gen.gnextLoop_le (generate sm pointers) npos bytes inp (Nat.le_max_left sf (r.eoi + 1)) n n
      { r' with first := r'.second } r'.second r'.second (Nat.le_refl _)
    rcases k1 with k1 | k1
    · exact h0 (by rw [← h]; exact k1)
    · exact h0 (by rw [← h]; exact k1.trans k)

/-- C51: the generated function has no other outcomes. -/
theorem C51_generated_no_more_partial {npos bytes : Nat} {sm : Internals} (hM : Machine npos sm) (hS : FeaturesSay npos sm)
    (hE : hasBit sm.features 2 = false) (hb : bytes ≠ 0) {pointers : Bool}
    (hp : pointers = true → hasBit sm.features 1 = true → AllStartLines sm) {inp : List Nat}
    (hin : bytes = 1 → ∀ c ∈ inp, c < 256) {f : Flags} (hf : Covers f sm) (ha : f.advance = true)
    {r r' : Results} (hr : Ready sm inp r) (hst : StackFits sm r.stack) (hrr : SameResults (hasBit sm.features 1) r r')
    {b : Results} (h : (generate sm pointers).Returns npos bytes inp r' (.ok b)) :
    ∃ a, Returns f npos bytes sm inp r (.ok a) ∧ SameResults (hasBit sm.features 1) a b := by
  have key := fun n sf hsf => gen_fuel hM hS hE hb hp hin hf ha hr hst hrr n sf hsf
  have h' := h
  obtain ⟨_, sf, n, hn⟩ := h
  have k := key n (max sf (r.eoi + 1)) (by omega)
  have k1 := Gen.gnextLoop_le (generate sm pointers) npos bytes inp (Nat.le_max_left sf (r.eoi + 1)) n n
      { r' with first := r'.second } r'.second r'.second (Nat.le_refl _)
  have k2 : (generate sm pointers).callFuel npos bytes inp (max sf (r.eoi + 1)) n r' = .ok b := by
    rcases k1 with k1 | k1
    · exact nomatch (show (Except.error .fuel : M Results) = .ok b from k1.symm.trans hn)
    · exact k1.symm.trans hn
  rw [k2] at k
  have hrec : f.recursive = true ∨ NoPops sm := by
    cases h : hasBit sm.features 32 with
    | true => exact .inl (hf.stack h)
    | false => exact .inr (Flg.noPops hS h)
  have hsafe := lookup_safe hM hrec hin n hr
  cases ho : lookupFuel f npos bytes sm inp n r with
  | ok a =>
    rw [ho] at k
    obtain ⟨c, k3, k4, _⟩ := k
    cases k3
    exact ⟨a, ⟨by simp, n, ho⟩, k4⟩
  | error e =>
    rw [ho] at k hsafe
    cases e with
    | fuel => cases k
    | throw m =>
      obtain ⟨_, k⟩ := k
      cases k
    | ub m => exact hsafe.elim

/-- C51, for any number of calls: the generated function delivers the tokens `lookup`
delivers. -/
theorem C51_generated_tokens_partial {npos bytes : Nat} {sm : Internals} (hM : Machine npos sm) (hS : FeaturesSay npos sm)
    (hE : hasBit sm.features 2 = false) (hb : bytes ≠ 0) {pointers : Bool}
    (hp : pointers = true → hasBit sm.features 1 = true → AllStartLines sm) {inp : List Nat}
    (hin : bytes = 1 → ∀ c ∈ inp, c < 256) {f : Flags} (hf : Covers f sm) (ha : f.advance = true)
    {r r' : Results} (hr : Ready sm inp r) (hst : StackFits sm r.stack) (hrr : SameResults (hasBit sm.features 1) r r')
    {rs : List Results} (h : Lexer.Calls ⟨f, npos, bytes, sm, inp⟩ r rs) :
    ∃ rs', GenCalls (generate sm pointers) npos bytes inp r' rs' ∧ SameTokens (hasBit sm.features 1) rs rs' := by
  have hrec : f.recursive = true ∨ NoPops sm := by
    cases h : hasBit sm.features 32 with
    | true => exact .inl (hf.stack h)
    | false => exact .inr (Flg.noPops hS h)
  induction h generalizing r' with
  | nil r => exact ⟨[], .nil _, .nil⟩
  | cons r a rs h1 h2 ih =>
    obtain ⟨b, k1, k2, k3⟩ := (C51_generated_same_partial hM hS hE hb hp hin hf ha hr hst hrr).1 _ h1
    have hra : Ready sm inp a := C14_calls_ready ⟨f, npos, bytes, sm, inp⟩ hM hrec hin hr (.cons _ _ _ h1 (.nil _)) a (by simp)
    obtain ⟨rs', g1, g2⟩ := ih hra k3 k2
    exact ⟨b :: rs', .cons _ _ _ k1 g1, .cons k2 g2⟩

/-! ### Examples -/

namespace Ex

/-- The rules of `RPar`, with the features that `push` records for them. -/
def RParF : Rules := { RPar with features := [32, 36] }

def smPar : Internals := machine RParF

set_option maxRecDepth 20000 in
theorem builtParF : buildTemp tr (fun n => n) RParF = .ok smPar := machine_ok (by decide +kernel)

theorem machinePar : Machine 65535 smPar := (C14_built_tables (tr := tr) (R := RParF) targetsPar builtParF).1

set_option maxRecDepth 20000 in
theorem saysPar : FeaturesSay 65535 smPar := featuresSay_ok (by decide +kernel)

/-- All flags. -/
def fMost : Flags := ⟨true, true, true, true, true⟩

/-- Only the flags needed. -/
def fLeast : Flags := ⟨false, false, true, true, true⟩

/-- `n` calls of a generated function. -/
def genCalls (g : GenCode) (inp : List Nat) (fuel : Nat) : Nat → Results → Option (List Results)
  | 0, _ => some []
  | n + 1, r =>
    match g.callFuel 65535 1 inp fuel fuel r with
    | .ok r' => (genCalls g inp fuel n r').map (r' :: ·)
    | .error _ => none

end Ex

set_option maxRecDepth 20000 in
/-- The two-state machine for nested parentheses, lexing `a((c))` with all flags and with those
it needs. -/
example : Machine 65535 Ex.smPar ∧ FeaturesSay 65535 Ex.smPar ∧ Covers Ex.fMost Ex.smPar ∧ Covers Ex.fLeast Ex.smPar ∧
    Ready Ex.smPar [97, 40, 40, 99, 41, 41] ⟨0, 0, 0, 0, 6, true, 0, []⟩ ∧
    ∀ f ∈ [Ex.fMost, Ex.fLeast], (Ex.calls ⟨f, 65535, 1, Ex.smPar, [97, 40, 40, 99, 41, 41]⟩ 10 6 ⟨0, 0, 0, 0, 6, true, 0, []⟩).map
      (·.map fun r => (r.id, r.state, r.stack.map (·.1))) =
        some [(1, 0, []), (2, 1, [0]), (2, 1, [1, 0]), (3, 1, [0]), (3, 0, []), (0, 0, [])] := by
  have hf : hasBit Ex.smPar.features 1 = false ∧ hasBit Ex.smPar.features 2 = false := by decide +kernel
  refine ⟨Ex.machinePar, Ex.saysPar, ⟨fun _ => rfl, fun _ => rfl, fun _ => rfl, fun _ => rfl⟩,
    ⟨fun h => ?_, fun h => ?_, fun _ => rfl, fun _ => rfl⟩, ⟨by decide, by decide, by decide +kernel, by simp⟩, by decide +kernel⟩
  · rw [hf.1] at h; cases h
  · rw [hf.2] at h; cases h

set_option maxRecDepth 20000 in
/-- The functions generated for it, with and without pointers, lexing the same text. -/
example : hasBit Ex.smPar.features 2 = false ∧ (hasBit Ex.smPar.features 1 = true → AllStartLines Ex.smPar) ∧
    StackFits Ex.smPar [] ∧ (∀ p, (generate Ex.smPar p).compiles = true) ∧
    ∀ p, (Ex.genCalls (generate Ex.smPar p) [97, 40, 40, 99, 41, 41] 10 6 ⟨0, 0, 0, 0, 6, true, 0, []⟩).map
      (·.map fun r => (r.id, r.state, r.stack.map (·.1))) =
        some [(1, 0, []), (2, 1, [0]), (2, 1, [1, 0]), (3, 1, [0]), (3, 0, []), (0, 0, [])] := by
  have hf : hasBit Ex.smPar.features 1 = false := by decide +kernel
  refine ⟨by decide +kernel, fun h => ?_, fun _ => by simp, by decide +kernel, by decide +kernel⟩
  rw [hf] at h; cases h

/-! ### Where the generated function differs -/

theorem returns_of {g : GenCode} {inp : List Nat} {r : Results} {n : Nat} {x : Results}
    (h : (g.callFuel 65535 1 inp n n r).toOption = some x) : g.Returns 65535 1 inp r (.ok x) := by
  cases ho : g.callFuel 65535 1 inp n n r with
  | ok y => rw [ho] at h; cases h; exact ⟨by simp, n, n, ho⟩
  | error e => rw [ho] at h; cases h

theorem call_of {f : Flags} {sm : Internals} {inp : List Nat} {r : Results} {n : Nat} {x : Results}
    (h : (lookupFuel f 65535 1 sm inp n r).toOption = some x) : Returns f 65535 1 sm inp r (.ok x) := by
  cases ho : lookupFuel f 65535 1 sm inp n r with
  | ok y => rw [ho] at h; cases h; exact ⟨by simp, n, ho⟩
  | error e => rw [ho] at h; cases h

/-- The outcome is undefined behaviour. -/
def isUb {α : Type} : M α → Bool
  | .error (.ub _) => true
  | _ => false

theorem ub_of {g : GenCode} {inp : List Nat} {r : Results} {n : Nat} (h : isUb (g.callFuel 65535 1 inp n n r) = true) :
    ∃ what, g.Returns 65535 1 inp r (.error (.ub what)) := by
  cases ho : g.callFuel 65535 1 inp n n r with
  | ok y => rw [ho] at h; cases h
  | error e =>
    cases e with
    | ub m => exact ⟨m, by simp, n, n, ho⟩
    | throw m => rw [ho] at h; cases h
    | fuel => rw [ho] at h; cases h

/-- The machine for the rules `a$` (id 4), `a` (id 1) and `\n` (id 5). -/
def Ex.smDollar : Internals := Ex.machine Ex.RDollar

set_option maxRecDepth 20000 in
/-- C51.  For rules with `$` the generated function does something else: before a carriage return,
where `lookup` finds `a$`, it does not; and where the text stops matching at the last character
of the input it reports `a$` with that character as part of the token: `ab` is a token of the
rule `a$`. -/
theorem C51_dollar_differs : Machine 65535 Ex.smDollar ∧ FeaturesSay 65535 Ex.smDollar ∧
    (∃ r, Returns Ex.fMost 65535 1 Ex.smDollar [97, 13] (.mk' 65535 0 2) (.ok r) ∧ r.id = 4 ∧ r.second = 1) ∧
    (∃ r, (generate Ex.smDollar false).Returns 65535 1 [97, 13] (.mk' 65535 0 2) (.ok r) ∧ r.id = 4 ∧ r.second = 2) ∧
    (∃ r, (generate Ex.smDollar false).Returns 65535 1 [97, 13, 10] (.mk' 65535 0 3) (.ok r) ∧ r.id = 1 ∧ r.second = 1) ∧
    (∃ r, Returns Ex.fMost 65535 1 Ex.smDollar [97, 98] (.mk' 65535 0 2) (.ok r) ∧ r.id = 1 ∧ r.second = 1) ∧
    (∃ r, (generate Ex.smDollar false).Returns 65535 1 [97, 98] (.mk' 65535 0 2) (.ok r) ∧ r.id = 4 ∧ r.second = 2) := by
  have hb : buildTemp Ex.tr (fun n => n) Ex.RDollar = .ok Ex.smDollar := Ex.machine_ok (by decide +kernel)
  have ht : TargetsExist Ex.tr.npos Ex.RDollar := by
    intro rs hrs r hr
    simp only [Ex.RDollar, List.mem_cons, List.not_mem_nil, or_false] at hrs
    subst hrs
    simp only [List.mem_cons, List.not_mem_nil, or_false] at hr
    rcases hr with rfl | rfl | rfl <;> decide
  refine ⟨(C14_built_tables ht hb).1, Ex.featuresSay_ok (by decide +kernel), ⟨_, call_of (n := 3) (x := ?_) ?_, ?_⟩,
    ⟨_, returns_of (n := 5) (x := ?_) ?_, ?_⟩, ⟨_, returns_of (n := 5) (x := ?_) ?_, ?_⟩,
    ⟨_, call_of (n := 3) (x := ?_) ?_, ?_⟩, ⟨_, returns_of (n := 5) (x := ?_) ?_, ?_⟩⟩
  · exact ⟨4, 65535, 0, 1, 2, false, 0, []⟩
  · decide +kernel
  · decide
  · exact ⟨4, 65535, 0, 2, 2, true, 0, []⟩
  · decide +kernel
  · decide
  · exact ⟨1, 7, 0, 1, 3, true, 0, []⟩
  · decide +kernel
  · decide
  · exact ⟨1, 7, 0, 1, 2, false, 0, []⟩
  · decide +kernel
  · decide
  · exact ⟨4, 65535, 0, 2, 2, true, 0, []⟩
  · decide +kernel
  · decide

set_option maxRecDepth 20000 in
/-- C51.  With pointers, rules with `$` make the generated function use a number as an address. -/
theorem C51_pointers_dollar_undefined :
    ∃ what, (generate Ex.smDollar true).Returns 65535 1 [97] (.mk' 65535 0 1) (.error (.ub what)) :=
  ub_of (n := 5) (by decide +kernel)

/-- Before the first of one character, in lexer state 1, at the beginning of a line. -/
def Ex.inState1 : Results := ⟨65535, 65535, 0, 0, 1, true, 1, []⟩

/-- `^c` (id 3) and `a` (id 1, to state 1) in state 0; `a` (id 1, to state 0) in state 1. -/
def Ex.RTwo : Rules :=
  ⟨[[Ex.rBolC, ⟨Ex.rA.regex, 1, 7, 1, 65535, false⟩], [⟨Ex.rA.regex, 1, 7, 0, 65535, false⟩]], [1, 0], 0, false, false⟩

def Ex.smTwo : Internals := Ex.machine Ex.RTwo

set_option maxRecDepth 20000 in
/-- C51.  With pointers, a lexer state without `^` rules in a machine that has such rules
elsewhere matches nothing at the beginning of a line: here the rule for `a` in state 1. -/
theorem C51_pointers_lose_rules : Machine 65535 Ex.smTwo ∧ FeaturesSay 65535 Ex.smTwo ∧ hasBit Ex.smTwo.features 2 = false ∧
    (∃ r, Returns Ex.fMost 65535 1 Ex.smTwo [97] Ex.inState1 (.ok r) ∧ r.id = 1 ∧ r.second = 1) ∧
    (∃ r, (generate Ex.smTwo false).Returns 65535 1 [97] Ex.inState1 (.ok r) ∧ r.id = 1 ∧ r.second = 1) ∧
    (∃ r, (generate Ex.smTwo true).Returns 65535 1 [97] Ex.inState1 (.ok r) ∧ r.id = 65535) := by
  have hb : buildTemp Ex.tr (fun n => n) Ex.RTwo = .ok Ex.smTwo := Ex.machine_ok (by decide +kernel)
  have ht : TargetsExist Ex.tr.npos Ex.RTwo := by
    intro rs hrs r hr
    simp only [Ex.RTwo, List.mem_cons, List.not_mem_nil, or_false] at hrs
    rcases hrs with rfl | rfl <;> simp only [List.mem_cons, List.not_mem_nil, or_false] at hr
    · rcases hr with rfl | rfl <;> decide
    · subst hr; decide
  refine ⟨(C14_built_tables ht hb).1, Ex.featuresSay_ok (by decide +kernel), by decide +kernel, ⟨_, call_of (n := 3) (x := ?_) ?_, ?_⟩,
    ⟨_, returns_of (n := 5) (x := ?_) ?_, ?_⟩, ⟨_, returns_of (n := 5) (x := ?_) ?_, ?_⟩⟩
  · exact ⟨1, 7, 0, 1, 1, false, 0, []⟩
  · decide +kernel
  · decide
  · exact ⟨1, 7, 0, 1, 1, false, 0, []⟩
  · decide +kernel
  · decide
  · exact ⟨65535, 65535, 0, 1, 1, false, 1, []⟩
  · decide +kernel
  · decide

set_option maxRecDepth 20000 in
/-- C51.  Popping an empty stack: `lookup` throws, the generated function is undefined. -/
theorem C51_underflow_undefined :
    (∃ what, Returns Ex.fMost 65535 1 Ex.smPar [41] Ex.inState1 (.error (.throw what))) ∧
    (∃ what, (generate Ex.smPar false).Returns 65535 1 [41] Ex.inState1 (.error (.ub what))) := by
  refine ⟨?_, ub_of (n := 5) (by decide +kernel)⟩
  have h : (match lookupFuel Ex.fMost 65535 1 Ex.smPar [41] 5 Ex.inState1 with
    | .error (.throw _) => true | _ => false) = true := by decide +kernel
  split at h
  · rename_i m hm
    exact ⟨m, by simp, 5, hm⟩
  · cases h

end Lexertl.Props
