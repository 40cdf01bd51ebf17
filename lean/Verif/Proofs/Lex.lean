import Verif.Proofs.Build
import Verif.Proofs.Scan
import Verif.Proofs.Wide
import Verif.Spec.Lexer

/-
`lookup` on a built machine does what the regular expressions of the rules say.
-/
namespace Lexertl
open Spec

/-- The words `W` of the rules can be read off from their encodings. -/
structure Decodes (W : Option Re → List Sym → Prop) (enc : Sym → List Sym) (xs : List DRule) (inp : List Nat) : Prop where
  head : ∀ c, ∃ a t, enc (.ch c) = a :: t ∧ a ≠ .bol
  plain : ∀ x ∈ xs, ∀ p k, W x.2 ((text inp p k).flatMap enc) ↔ RMatches x.2 (text inp p k)
  line : ∀ x ∈ xs, ∀ p k, W x.2 (.bol :: (text inp p k).flatMap enc) ↔ RMatches x.2 (.bol :: text inp p k)
  anch : ∀ x ∈ xs, (∃ v, W x.2 (.bol :: v)) ↔ ∃ v, RMatches x.2 (.bol :: v)

theorem segSyms_text (enc : Sym → List Sym) (inp : List Nat) (p k : Nat) :
    segSyms (fun c => enc (.ch c)) inp p k = (text inp p k).flatMap enc := by
  unfold segSyms text
  rw [List.flatMap_map]

theorem Decodes.noBol {W : Option Re → List Sym → Prop} {enc : Sym → List Sym} {xs : List DRule} {inp : List Nat}
    (H : Decodes W enc xs inp) (inp' : List Nat) (p k : Nat) (w : List Sym) : (text inp' p k).flatMap enc ≠ .bol :: w := by
  unfold text
  cases (inp'.drop p).take (k - p) with
  | nil => simp
  | cons c cs =>
    obtain ⟨a, t, h1, h2⟩ := H.head c
    rw [List.map_cons, List.flatMap_cons, h1]
    intro h
    injection h with h
    exact h2 h

section
variable {W : Option Re → List Sym → Prop} {enc : Sym → List Sym} {sb : Bool} {xs : List DRule} {inp : List Nat}

/-- The words of the table at a position. -/
theorem words_at (hdec : Decodes W enc xs inp)
    (hsb : sb = false → ∀ x ∈ xs, rNoBol x.2 = true) (atLine : Bool) (pre : List Sym)
    (hpre : (pre = [.bol] ∧ atLine = true ∧ ∃ j w, j < xs.length ∧ ruleWords W sb xs j (.bol :: w)) ∨
       (pre = [] ∧ (atLine = true → ∀ j w, j < xs.length → ¬ ruleWords W sb xs j (.bol :: w))))
    (j p k : Nat) : ruleWords W sb xs j (pre ++ (text inp p k).flatMap enc) ↔
      ∃ x, xs[j]? = some x ∧ LineMatch atLine x.2 (text inp p k) := by
  have hmem : ∀ {x}, xs[j]? = some x → x ∈ xs := fun h => List.mem_of_getElem? h
  rcases hpre with ⟨rfl, rfl, j', w', hj', x', hx', hm'⟩ | ⟨rfl, hno⟩
  · have hsb' : sb = true := by
      cases hs : sb with
      | true => rfl
      | false =>
        rw [hs] at hm'
        rcases hm' with hm' | ⟨h, _⟩
        · have hx := hsb hs x' (List.mem_of_getElem? hx')
          obtain ⟨v, hv⟩ := (hdec.anch x' (List.mem_of_getElem? hx')).1 ⟨_, hm'⟩
          cases hr : x'.2 with
          | none => rw [hr] at hv; cases hv
          | some r =>
            rw [hr] at hv hx
            exact absurd (List.mem_cons_self ..) (noBol_words hx hv)
        · cases h
    unfold ruleWords LineMatch
    constructor
    · rintro ⟨x, hx, h⟩
      refine ⟨x, hx, ?_⟩
      have d1 := hdec.plain x (hmem hx) p k
      have d2 := hdec.line x (hmem hx) p k
      rcases h with h | ⟨_, h1, w, h2, h3⟩
      · exact .inl ⟨rfl, d2.1 h⟩
      · right
        rw [hdec.anch x (hmem hx)] at h1
        injection h2 with _ h2
        refine ⟨fun h => h1 h.2, d1.1 ?_⟩
        rw [show (text inp p k).flatMap enc = w from h2]
        exact h3
    · rintro ⟨x, hx, h⟩
      refine ⟨x, hx, ?_⟩
      have d1 := hdec.plain x (hmem hx) p k
      have d2 := hdec.line x (hmem hx) p k
      rcases h with ⟨_, h⟩ | ⟨h1, h2⟩
      · exact .inl (d2.2 h)
      · right
        refine ⟨hsb', fun hh => h1 ⟨rfl, (hdec.anch x (hmem hx)).1 hh⟩, _, rfl, d1.2 h2⟩
  · rw [List.nil_append]
    unfold LineMatch
    constructor
    · rintro ⟨x, hx, h⟩
      refine ⟨x, hx, ?_⟩
      have d1 := hdec.plain x (hmem hx) p k
      have d2 := hdec.line x (hmem hx) p k
      rcases h with h | ⟨_, _, w, h2, _⟩
      · right
        refine ⟨?_, d1.1 h⟩
        rintro ⟨h1, h2⟩
        obtain ⟨v, hv⟩ := (hdec.anch x (hmem hx)).2 h2
        exact hno h1 j v (List.getElem?_eq_some_iff.1 hx).1 ⟨x, hx, .inl hv⟩
      · exact absurd h2 (hdec.noBol _ _ _ _)
    · rintro ⟨x, hx, h⟩
      have d1 := hdec.plain x (hmem hx) p k
      have d2 := hdec.line x (hmem hx) p k
      rcases h with ⟨h1, h2⟩ | ⟨_, h⟩
      · exact absurd ⟨x, hx, .inl (d2.2 h2)⟩ (hno h1 j _ (List.getElem?_eq_some_iff.1 hx).1)
      · exact ⟨x, hx, .inl (d1.2 h)⟩

theorem words_nil (hdec : Decodes W enc xs inp) (j : Nat) :
    ruleWords W sb xs j [] ↔ ∃ x, xs[j]? = some x ∧ RMatches x.2 [] := by
  have ht : text inp 0 0 = [] := by simp [text]
  constructor
  · rintro ⟨x, hx, h | ⟨_, _, w, h, _⟩⟩
    · have := hdec.plain x (List.mem_of_getElem? hx) 0 0
      rw [ht] at this
      exact ⟨x, hx, this.1 h⟩
    · cases h
  · rintro ⟨x, hx, h⟩
    have := hdec.plain x (List.mem_of_getElem? hx) 0 0
    rw [ht] at this
    exact ⟨x, hx, .inl (this.2 h)⟩

/-- Outcome of one match attempt in terms of the rules. -/
theorem built_attempt (hdec : Decodes W enc xs inp)
    (hsb : sb = false → ∀ x ∈ xs, rNoBol x.2 = true) {d : Dfa} {size off : Nat} {At : Nat → List Sym → Prop}
    (A : Auto d size xs.length (ruleInfo xs off) (ruleWords W sb xs) At)
    (f : Flags) (npos bytes : Nat) (sm : Internals) (r : Results) (p : Nat)
    (hd : sm.dfaAt r.state = .ok d) (hp : p < r.eoi) (heoi : r.eoi ≤ inp.length)
    (hnext : ∀ k c, p ≤ k → k < r.eoi → inp[k]? = some c →
      NextOk bytes d xs.length (ruleWords W sb xs) At (fun c => enc (.ch c)) c) :
    ∃ s endTok, attempt f npos bytes sm inp r p p = .ok (s, endTok) ∧
      ((∃ k j x, xs[j]? = some x ∧ Best (LineMatch (f.bol && r.bol)) (xs.map (·.2)) inp p r.eoi k j ∧
          endTok = k ∧ s.endState = true ∧ s.id = x.1.id ∧ s.uid = x.1.userId ∧
          s.endBol = (if f.bol then inp[k - 1]? == some 10 else r.bol) ∧
          (f.recursive = true → s.pop = x.1.popDfa ∧ s.pushDfa = x.1.pushDfa) ∧
          s.startState = if f.multiState then x.1.nextDfa else r.state) ∨
       (NoMatch (LineMatch (f.bol && r.bol)) (xs.map (·.2)) inp p r.eoi ∧ endTok = p ∧
          ((s.endState = false ∧ NoEmpty (xs.map (·.2))) ∨
           (∃ j x, xs[j]? = some x ∧ FirstEmpty (xs.map (·.2)) j ∧
              s.endState = true ∧ s.id = x.1.id ∧ s.uid = x.1.userId ∧ s.endBol = r.bol ∧
              s.pop = x.1.popDfa ∧ s.pushDfa = x.1.pushDfa ∧ s.startState = r.state)))) := by
  have hinfo : ∀ j, j < xs.length → ∃ a b c d e f g, ruleInfo xs off j = .fin a b c d e f g := by
    intro j hj
    unfold ruleInfo
    rw [List.getElem?_eq_getElem hj]
    exact ⟨_, _, _, _, _, _, _, rfl⟩
  have hfin : ∀ {j x a b c d e f g}, xs[j]? = some x → ruleInfo xs off j = .fin a b c d e f g →
      a = x.1.id ∧ b = x.1.userId ∧ d = x.1.nextDfa ∧ e = x.1.pushDfa ∧ f = x.1.popDfa := by
    intro j x a b c d e f g hx h
    unfold ruleInfo at h
    rw [hx] at h
    simp only [endNode] at h
    injection h with h1 h2 h3 h4 h5 h6 h7
    exact ⟨h1.symm, h2.symm, h4.symm, h5.symm, h6.symm⟩
  obtain ⟨pre, s, endTok, a1, a2, a3⟩ := A.attempt hinfo f npos bytes sm inp r p hd hp heoi _ hnext
  have hpre : (pre = [.bol] ∧ (f.bol && r.bol) = true ∧ ∃ j w, j < xs.length ∧ ruleWords W sb xs j (.bol :: w)) ∨
       (pre = [] ∧ ((f.bol && r.bol) = true → ∀ j w, j < xs.length → ¬ ruleWords W sb xs j (.bol :: w))) := by
    rcases a2 with ⟨h1, h2, h3, h4⟩ | ⟨h1, h2⟩
    · exact .inl ⟨h1, by rw [h2, h3]; rfl, h4⟩
    · refine .inr ⟨h1, fun h => ?_⟩
      rw [Bool.and_eq_true] at h
      exact h2 h.1 h.2
  have Wj : ∀ (j k : Nat), ruleWords W sb xs j (pre ++ segSyms (fun c => enc (.ch c)) inp p k) ↔
      ∃ x, xs[j]? = some x ∧ LineMatch (f.bol && r.bol) x.2 (text inp p k) := fun j k => by
    rw [segSyms_text]; exact words_at hdec hsb _ pre hpre j p k
  have Wno : ∀ k, (∀ j, j < xs.length → ¬ ruleWords W sb xs j (pre ++ segSyms (fun c => enc (.ch c)) inp p k)) →
      ∀ e ∈ xs.map (·.2), ¬ LineMatch (f.bol && r.bol) e (text inp p k) := by
    intro k hk e he hm
    obtain ⟨x, hx, rfl⟩ := List.mem_map.1 he
    obtain ⟨j, hj⟩ := List.getElem?_of_mem hx
    exact hk j (List.getElem?_eq_some_iff.1 hj).1 ((Wj j k).2 ⟨x, hj, hm⟩)
  refine ⟨s, endTok, a1, ?_⟩
  rcases a3 with ⟨k, j, k1, k2, k3, k4, k5, k6, k7, id, uid, u, next, push, pop, g, k8, k9, k10, k11, k12, k13, k14⟩ |
    ⟨b1, b2, b3⟩
  · left
    obtain ⟨x, hx, hm⟩ := (Wj j k).1 k4
    obtain ⟨e1, e2, e3, e4, e5⟩ := hfin hx k8
    refine ⟨k, j, x, hx, ⟨k1, k2, ⟨x.2, by rw [List.getElem?_map, hx]; rfl, hm⟩, ?_, ?_⟩, k7, k9, by rw [k10, e1],
      by rw [k11, e2], k12, fun h => by rw [(k13 h).1, (k13 h).2, e5, e4]; exact ⟨rfl, rfl⟩, by rw [k14, e3]⟩
    · intro i e hi he hm'
      rw [List.getElem?_map] at he
      cases hxi : xs[i]? with
      | none => rw [hxi] at he; cases he
      | some y =>
        rw [hxi] at he
        simp only [Option.map_some, Option.some.injEq] at he
        subst he
        exact k5 i hi ((Wj i k).2 ⟨y, hxi, hm'⟩)
    · intro k' h1 h2
      exact Wno k' (k6 k' h1 h2)
  · right
    refine ⟨fun k h1 h2 => Wno k (b1 k h1 h2), b2, ?_⟩
    rcases b3 with ⟨c1, c2⟩ | ⟨j, c1, c2, c3, id, uid, u, next, push, pop, g, c4, c5, c6, c7, c8, c9, c10, c11⟩
    · left
      refine ⟨c1, fun e he hm => ?_⟩
      obtain ⟨x, hx, rfl⟩ := List.mem_map.1 he
      obtain ⟨j, hj⟩ := List.getElem?_of_mem hx
      exact c2 j (List.getElem?_eq_some_iff.1 hj).1 ((words_nil hdec j).2 ⟨x, hj, hm⟩)
    · right
      obtain ⟨x, hx, hm⟩ := (words_nil hdec j).1 c2
      obtain ⟨e1, e2, e3, e4, e5⟩ := hfin hx c4
      refine ⟨j, x, hx, ⟨⟨x.2, by rw [List.getElem?_map, hx]; rfl, hm⟩, ?_⟩, c5, by rw [c6, e1], by rw [c7, e2], c8,
        by rw [c9, e5], by rw [c10, e4], c11⟩
      intro i e hi he hm'
      rw [List.getElem?_map] at he
      cases hxi : xs[i]? with
      | none => rw [hxi] at he; cases he
      | some y =>
        rw [hxi] at he
        simp only [Option.map_some, Option.some.injEq] at he
        subst he
        exact c3 i hi ((words_nil hdec i).2 ⟨y, hxi, hm'⟩)

end


/-- The machine `sm` chooses rules as `E` says, in every valid lexer state. -/
structure Impl (E : LexEnv) (bytes : Nat) (sm : Internals) : Prop where
  eoi : sm.eoi = E.eoi
  att : ∀ (r : Results) (p : Nat), r.state < E.rules.length → p < r.eoi → r.eoi ≤ E.inp.length →
    ∃ s endTok, attempt E.flags E.npos bytes sm E.inp r p p = .ok (s, endTok) ∧
      ((∃ x k next b, E.Chosen r p x k next b ∧ endTok = k ∧ s.endState = true ∧ s.id = x.1.id ∧
          s.uid = x.1.userId ∧ s.endBol = (if E.flags.bol then b else r.bol) ∧
          (E.flags.recursive = true → s.pop = x.1.popDfa ∧ s.pushDfa = x.1.pushDfa) ∧
          s.startState = if E.flags.multiState then next else r.state) ∨
       (s.endState = false ∧ endTok = p ∧ ∃ xs, E.rules[r.state]? = some xs ∧
          NoMatch (LineMatch (E.atLine r)) (xs.map (·.2)) E.inp p r.eoi ∧ NoEmpty (xs.map (·.2))))

theorem chosen_mem {E : LexEnv} {r : Results} {p : Nat} {x : SRule} {k next : Nat} {b : Bool}
    (h : E.Chosen r p x k next b) : ∃ xs ∈ E.rules, x ∈ xs := by
  cases h with
  | text xs x k j h1 h2 _ => exact ⟨xs, List.mem_of_getElem? h1, List.mem_of_getElem? h2⟩
  | empty xs x j h1 h2 _ _ => exact ⟨xs, List.mem_of_getElem? h1, List.mem_of_getElem? h2⟩

theorem chosen_le {E : LexEnv} {r : Results} {p : Nat} {x : SRule} {k next : Nat} {b : Bool}
    (h : E.Chosen r p x k next b) (hp : p ≤ r.eoi) : p ≤ k ∧ k ≤ r.eoi := by
  cases h with
  | text xs x k j h1 h2 h3 => exact ⟨by have := h3.nonempty; omega, h3.inside⟩
  | empty xs x j h1 h2 _ _ => exact ⟨Nat.le_refl _, hp⟩

theorem accept_ok {E : LexEnv} (S : StatesExist E) {r r' : Results} {p : Nat} {x : SRule} {k next : Nat} {b : Bool}
    (h : E.Chosen r p x k next b) (hr : ROk E r) (ha : E.accept x.1 r k next b = .ok r') :
    ROk E r' ∧ r'.eoi = r.eoi ∧ r'.second = k ∧ r'.first = r.first := by
  have hnext : (E.flags.recursive = true ∧ x.1.popDfa = true) ∨ next < E.rules.length := by
    cases h with
    | text xs x k j h1 h2 _ => exact S.next xs (List.mem_of_getElem? h1) x (List.mem_of_getElem? h2)
    | empty xs x j h1 h2 _ _ => exact .inr hr.state
  obtain ⟨xs, hxs, hx⟩ := chosen_mem h
  unfold LexEnv.accept at ha
  split at ha
  · split at ha
    · cases ha
    · rename_i e st hst
      injection ha with ha
      subst ha
      have := hr.stack
      rw [hst] at this
      refine ⟨⟨?_, fun e he => this e (by simp [he]), hr.eoi⟩, rfl, rfl, rfl⟩
      show (if _ then _ else _) < _
      split
      · exact this e (by simp)
      · exact hr.state
  · rename_i hnp
    injection ha with ha
    subst ha
    refine ⟨⟨?_, ?_, hr.eoi⟩, rfl, rfl, rfl⟩
    · show (if _ then _ else _) < _
      split
      · exact hnext.resolve_left hnp
      · exact hr.state
    · intro e he
      simp only at he
      split at he
      · rename_i hc
        rcases List.mem_cons.1 he with rfl | he
        · exact S.push xs hxs x hx hc.2
        · exact hr.stack e he
      · exact hr.stack e he

/-- `popStep` and the update of the result object. -/
theorem popStep_accept {E : LexEnv} {r : Results} {x : SRule} {k next : Nat} {b : Bool} {s : LuState}
    (h0 : s.id = x.1.id) (h1 : s.endBol = if E.flags.bol then b else r.bol)
    (h2 : E.flags.recursive = true → s.pop = x.1.popDfa ∧ s.pushDfa = x.1.pushDfa)
    (h3 : s.startState = if E.flags.multiState then next else r.state) :
    (∃ e, E.accept x.1 r k next b = .error e ∧ s.popStep E.flags E.npos r.stack = .error e ∧ e ≠ .fuel) ∨
    (∃ r' s' stack, E.accept x.1 r k next b = .ok r' ∧ s.popStep E.flags E.npos r.stack = .ok (s', stack) ∧
      { r with
          stack := stack
          state := if E.flags.multiState then s'.startState else r.state
          bol := if E.flags.bol then s'.endBol else r.bol
          second := k } = r' ∧ s'.id = x.1.id ∧ s'.uid = s.uid ∧
      (s'.isIdEoi E.flags E.eoi stack = true ↔ E.continues x.1 r')) := by
  unfold LexEnv.accept LuState.popStep
  cases hrec : E.flags.recursive with
  | false =>
    right
    refine ⟨_, s, r.stack, by rw [if_neg (by simp)], by simp, ?_, h0, rfl, ?_⟩
    · cases hm : E.flags.multiState <;> cases hb : E.flags.bol <;> simp [h1, h3, hm, hb]
    · simp [LuState.isIdEoi, LexEnv.continues, hrec, h0]
  | true =>
    obtain ⟨g1, g2⟩ := h2 hrec
    cases hpop : x.1.popDfa with
    | false =>
      right
      by_cases hpush : x.1.pushDfa = E.npos
      · refine ⟨_, s, r.stack, by rw [if_neg (by simp)], by simp [g1, g2, hpop, hpush], ?_, h0, rfl, ?_⟩
        · cases hm : E.flags.multiState <;> cases hb : E.flags.bol <;> simp [h1, h3, hm, hb, hpush]
        · simp [LuState.isIdEoi, LexEnv.continues, h0, g1, hpop]
      · refine ⟨_, s, (s.pushDfa, s.id) :: r.stack, by rw [if_neg (by simp)], by simp [g1, g2, hpop, hpush], ?_, h0, rfl, ?_⟩
        · cases hm : E.flags.multiState <;> cases hb : E.flags.bol <;> simp [h0, h1, h3, hm, hb, hpush, g2]
        · simp [LuState.isIdEoi, LexEnv.continues, h0, g1, hpop]
    | true =>
      cases hst : r.stack with
      | nil =>
        left
        exact ⟨.throw "Stack underflow in lookup_state::pop().", by simp, by simp [g1, hpop], by simp⟩
      | cons e st =>
        right
        refine ⟨_, { s with startState := e.1 }, st, by rw [if_pos (by simp)], by simp [g1, hpop], ?_, h0, rfl, ?_⟩
        · cases hm : E.flags.multiState <;> cases hb : E.flags.bol <;> simp [h1, hb]
        · simp only [LuState.isIdEoi, LexEnv.continues, h0, hrec, g1, hpop, Bool.true_and, Bool.or_eq_true,
            beq_iff_eq, true_and]
          cases st with
          | nil => simp
          | cons a st => simp

/-- One round of `next`, rephrased. -/
theorem nextLoop_step {E : LexEnv} {bytes : Nat} {sm : Internals} (I : Impl E bytes sm) (r : Results) (p fuel : Nat)
    (hr : ROk E r) (hp : p < r.eoi) :
    (∃ x k next b, E.Chosen r p x k next b ∧
      ((∃ e, E.accept x.1 r k next b = .error e ∧ e ≠ .fuel ∧
          nextLoop E.flags E.npos bytes sm E.inp (fuel + 1) r p p = .error e) ∨
       (∃ r', E.accept x.1 r k next b = .ok r' ∧
          ((x.1.id = E.npos - 1 ∧ nextLoop E.flags E.npos bytes sm E.inp (fuel + 1) r p p =
              nextLoop E.flags E.npos bytes sm E.inp fuel { r' with first := k } k k) ∨
           (x.1.id ≠ E.npos - 1 ∧ E.continues x.1 r' ∧ nextLoop E.flags E.npos bytes sm E.inp (fuel + 1) r p p =
              nextLoop E.flags E.npos bytes sm E.inp fuel r' k k) ∨
           (x.1.id ≠ E.npos - 1 ∧ ¬ E.continues x.1 r' ∧ nextLoop E.flags E.npos bytes sm E.inp (fuel + 1) r p p =
              .ok { r' with id := x.1.id, userId := x.1.userId }))))) ∨
    (∃ xs c, E.rules[r.state]? = some xs ∧ NoMatch (LineMatch (E.atLine r)) (xs.map (·.2)) E.inp p r.eoi ∧
      NoEmpty (xs.map (·.2)) ∧ E.inp[p]? = some c ∧ nextLoop E.flags E.npos bytes sm E.inp (fuel + 1) r p p =
        .ok { r with first := p, second := if E.flags.advance then p + 1 else p,
                     bol := c == 10, id := E.npos, userId := E.npos }) := by
  obtain ⟨s, endTok, a1, a2⟩ := I.att r p hr.state hp hr.eoi
  have hstep : nextLoop E.flags E.npos bytes sm E.inp (fuel + 1) r p p =
      (if s.endState then
        (s.popStep E.flags E.npos r.stack >>= fun (s', stack) =>
          if s'.id = E.npos - 1 then
            nextLoop E.flags E.npos bytes sm E.inp fuel { r with
              stack := stack
              state := if E.flags.multiState then s'.startState else r.state
              bol := if E.flags.bol then s'.endBol else r.bol
              second := endTok
              first := endTok } endTok endTok
          else if s'.isIdEoi E.flags sm.eoi stack then
            nextLoop E.flags E.npos bytes sm E.inp fuel { r with
              stack := stack
              state := if E.flags.multiState then s'.startState else r.state
              bol := if E.flags.bol then s'.endBol else r.bol
              second := endTok } endTok endTok
          else .ok { r with
              stack := stack
              state := if E.flags.multiState then s'.startState else r.state
              bol := if E.flags.bol then s'.endBol else r.bol
              second := endTok
              id := s'.id, userId := s'.uid })
      else
        charAt E.inp r.eoi endTok >>= fun c =>
        .ok { r with
          first := endTok
          second := if E.flags.advance then endTok + 1 else endTok
          bol := c == 10
          id := E.npos, userId := E.npos }) := by
    rw [nextLoop, if_neg (by omega), a1]
    simp only [bind, Except.bind]
  rcases a2 with ⟨x, k, next, b, c1, c2, c3, c4, c5, c6, c7, c8⟩ | ⟨c1, c2, xs, c3, c4, c5⟩
  · left
    refine ⟨x, k, next, b, c1, ?_⟩
    subst c2
    rw [if_pos c3] at hstep
    rcases popStep_accept (k := endTok) c4 c6 c7 c8 with ⟨e, d1, d2, d3⟩ | ⟨r', s', stack, d1, d2, d3, d4, d5, d6⟩
    · left
      refine ⟨e, d1, d3, ?_⟩
      rw [hstep, d2]; rfl
    · right
      refine ⟨r', d1, ?_⟩
      rw [d2] at hstep
      simp only [bind, Except.bind] at hstep
      rw [I.eoi, d4] at hstep
      by_cases e1 : x.1.id = E.npos - 1
      · left
        refine ⟨e1, ?_⟩
        rw [hstep, if_pos e1, ← d3]
      · right
        rw [if_neg e1] at hstep
        by_cases e2 : s'.isIdEoi E.flags E.eoi stack = true
        · left
          refine ⟨e1, d6.1 e2, ?_⟩
          rw [hstep, if_pos e2, d3]
        · right
          refine ⟨e1, fun h => e2 (d6.2 h), ?_⟩
          rw [hstep, if_neg e2, d5, c5, ← d3]
  · right
    have hlt : p < E.inp.length := by have := hr.eoi; omega
    refine ⟨xs, E.inp[p], c3, c4, c5, List.getElem?_eq_getElem hlt, ?_⟩
    rw [hstep, if_neg (by rw [c1]; decide), c2]
    unfold charAt
    rw [if_pos hp, List.getElem?_eq_getElem hlt]
    rfl

/-- Whatever `next` returns is what the rules say. -/
theorem nextLoop_sound {E : LexEnv} {bytes : Nat} {sm : Internals} (I : Impl E bytes sm) (S : StatesExist E)
    (fuel : Nat) : ∀ (r : Results) (p : Nat), ROk E r → p ≤ r.eoi →
    nextLoop E.flags E.npos bytes sm E.inp fuel r p p ≠ .error .fuel →
    E.Lex r p (nextLoop E.flags E.npos bytes sm E.inp fuel r p p) := by
  induction fuel with
  | zero => intro r p _ _ h; exact absurd rfl h
  | succ fuel ih =>
    intro r p hr hp h
    by_cases he : p = r.eoi
    · subst he
      rw [nextLoop, if_pos rfl, I.eoi]
      exact .eoi r
    have hlt : p < r.eoi := by omega
    rcases nextLoop_step I r p fuel hr hlt with ⟨x, k, next, b, c1, ⟨e, c2, c3, c4⟩ | ⟨r', c2, c3⟩⟩ |
      ⟨xs, c, c1, c2, c3, c4, c5⟩
    · rw [c4]; exact .throw r p x k next b e hlt c1 c2
    · obtain ⟨d1, d2, d3, d4⟩ := accept_ok S c1 hr c2
      have hk := (chosen_le c1 hp).2
      rcases c3 with ⟨e1, e2⟩ | ⟨e1, e2, e3⟩ | ⟨e1, e2, e3⟩
      · rw [e2] at h ⊢
        exact .skip r r' p x k next b _ hlt c1 c2 e1 (ih _ k ⟨d1.state, d1.stack, d1.eoi⟩
          (by show k ≤ r'.eoi; rw [d2]; exact hk) h)
      · rw [e3] at h ⊢
        exact .again r r' p x k next b _ hlt c1 c2 e1 e2 (ih _ k d1 (by rw [d2]; exact hk) h)
      · rw [e3]; exact .token r r' p x k next b hlt c1 c2 e1 e2
    · rw [c5]; exact .none r p xs c hlt c1 c2 c3 c4

/-- More fuel does not change a result. -/
theorem nextLoop_mono (f : Flags) (npos bytes : Nat) (sm : Internals) (inp : List Nat) (fuel : Nat) :
    ∀ (n : Nat) (r : Results) (p q : Nat), fuel ≤ n → nextLoop f npos bytes sm inp fuel r p q ≠ .error .fuel →
    nextLoop f npos bytes sm inp n r p q = nextLoop f npos bytes sm inp fuel r p q := by
  induction fuel with
  | zero => intro n r p q _ h; exact absurd rfl h
  | succ fuel ih =>
    intro n r p q hn h
    obtain ⟨n, rfl⟩ : ∃ m, n = m + 1 := ⟨n - 1, by omega⟩
    rw [nextLoop] at h ⊢
    rw [nextLoop]
    split
    · rfl
    · rename_i hne
      rw [if_neg hne] at h
      cases ha : attempt f npos bytes sm inp r p q with
      | error e => rfl
      | ok a =>
        obtain ⟨s, endTok⟩ := a
        rw [ha] at h
        simp only [bind, Except.bind] at h ⊢
        split
        · rename_i he
          rw [if_pos he] at h
          cases hpop : s.popStep f npos r.stack with
          | error e => rfl
          | ok a =>
            obtain ⟨s', stack⟩ := a
            rw [hpop] at h
            simp only at h ⊢
            split
            · rename_i h1
              rw [if_pos h1] at h
              exact ih n _ _ _ (by omega) h
            · rename_i h1
              rw [if_neg h1] at h
              split
              · rename_i h2
                rw [if_pos h2] at h
                exact ih n _ _ _ (by omega) h
              · rfl
        · rfl


theorem best_unique {L : Option Re → List Sym → Prop} {es : List (Option Re)} {inp : List Nat}
    {p eoi k j k' j' : Nat} (h : Best L es inp p eoi k j) (h' : Best L es inp p eoi k' j') : k = k' ∧ j = j' := by
  obtain ⟨e, e1, e2⟩ := h.hit
  obtain ⟨e', e1', e2'⟩ := h'.hit
  have hk : k = k' := by
    rcases Nat.lt_trichotomy k k' with hlt | rfl | hlt
    · exact absurd e2' (h.longest k' hlt h'.inside e' (List.mem_of_getElem? e1'))
    · rfl
    · exact absurd e2 (h'.longest k hlt h.inside e (List.mem_of_getElem? e1))
  subst hk
  refine ⟨rfl, ?_⟩
  rcases Nat.lt_trichotomy j j' with hlt | rfl | hlt
  · exact absurd e2 (h'.earliest j e hlt e1)
  · rfl
  · exact absurd e2' (h.earliest j' e' hlt e1')

theorem best_noMatch {L : Option Re → List Sym → Prop} {es : List (Option Re)} {inp : List Nat}
    {p eoi k j : Nat} (h : Best L es inp p eoi k j) (h' : NoMatch L es inp p eoi) : False := by
  obtain ⟨e, e1, e2⟩ := h.hit
  exact h' k h.nonempty h.inside e (List.mem_of_getElem? e1) e2

theorem chosen_unique {E : LexEnv} {r : Results} {p : Nat} {x x' : SRule} {k k' next next' : Nat} {b b' : Bool}
    (h : E.Chosen r p x k next b) (h' : E.Chosen r p x' k' next' b') :
    x = x' ∧ k = k' ∧ next = next' ∧ b = b' := by
  cases h with
  | text xs x k j h1 h2 h3 =>
    cases h' with
    | text xs' x' k' j' g1 g2 g3 =>
      rw [h1] at g1
      cases g1
      obtain ⟨rfl, rfl⟩ := best_unique h3 g3
      rw [h2] at g2
      cases g2
      exact ⟨rfl, rfl, rfl, rfl⟩
    | empty xs' x' j' g1 g2 g3 g4 =>
      rw [h1] at g1
      cases g1
      exact (best_noMatch h3 g3).elim
  | empty xs x j h1 h2 h3 h4 =>
    cases h' with
    | text xs' x' k' j' g1 g2 g3 =>
      rw [h1] at g1
      cases g1
      exact (best_noMatch g3 h3).elim
    | empty xs' x' j' g1 g2 g3 g4 =>
      rw [h1] at g1
      cases g1
      have : j = j' := by
        obtain ⟨e, e1, e2⟩ := h4.hit
        obtain ⟨e', e1', e2'⟩ := g4.hit
        rcases Nat.lt_trichotomy j j' with hlt | rfl | hlt
        · exact absurd e2 (g4.earliest j e hlt e1)
        · rfl
        · exact absurd e2' (h4.earliest j' e' hlt e1')
      subst this
      rw [h2] at g2
      cases g2
      exact ⟨rfl, rfl, rfl, rfl⟩

theorem chosen_none {E : LexEnv} {r : Results} {p : Nat} {x : SRule} {k next : Nat} {b : Bool}
    (h : E.Chosen r p x k next b) {xs : List SRule} (h1 : E.rules[r.state]? = some xs)
    (h2 : NoMatch (LineMatch (E.atLine r)) (xs.map (·.2)) E.inp p r.eoi) (h3 : NoEmpty (xs.map (·.2))) : False := by
  cases h with
  | text xs' x k j g1 g2 g3 =>
    rw [h1] at g1
    cases g1
    exact best_noMatch g3 h2
  | empty xs' x j g1 g2 g3 g4 =>
    rw [h1] at g1
    cases g1
    obtain ⟨e, e1, e2⟩ := g4.hit
    exact h3 e (List.mem_of_getElem? e1) e2

/-- What the rules say is what `next` returns. -/
theorem nextLoop_complete {E : LexEnv} {bytes : Nat} {sm : Internals} (I : Impl E bytes sm) (S : StatesExist E)
    {r : Results} {p : Nat} {o : M Results} (h : E.Lex r p o) : ROk E r →
    ∃ N, ∀ n, N ≤ n → nextLoop E.flags E.npos bytes sm E.inp n r p p = o := by
  induction h with
  | eoi r =>
    intro _
    refine ⟨1, fun n hn => ?_⟩
    obtain ⟨n, rfl⟩ : ∃ m, n = m + 1 := ⟨n - 1, by omega⟩
    rw [nextLoop, if_pos rfl, I.eoi]
  | none r p xs c hp h1 h2 h3 h4 =>
    intro hr
    refine ⟨1, fun n hn => ?_⟩
    obtain ⟨n, rfl⟩ : ∃ m, n = m + 1 := ⟨n - 1, by omega⟩
    rcases nextLoop_step I r p n hr hp with ⟨x, k, next, b, c1, _⟩ | ⟨xs', c', c1, c2, c3, c4, c5⟩
    · exact (chosen_none c1 h1 h2 h3).elim
    · rw [h4] at c4
      cases c4
      exact c5
  | throw r p x k next b e hp h1 h2 =>
    intro hr
    refine ⟨1, fun n hn => ?_⟩
    obtain ⟨n, rfl⟩ : ∃ m, n = m + 1 := ⟨n - 1, by omega⟩
    rcases nextLoop_step I r p n hr hp with ⟨x', k', next', b', c1, c2⟩ | ⟨xs', c', c1, c2, c3, c4, c5⟩
    · obtain ⟨rfl, rfl, rfl, rfl⟩ := chosen_unique h1 c1
      rcases c2 with ⟨e', d1, _, d2⟩ | ⟨r', d1, _⟩
      · rw [h2] at d1
        cases d1
        exact d2
      · rw [h2] at d1; cases d1
    · exact (chosen_none h1 c1 c2 c3).elim
  | skip r r' p x k next b o hp h1 h2 h3 h4 ih =>
    intro hr
    obtain ⟨d1, d2, d3, d4⟩ := accept_ok S h1 hr h2
    obtain ⟨N, hN⟩ := ih ⟨d1.state, d1.stack, d1.eoi⟩
    refine ⟨N + 1, fun n hn => ?_⟩
    obtain ⟨n, rfl⟩ : ∃ m, n = m + 1 := ⟨n - 1, by omega⟩
    rcases nextLoop_step I r p n hr hp with ⟨x', k', next', b', c1, c2⟩ | ⟨xs', c', c1, c2, c3, c4, c5⟩
    · obtain ⟨rfl, rfl, rfl, rfl⟩ := chosen_unique h1 c1
      rcases c2 with ⟨e', e1, _, e2⟩ | ⟨r'', e1, e2⟩
      · rw [h2] at e1; cases e1
      · rw [h2] at e1
        cases e1
        rcases e2 with ⟨_, e3⟩ | ⟨e3, _⟩ | ⟨e3, _⟩
        · rw [e3]; exact hN n (by omega)
        · exact absurd h3 e3
        · exact absurd h3 e3
    · exact (chosen_none h1 c1 c2 c3).elim
  | again r r' p x k next b o hp h1 h2 h3 h4 h5 ih =>
    intro hr
    obtain ⟨d1, d2, d3, d4⟩ := accept_ok S h1 hr h2
    obtain ⟨N, hN⟩ := ih d1
    refine ⟨N + 1, fun n hn => ?_⟩
    obtain ⟨n, rfl⟩ : ∃ m, n = m + 1 := ⟨n - 1, by omega⟩
    rcases nextLoop_step I r p n hr hp with ⟨x', k', next', b', c1, c2⟩ | ⟨xs', c', c1, c2, c3, c4, c5⟩
    · obtain ⟨rfl, rfl, rfl, rfl⟩ := chosen_unique h1 c1
      rcases c2 with ⟨e', e1, _, e2⟩ | ⟨r'', e1, e2⟩
      · rw [h2] at e1; cases e1
      · rw [h2] at e1
        cases e1
        rcases e2 with ⟨e3, _⟩ | ⟨_, _, e3⟩ | ⟨_, e3, _⟩
        · exact absurd e3 h3
        · rw [e3]; exact hN n (by omega)
        · exact absurd h4 e3
    · exact (chosen_none h1 c1 c2 c3).elim
  | token r r' p x k next b hp h1 h2 h3 h4 =>
    intro hr
    refine ⟨1, fun n hn => ?_⟩
    obtain ⟨n, rfl⟩ : ∃ m, n = m + 1 := ⟨n - 1, by omega⟩
    rcases nextLoop_step I r p n hr hp with ⟨x', k', next', b', c1, c2⟩ | ⟨xs', c', c1, c2, c3, c4, c5⟩
    · obtain ⟨rfl, rfl, rfl, rfl⟩ := chosen_unique h1 c1
      rcases c2 with ⟨e', e1, _, e2⟩ | ⟨r'', e1, e2⟩
      · rw [h2] at e1; cases e1
      · rw [h2] at e1
        cases e1
        rcases e2 with ⟨e3, _⟩ | ⟨_, e3, _⟩ | ⟨_, _, e3⟩
        · exact absurd e3 h3
        · exact absurd e3 h4
        · exact e3
    · exact (chosen_none h1 c1 c2 c3).elim

theorem rNoBol_iff (x : Option Re) : rNoBol x = true ↔ NoBol x := by
  cases x with
  | none => simp [rNoBol, NoBol]
  | some r => rfl

theorem denotes_counts {ts : List Tok} {r : Re} (h : Denotes ts (some r)) : r.CountsOk := by
  generalize hq : some r = q at h
  cases h with
  | empty => cases hq
  | re _ _ _ _ _ _ h3 => cases hq; exact derives_counts h3

theorem Spec.RuleSet.stateOk {tr : Traits} {R : Rules} {xss : List (List SRule)} (h : RuleSet tr R xss) :
    ∀ xs ∈ xss, StateOk tr (Wide.words tr) (slotsOf tr) xs := by
  intro xs hxs
  refine ⟨⟨h.den xs hxs, ?_, Wide.words_none tr, ?_⟩, ?_, fun _ => .inl ?_⟩
  · intro x hx r' hr p
    have h1 := h.sets xs hxs x hx
    have h2 := h.den xs hxs x hx
    rw [hr] at h1 h2
    exact Wide.act_wide tr r' h1 (denotes_counts h2) p
  · intro x hx w hw
    exact Wide.words_tail (h.bolHead xs hxs x hx) hw
  · have := h.count xs hxs
    have e : xcost (slotsOf tr) xs = (xs.map fun x => setsOf tr x.2).sum := by
      unfold xcost
      congr 1
      apply List.map_congr_left
      intro x hx
      have h1 := h.noEol xs hxs x hx
      cases hr : x.2 with
      | none => rfl
      | some r => rw [hr] at h1; exact Wide.slots_lookups h1
    omega
  · intro x hx
    have h1 := h.noEol xs hxs x hx
    cases hr : x.2 with
    | none => rfl
    | some r => rw [hr] at h1; exact h1

theorem Spec.RuleSet.noEol' {tr : Traits} {R : Rules} {xss : List (List SRule)} (h : RuleSet tr R xss) :
    ∀ xs ∈ xss, ∀ x ∈ xs, rNoEol x.2 = true := by
  intro xs hxs x hx
  have h1 := h.noEol xs hxs x hx
  cases hr : x.2 with
  | none => rfl
  | some r => rw [hr] at h1; exact h1

theorem Spec.RuleSet.greedy' {tr : Traits} {R : Rules} {xss : List (List SRule)} (h : RuleSet tr R xss) :
    ∀ xs ∈ xss, ∀ x ∈ xs, rGreedy x.2 = true := by
  intro xs hxs x hx
  have h1 := h.greedy xs hxs x hx
  cases hr : x.2 with
  | none => rfl
  | some r => rw [hr] at h1; exact h1

theorem text_known {tr : Traits} {inp : List Nat} (h : ∀ c ∈ inp, c < charsOf tr) (p k : Nat) :
    ∀ s ∈ text inp p k, Wide.Known tr s := by
  intro s hs
  obtain ⟨c, hc, rfl⟩ := List.mem_map.1 hs
  exact h c (List.mem_of_mem_drop (List.mem_of_mem_take hc))

theorem Spec.RuleSet.decodes {tr : Traits} {R : Rules} {xss : List (List SRule)} (h : RuleSet tr R xss) {xs : List SRule}
    (hxs : xs ∈ xss) {inp : List Nat} (hinp : ∀ c ∈ inp, c < charsOf tr) :
    Decodes (Wide.words tr) (Wide.encode tr) xs inp where
  head c := by
    cases he : Wide.encode tr (.ch c) with
    | nil => exact absurd he (Wide.encode_ne tr _)
    | cons a t =>
      refine ⟨a, t, rfl, ?_⟩
      rintro rfl
      have := Wide.encode_bol tr (s := .ch c) (by rw [he]; simp)
      cases this
  plain x hx p k := Wide.words_iff (h.sets xs hxs x hx) (text_known hinp p k)
  line x hx p k := by
    have := Wide.words_iff (v := .bol :: text inp p k) (h.sets xs hxs x hx) (by
      intro s hs
      rcases List.mem_cons.1 hs with rfl | hs
      · trivial
      · exact text_known hinp p k s hs)
    exact this
  anch x hx := Wide.words_anch (h.sets xs hxs x hx)

theorem stateBol_of {tr : Traits} {R : Rules} {xss : List (List SRule)} (h : RuleSet tr R xss) {i : Nat}
    {xs : List SRule} (hi : xss[i]? = some xs) (hb : stateBol R.features i = false) :
    ∀ x ∈ xs, rNoBol x.2 = true := by
  intro x hx
  rw [rNoBol_iff]
  refine Classical.byContradiction fun hn => ?_
  obtain ⟨n, h1, h2⟩ := h.bolBit i xs hi ⟨x, hx, hn⟩
  unfold stateBol hasBit at hb
  rw [h1] at hb
  simp [h2] at hb

/-- One character of a table of any width. -/
theorem Auto.nextOk {d : Dfa} {size n : Nat} {info : Nat → NodeData} {M At : Nat → List Sym → Prop}
    (A : Auto d size n info M At) {tr : Traits} {c : Nat} (hc : c < charsOf tr) :
    NextOk (bytesOf tr) d n M At (fun c => Wide.encode tr (.ch c)) c := by
  cases hcm : tr.compressed with
  | false =>
    have e1 : bytesOf tr = 1 := by simp [bytesOf, hcm]
    have e2 : (fun c => Wide.encode tr (.ch c)) = fun c => [Sym.ch c] := by funext c; simp [Wide.encode, hcm]
    have e3 : charsOf tr = 256 := by simp [charsOf, hcm]
    rw [e1, e2]
    exact A.nextOk1 c (by omega)
  | true =>
    have e2 : (fun c => Wide.encode tr (.ch c)) = fun c => (charBytes (bytesOf tr) c).map .ch := by
      funext c; simp [Wide.encode, hcm]
    rw [e2]
    exact A.nextOkN (bytesOf tr) (by simp only [bytesOf, hcm, if_true]; split <;> omega) c

/-- A machine built by the generator implements its rules. -/
theorem build_impl {tr : Traits} (hnpos : 263 ≤ tr.npos) {addr : Nat → Nat} {R : Rules}
    {xss : List (List SRule)} (h : RuleSet tr R xss) {sm : Internals}
    (hb : buildTemp tr addr R = .ok sm) (f : Flags) (inp : List Nat) (hinp : ∀ c ∈ inp, c < charsOf tr) :
    Impl ⟨xss, tr.npos, R.eoi, f, inp⟩ (bytesOf tr) sm := by
  rcases buildTemp_spec tr _ _ addr hnpos R xss h.states h.stateOk with
    hspec | ⟨msg, b1, _⟩
  case inr => rw [b1] at hb; cases hb
  obtain ⟨sm', b1, b2, _, _, _, _, _, b3⟩ := hspec
  rw [b1] at hb
  injection hb with hb
  subst hb
  refine ⟨b2, fun r p hr hp heoi => ?_⟩
  simp only at hr heoi ⊢
  have hxs : xss[r.state]? = some xss[r.state] := List.getElem?_eq_getElem hr
  obtain ⟨d, size, At, c1, c2, _, c3, c4, _⟩ := b3 r.state _ hxs
  have c3 := c3.auto (fun j hj hl => by
    obtain ⟨x, hx, hl⟩ := ruleInfo_lazy.1 hl
    rw [h.greedy' _ (List.getElem_mem hr) x (List.mem_of_getElem? hx)] at hl
    cases hl) (c4 (h.noEol' _ (List.getElem_mem hr)))
  obtain ⟨s, endTok, a1, a2⟩ := built_attempt (h.decodes (List.getElem_mem hr) hinp) (stateBol_of h hxs) c3 f tr.npos
    (bytesOf tr) sm' r p c1 hp heoi (fun k c _ _ hk => c3.nextOk (hinp c (List.mem_of_getElem? hk)))
  refine ⟨s, endTok, a1, ?_⟩
  rcases a2 with ⟨k, j, x, e1, e2, e3, e4, e5, e6, e7, e8, e9⟩ | ⟨e1, e2, ⟨e3, e4⟩ | ⟨j, x, e3, e4, e5, e6, e7, e8, e9, e10, e11⟩⟩
  · exact .inl ⟨x, k, x.1.nextDfa, inp[k - 1]? == some 10, .text _ x k j hxs e1 e2, e3, e4, e5, e6, e7, e8, e9⟩
  · exact .inr ⟨e3, e2, _, hxs, e1, e4⟩
  · refine .inl ⟨x, p, r.state, r.bol, .empty _ x j hxs e3 e1 e4, e2, e5, e6, e7, ?_, fun _ => ⟨e9, e10⟩, ?_⟩
    · rw [e8]; split <;> rfl
    · rw [e11]; split <;> rfl


theorem best_congr {L L' : Option Re → List Sym → Prop} {es : List (Option Re)} {inp : List Nat} {p eoi k j : Nat}
    (h : ∀ e ∈ es, ∀ k, L e (text inp p k) ↔ L' e (text inp p k)) (hb : Best L es inp p eoi k j) :
    Best L' es inp p eoi k j where
  nonempty := hb.nonempty
  inside := hb.inside
  hit := by
    obtain ⟨e, h1, h2⟩ := hb.hit
    exact ⟨e, h1, (h e (List.mem_of_getElem? h1) k).1 h2⟩
  earliest := fun i e h1 h2 h3 => hb.earliest i e h1 h2 ((h e (List.mem_of_getElem? h2) k).2 h3)
  longest := fun k' h1 h2 e h3 h4 => hb.longest k' h1 h2 e h3 ((h e h3 k').2 h4)

theorem noMatch_congr {L L' : Option Re → List Sym → Prop} {es : List (Option Re)} {inp : List Nat} {p eoi : Nat}
    (h : ∀ e ∈ es, ∀ k, L e (text inp p k) ↔ L' e (text inp p k)) (hb : NoMatch L es inp p eoi) :
    NoMatch L' es inp p eoi := fun k h1 h2 e h3 h4 => hb k h1 h2 e h3 ((h e h3 k).2 h4)

theorem text_noBol (inp : List Nat) (p k : Nat) : Sym.bol ∉ text inp p k := by
  intro h
  obtain ⟨c, _, h⟩ := List.mem_map.1 h
  cases h

theorem startsBol_words {r : Re} (h : r.startsBol = true) {w : List Sym} (hw : r.Matches w) :
    ∃ v, w = .bol :: v := by
  induction r generalizing w with
  | bol => exact ⟨[], hw⟩
  | seq l r ihl _ =>
    simp only [Re.startsBol, Bool.and_eq_true] at h
    obtain ⟨u, v, rfl, h1, _⟩ := hw
    obtain ⟨u', rfl⟩ := ihl h.1 h1
    exact ⟨u' ++ v, rfl⟩
  | chars | eol | alt | opt | star | plus | rep => cases h

/-- Rules without `^` match the same at and away from line starts. -/
theorem line_noBol {atLine : Bool} {e : Option Re} (he : NoBol e) (w : List Sym) :
    LineMatch atLine e w ↔ RMatches e w := by
  have hno : ∀ v, ¬ RMatches e (.bol :: v) := by
    intro v hv
    cases e with
    | none => cases hv
    | some r => exact noBol_words he hv (by simp)
  unfold LineMatch
  constructor
  · rintro (⟨_, h⟩ | ⟨_, h⟩)
    · exact absurd h (hno w)
    · exact h
  · intro h
    exact .inr ⟨fun hh => by obtain ⟨v, hv⟩ := hh.2; exact hno v hv, h⟩

/-- Rules `r` and `^r`. -/
theorem line_plain {atLine : Bool} {e : Option Re} (he : PlainOrBol e) {w : List Sym} (hw : Sym.bol ∉ w) :
    LineMatch atLine e w ↔ MatchesAt atLine e w := by
  have key : (∀ v, ¬ RMatches e (.bol :: v)) ∨ ¬ RMatches e w := by
    cases e with
    | none => left; intro v hv; cases hv
    | some r =>
      rcases he with he | he
      · left; intro v hv; exact noBol_words he hv (by simp)
      · right; intro h
        obtain ⟨v, rfl⟩ := startsBol_words he h
        simp at hw
  unfold LineMatch MatchesAt
  rcases key with hno | hno
  · constructor
    · rintro (⟨_, h⟩ | ⟨_, h⟩)
      · exact absurd h (hno w)
      · exact .inl h
    · rintro (h | ⟨_, h⟩)
      · exact .inr ⟨fun hh => by obtain ⟨v, hv⟩ := hh.2; exact hno v hv, h⟩
      · exact absurd h (hno w)
  · constructor
    · rintro (h | ⟨_, h⟩)
      · exact .inr h
      · exact absurd h hno
    · rintro (h | h)
      · exact absurd h hno
      · exact .inl h

section
variable {tr : Traits} (hnpos : 263 ≤ tr.npos) {R : Rules} {xss : List (List SRule)}
  (hR : RuleSet tr R xss) {addr : Nat → Nat} {sm : Internals} (hsm : buildTemp tr addr R = .ok sm)
  (f : Flags) {inp : List Nat} (hinp : ∀ c ∈ inp, c < charsOf tr)
include hnpos hR hsm hinp

theorem lookup_chosen {r : Results} (hp : r.second < r.eoi) (he : r.eoi ≤ inp.length) {xs : List SRule}
    (hxs : xss[r.state]? = some xs) {x : SRule} {k next : Nat} {b : Bool}
    (hch : LexEnv.Chosen ⟨xss, tr.npos, R.eoi, f, inp⟩ { r with first := r.second } r.second x k next b)
    (hskip : x.1.id ≠ tr.npos - 1) (hcont : x.1.id ≠ R.eoi) (hpop : f.recursive = false ∨ x.1.popDfa = false) :
    ∃ r', lookup f tr.npos (bytesOf tr) sm inp r = .ok r' ∧ r'.first = r.second ∧ r'.second = k ∧ r'.id = x.1.id ∧
      r'.userId = x.1.userId ∧ r'.eoi = r.eoi ∧ r'.state = (if f.multiState then next else r.state) ∧
      r'.bol = (if f.bol then b else r.bol) ∧
      r'.stack = if f.recursive = true ∧ x.1.pushDfa ≠ tr.npos then (x.1.pushDfa, x.1.id) :: r.stack else r.stack := by
  have I := build_impl hnpos hR hsm f inp hinp
  unfold lookup lookupFuel
  have hno : ¬ (f.recursive = true ∧ x.1.popDfa = true) := by
    rcases hpop with h | h <;> simp [h]
  have hst : r.state < xss.length := (List.getElem?_eq_some_iff.1 hxs).1
  -- the stack does not matter for one round
  obtain ⟨s, endTok, a1, a2⟩ := I.att { r with first := r.second } r.second hst hp he
  simp only at a1 a2
  rcases a2 with a2 | ⟨c1, c2, xs', c3, c4, c5⟩
  case inr => exact (chosen_none hch c3 c4 c5).elim
  obtain ⟨x', k', next', b', c1, c2, c3, c4, c5, c6, c7, c8⟩ := a2
  obtain ⟨rfl, rfl, rfl, rfl⟩ := chosen_unique hch c1
  rcases popStep_accept (E := ⟨xss, tr.npos, R.eoi, f, inp⟩) (r := { r with first := r.second }) (k := k)
    c4 c6 c7 c8 with ⟨e, d1, _, _⟩ | ⟨r', s', stack, d1, d2, d3, d4, d5, d6⟩
  · unfold LexEnv.accept at d1
    rw [if_neg hno] at d1; cases d1
  · have hacc := d1
    unfold LexEnv.accept at d1
    rw [if_neg hno] at d1
    injection d1 with d1
    have hnc : ¬ LexEnv.continues ⟨xss, tr.npos, R.eoi, f, inp⟩ x.1 r' := by
      rintro (h | ⟨h1, h2, _⟩)
      · exact hcont h
      · exact hno ⟨h1, h2⟩
    refine ⟨{ r' with id := x.1.id, userId := x.1.userId }, ?_, ?_⟩
    · rw [nextLoop, if_neg (by simp only; omega), a1]
      simp only [bind, Except.bind]
      rw [if_pos c3]
      simp only at d2
      rw [d2]
      simp only
      rw [d4, if_neg hskip, I.eoi]
      simp only at d6
      rw [if_neg (fun h => hnc (d6.1 h)), d5, c5, c2, ← d3]
    · rw [← d1]
      exact ⟨rfl, rfl, rfl, rfl, rfl, rfl, rfl, rfl⟩


/-- One round from a result object. -/
theorem lookup_cases {r : Results} (hp : r.second < r.eoi) (he : r.eoi ≤ inp.length) {xs : List SRule}
    (hxs : xss[r.state]? = some xs) :
    (∃ x k next b, LexEnv.Chosen ⟨xss, tr.npos, R.eoi, f, inp⟩ { r with first := r.second } r.second x k next b) ∨
    (NoMatch (LineMatch (f.bol && r.bol)) (xs.map (·.2)) inp r.second r.eoi ∧ NoEmpty (xs.map (·.2)) ∧
      ∃ c, inp[r.second]? = some c ∧ lookup f tr.npos (bytesOf tr) sm inp r = .ok { r with
        first := r.second, second := if f.advance then r.second + 1 else r.second,
        bol := c == 10, id := tr.npos, userId := tr.npos }) := by
  have I := build_impl hnpos hR hsm f inp hinp
  have hst : r.state < xss.length := (List.getElem?_eq_some_iff.1 hxs).1
  obtain ⟨s, endTok, a1, a2⟩ := I.att { r with first := r.second } r.second hst hp he
  rcases a2 with ⟨x', k', next', b', c1, _⟩ | ⟨c1, c2, xs', c3, c4, c5⟩
  · exact .inl ⟨_, _, _, _, c1⟩
  · right
    rw [show xss[r.state]? = some xs' from c3] at hxs
    cases hxs
    have hlt : r.second < inp.length := by omega
    refine ⟨c4, c5, inp[r.second], List.getElem?_eq_getElem hlt, ?_⟩
    unfold lookup lookupFuel
    simp only at a1
    rw [nextLoop, if_neg (by simp only; omega), a1]
    simp only [bind, Except.bind]
    rw [if_neg (by rw [c1]; decide), c2]
    unfold charAt
    rw [if_pos (by exact hp), List.getElem?_eq_getElem hlt]

end

theorem lex_not_fuel {E : LexEnv} {r : Results} {p : Nat} {o : M Results} (h : E.Lex r p o) :
    o ≠ .error .fuel := by
  induction h with
  | eoi | none | token => simp
  | throw r p x k next b e hp h1 h2 =>
    unfold LexEnv.accept at h2
    split at h2
    · split at h2
      · injection h2 with h2
        subst h2
        simp
      · cases h2
    · cases h2
  | skip _ _ _ _ _ _ _ _ _ _ _ _ _ ih => exact ih
  | again _ _ _ _ _ _ _ _ _ _ _ _ _ _ ih => exact ih

theorem lex_none {E : LexEnv} (S : StatesExist E) (he : E.eoi ≠ E.npos)
    (hid : ∀ xs ∈ E.rules, ∀ x ∈ xs, x.1.id ≠ E.npos) {r : Results} {p : Nat} {o : M Results}
    (h : E.Lex r p o) {r' : Results} : ROk E r → p ≤ r.eoi → o = .ok r' → r'.id = E.npos →
    ∃ xs b, E.rules[r'.state]? = some xs ∧ p ≤ r'.first ∧ r'.first < r'.eoi ∧ r'.eoi = r.eoi ∧
      r'.second = (if E.flags.advance then r'.first + 1 else r'.first) ∧
      NoMatch (LineMatch b) (xs.map (·.2)) E.inp r'.first r'.eoi ∧ NoEmpty (xs.map (·.2)) := by
  induction h with
  | eoi r =>
    intro _ _ h hn
    injection h with h
    subst h
    exact absurd hn he
  | none r p xs c hp h1 h2 h3 h4 =>
    intro _ _ h hn
    injection h with h
    subst h
    exact ⟨xs, _, h1, Nat.le_refl _, hp, rfl, rfl, h2, h3⟩
  | throw => intro _ _ h; cases h
  | skip r r'' p x k next b o hp h1 h2 h3 h4 ih =>
    intro hr hle h hn
    obtain ⟨d1, d2, d3, d4⟩ := accept_ok S h1 hr h2
    have hk := chosen_le h1 hle
    obtain ⟨xs, b, g1, g2, g3, g4, g5⟩ := ih ⟨d1.state, d1.stack, d1.eoi⟩ (by simp only [d2]; exact hk.2) h hn
    exact ⟨xs, b, g1, by omega, g3, by rw [g4]; exact d2, g5⟩
  | again r r'' p x k next b o hp h1 h2 h3 h4 h5 ih =>
    intro hr hle h hn
    obtain ⟨d1, d2, d3, d4⟩ := accept_ok S h1 hr h2
    have hk := chosen_le h1 hle
    obtain ⟨xs, b, g1, g2, g3, g4, g5⟩ := ih d1 (by rw [d2]; exact hk.2) h hn
    exact ⟨xs, b, g1, by omega, g3, by rw [g4]; exact d2, g5⟩
  | token r r'' p x k next b hp h1 h2 h3 h4 =>
    intro _ _ h hn
    injection h with h
    subst h
    obtain ⟨xs, hxs, hx⟩ := chosen_mem h1
    exact absurd hn (hid xs hxs x hx)

/-- Without rules matching the empty text no empty token is returned. -/
theorem lex_nonempty {E : LexEnv} (hne : ∀ xs ∈ E.rules, NoEmpty (xs.map (·.2))) {r : Results} {p : Nat}
    {o : M Results} (h : E.Lex r p o) {r' : Results} : r.first ≤ p → o = .ok r' → r'.id ≠ E.eoi →
    (r'.id ≠ E.npos ∨ E.flags.advance = true) → r'.first < r'.second := by
  have lt : ∀ {r : Results} {p : Nat} {x : SRule} {k next : Nat} {b : Bool},
      E.Chosen r p x k next b → p < k := by
    intro r p x k next b h
    cases h with
    | text xs x k j h1 h2 h3 => exact h3.nonempty
    | empty xs x j h1 h2 h3 h4 =>
      obtain ⟨e, he, hm⟩ := h4.hit
      exact absurd hm (hne xs (List.mem_of_getElem? h1) e (List.mem_of_getElem? he))
  have acc : ∀ {r r' : Results} {x : Rule} {k next : Nat} {b : Bool}, E.accept x r k next b = .ok r' →
      r'.first = r.first ∧ r'.second = k := by
    intro r r' x k next b h
    unfold LexEnv.accept at h
    split at h
    · split at h
      · cases h
      · injection h with h; subst h; exact ⟨rfl, rfl⟩
    · injection h with h; subst h; exact ⟨rfl, rfl⟩
  induction h with
  | eoi r => intro _ h hn; injection h with h; subst h; exact absurd rfl hn
  | none r p xs c hp h1 h2 h3 h4 =>
    intro _ h _ hn
    injection h with h
    subst h
    rcases hn with hn | hn
    · exact absurd rfl hn
    · simp only [hn, if_true]; omega
  | throw => intro _ h; cases h
  | skip r r'' p x k next b o hp h1 h2 h3 h4 ih =>
    intro _ h hn hn'
    exact ih (Nat.le_refl _) h hn hn'
  | again r r'' p x k next b o hp h1 h2 h3 h4 h5 ih =>
    intro hf h hn hn'
    have := lt h1
    exact ih (by rw [(acc h2).1]; omega) h hn hn'
  | token r r'' p x k next b hp h1 h2 h3 h4 =>
    intro hf h hn hn'
    injection h with h
    subst h
    have := lt h1
    simp only [acc h2]
    omega

end Lexertl
