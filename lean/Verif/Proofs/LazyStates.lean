import Verif.Proofs.LazyProgram
import Verif.Proofs.StateProgram
import Verif.Proofs.Lex
import Verif.Spec.LazyStates

/-
Programs with several lexer states and non-greedy operators.
-/
namespace Lexertl.LazyStates
open Spec Reading InStates Lazy

/-- All that a rule says apart from its text. -/
def Same (x y : Rule) : Prop :=
  x.id = y.id ∧ x.userId = y.userId ∧ x.nextDfa = y.nextDfa ∧ x.pushDfa = y.pushDfa ∧ x.popDfa = y.popDfa

/-- The rules `xs` are the alternatives of the rules `es`. -/
inductive Split : List SRule → List SRule → Prop
  | nil : Split [] []
  | snoc (xs es ys e s rs) : Split xs es → e.2 = some s → Alternatives s rs → ys.map (·.2) = rs.map some →
      (∀ y ∈ ys, Same y.1 e.1) → Split (xs ++ ys) (es ++ [e])

theorem split_mem {xs es : List SRule} (h : Split xs es) : ∀ x ∈ xs, ∃ e ∈ es, Same x.1 e.1 ∧ ∃ s rs q,
    e.2 = some s ∧ Alternatives s rs ∧ q ∈ rs ∧ x.2 = some q := by
  induction h with
  | nil => simp
  | snoc xs es ys e s rs _ he ha hs hi ih =>
    intro x hx
    rcases List.mem_append.1 hx with hx | hx
    · obtain ⟨e', h1, h2⟩ := ih x hx
      exact ⟨e', by simp [h1], h2⟩
    · have : x.2 ∈ rs.map some := hs ▸ List.mem_map_of_mem hx
      obtain ⟨q, hq, heq⟩ := List.mem_map.1 this
      exact ⟨e, by simp, hi x hx, s, rs, q, he, ha, hq, heq.symm⟩

theorem split_cover {xs es : List SRule} (h : Split xs es) {w : List Sym} : ∀ e ∈ es, RMatches e.2 w → ∃ x ∈ xs, RMatches x.2 w := by
  induction h with
  | nil => simp
  | snoc xs es ys e s rs _ he ha hs hi ih =>
    intro e' he' hm
    rcases List.mem_append.1 he' with he' | he'
    · obtain ⟨x, h1, h2⟩ := ih e' he' hm
      exact ⟨x, by simp [h1], h2⟩
    · simp at he'
      subst he'
      rw [he] at hm
      obtain ⟨q, hq, hqm⟩ := (alts_matches ha w).1 hm
      have : some q ∈ ys.map (·.2) := hs ▸ List.mem_map_of_mem hq
      obtain ⟨y, hy, heq⟩ := List.mem_map.1 this
      exact ⟨y, by simp [hy], by rw [heq]; exact hqm⟩

/-- The first rule to match belongs to the first expression to match. -/
theorem split_first {xs es : List SRule} (h : Split xs es) {w : List Sym} : ∀ {j : Nat} {x : SRule}, xs[j]? = some x →
    First RMatches (xs.map (·.2)) w j →
    ∃ (i : Nat) (e : SRule), es[i]? = some e ∧ Same x.1 e.1 ∧ First RMatches (es.map (·.2)) w i ∧ (AllGreedy e.2 → AllGreedy x.2) := by
  induction h with
  | nil => simp
  | snoc xs es ys e s rs hg he ha hs hi ih =>
    intro j x hx hf
    have hm : RMatches x.2 w := by
      obtain ⟨e', k1, k2⟩ := hf.hit
      rw [List.getElem?_map, hx] at k1
      simp at k1
      exact k1 ▸ k2
    by_cases hj : j < xs.length
    · rw [List.getElem?_append_left hj] at hx
      obtain ⟨i, e', h1, h2, h3, h4⟩ := ih hx ⟨⟨x.2, by simp [hx], hm⟩, fun i y hi hy => hf.earliest i y hi (by
        rw [List.map_append, List.getElem?_append_left (by simp; omega)]; exact hy)⟩
      have hlt := (List.getElem?_eq_some_iff.1 h1).1
      refine ⟨i, e', by rw [List.getElem?_append_left hlt]; exact h1, h2, ⟨?_, ?_⟩, h4⟩
      · obtain ⟨z, k1, k2⟩ := h3.hit
        exact ⟨z, by rw [List.map_append, List.getElem?_append_left (by simpa using hlt)]; exact k1, k2⟩
      · intro i' e'' hi' he''
        rw [List.map_append, List.getElem?_append_left (by simp; omega)] at he''
        exact h3.earliest i' e'' hi' he''
    · rw [List.getElem?_append_right (by omega)] at hx
      have hy := List.mem_of_getElem? hx
      have : x.2 ∈ rs.map some := hs ▸ List.mem_map_of_mem hy
      obtain ⟨q, hq, heq⟩ := List.mem_map.1 this
      refine ⟨es.length, e, by simp, hi x hy, ⟨⟨e.2, by simp, ?_⟩, ?_⟩, ?_⟩
      · rw [he]
        exact (alts_matches ha w).2 ⟨q, hq, by rw [← heq] at hm; exact hm⟩
      · intro i' e' hi' he' hm'
        rw [List.map_append, List.getElem?_append_left (by simpa using hi')] at he'
        obtain ⟨z, hz, rfl⟩ := List.mem_map.1 (List.mem_of_getElem? he')
        obtain ⟨y, hy, hym⟩ := split_cover hg z hz hm'
        obtain ⟨k, hk⟩ := List.mem_iff_getElem?.1 hy
        have hlt := (List.getElem?_eq_some_iff.1 hk).1
        exact hf.earliest k y.2 (by omega) (by rw [List.map_append, List.getElem?_append_left (by simpa using hlt)]; simp [hk]) hym
      · intro hgr
        rw [he] at hgr
        rw [← heq]
        exact alts_greedy ha hgr q hq

theorem split_slots (tr : Traits) {xs es : List SRule} (h : Split xs es) :
    (xs.map fun x => setsOf tr x.2).sum = (es.map fun e => setsOf tr e.2).sum := by
  induction h with
  | nil => rfl
  | snoc xs es ys e s rs _ he ha hs hi ih =>
    have : (ys.map fun x => setsOf tr x.2) = rs.map fun q => q.slots tr := by
      have := congrArg (List.map (setsOf tr)) hs
      simpa [List.map_map, Function.comp_def, setsOf] using this
    have hs : setsOf tr (some s) = s.slots tr := rfl
    simp [ih, this, alts_slots tr ha, he, hs]

/-! ### Lexer states -/

/-- The same for each lexer state. -/
structure Splits (xss ess : List (List SRule)) : Prop where
  len : xss.length = ess.length
  each : ∀ (i : Nat) xs es, xss[i]? = some xs → ess[i]? = some es → Split xs es

theorem Splits.get {xss ess : List (List SRule)} (h : Splits xss ess) {i : Nat} {xs : List SRule} (hi : xss[i]? = some xs) :
    ∃ es, ess[i]? = some es ∧ Split xs es := by
  have hlt : i < ess.length := by rw [← h.len]; exact (List.getElem?_eq_some_iff.1 hi).1
  exact ⟨ess[i], List.getElem?_eq_getElem hlt, h.each i xs _ hi (List.getElem?_eq_getElem hlt)⟩

theorem Splits.mem {xss ess : List (List SRule)} (h : Splits xss ess) {xs : List SRule} (hi : xs ∈ xss) : ∃ es ∈ ess, Split xs es := by
  obtain ⟨i, hi⟩ := List.getElem?_of_mem hi
  obtain ⟨es, h1, h2⟩ := h.get hi
  exact ⟨es, List.mem_of_getElem? h1, h2⟩

theorem Splits.add {xss ess : List (List SRule)} (h : Splits xss ess) {c : Nat} {ys : List SRule} {e : SRule} {s : Re} {rs : List Re}
    (he : e.2 = some s) (ha : Alternatives s rs) (hs : ys.map (·.2) = rs.map some) (hy : ∀ y ∈ ys, Same y.1 e.1) :
    Splits (xss.modify c (· ++ ys)) (ess.modify c (· ++ [e])) := by
  refine ⟨by simp [h.len], fun i xs es hx he' => ?_⟩
  rw [modify_getElem?] at hx he'
  split at hx
  · rename_i hc
    rw [if_pos hc] at he'
    obtain ⟨xs', k1, rfl⟩ := Option.map_eq_some_iff.1 hx
    obtain ⟨es', k2, rfl⟩ := Option.map_eq_some_iff.1 he'
    exact .snoc _ _ _ _ s rs (h.each i _ _ k1 k2) he ha hs hy
  · rename_i hc
    rw [if_neg hc] at he'
    exact h.each i _ _ hx he'

/-- What is known about the rules of an object. -/
structure Held (E : TokEnv) (o : RulesObj) (xss : List (List SRule)) : Prop where
  states : o.states = xss.map (·.map (·.1))
  feats : o.features.length = xss.length
  each : ∀ xs ∈ xss, ∀ x ∈ xs, Denotes x.1.regex x.2 ∧ ∃ r, x.2 = some r ∧ r.AllChars (SetOk E.max)

theorem mem_modify {α : Type} {l : List (List α)} {c : Nat} {as : List α} {xs : List α} (h : xs ∈ l.modify c (· ++ as)) :
    ∀ x ∈ xs, (∃ ys ∈ l, x ∈ ys) ∨ x ∈ as := by
  intro x hx
  obtain ⟨i, hi⟩ := List.getElem?_of_mem h
  rw [modify_getElem?] at hi
  split at hi
  · obtain ⟨ys, hy, rfl⟩ := Option.map_eq_some_iff.1 hi
    rcases List.mem_append.1 hx with hx | hx
    · exact .inl ⟨ys, List.mem_of_getElem? hy, hx⟩
    · exact .inr hx
  · exact .inl ⟨xs, List.mem_of_getElem? hi, hx⟩

theorem map_modify {α β : Type} (l : List (List α)) (c : Nat) (as : List α) (f : α → β) :
    (l.modify c (· ++ as)).map (·.map f) = (l.map (·.map f)).modify c (· ++ as.map f) := by
  apply List.ext_getElem?
  intro i
  rw [List.getElem?_map, modify_getElem?, modify_getElem?, List.getElem?_map]
  split
  · cases l[i]? <;> simp
  · rfl

theorem Held.add {E : TokEnv} {o : RulesObj} {xss : List (List SRule)} (h : Held E o xss) {c n : Nat} {ys : List SRule}
    (hy : ∀ y ∈ ys, Denotes y.1.regex y.2 ∧ ∃ r, y.2 = some r ∧ r.AllChars (SetOk E.max)) :
    Held E (o.extend c (ys.map (·.1)) n) (xss.modify c (· ++ ys)) := by
  refine ⟨?_, ?_, ?_⟩
  · rw [map_modify]
    simp only [RulesObj.extend, h.states]
  · simp [RulesObj.extend, h.feats]
  · intro xs hxs y hy'
    rcases mem_modify hxs y hy' with ⟨ys, h1, h2⟩ | hm
    · exact h.each ys h1 y h2
    · exact hy y hm

/-! ### Adding a rule -/

/-- The rules of the pieces of a text. -/
def rulesOf (ps : List (List Tok × Re)) (id uid next push : Nat) (pop : Bool) : List SRule :=
  ps.map fun p => (⟨wrap p.1, id, uid, next, push, pop⟩, some p.2)

theorem feats_ok (tr : Traits) {ps : List (List Tok × Re)} (h0 : ps ≠ []) (h2 : ∀ p ∈ ps, Derives .alt p.1 p.2) (id : Nat) (rec : Bool) :
    ∃ last n, (ps.map fun p => wrap p.1).getLast? = some last ∧ RulesObj.ruleFeatures tr last last id rec = .ok n := by
  obtain ⟨q, hq⟩ : ∃ q, ps.getLast? = some q := ⟨_, List.getLast?_eq_some_getLast h0⟩
  have hqm := List.mem_of_getLast? hq
  obtain ⟨t, ts, ht⟩ := List.exists_cons_of_ne_nil (derives_nonempty (h2 q hqm))
  obtain ⟨vs, z, hz, _⟩ := derives_last (h2 q hqm)
  have e2 : (wrap q.1)[(wrap q.1).length - 2]? = some z := by
    unfold wrap
    rw [hz]
    have : (beginTok :: (vs ++ [z]) ++ [endTok]).length - 2 = (beginTok :: vs).length := by simp
    rw [this, show beginTok :: (vs ++ [z]) ++ [endTok] = (beginTok :: vs) ++ (z :: [endTok]) by simp, List.getElem?_append_right (Nat.le_refl _)]
    simp
  have e1 : (wrap q.1)[1]? = some t := by simp [wrap, ht]
  refine ⟨wrap q.1, ((if t.type = .bol then 1 else 0) ||| (if z.type = .eol then 2 else 0) |||
      (if id = tr.npos - 1 then 4 else if id = 0 then 8 else 0) ||| (if rec then 32 else 0)), by rw [List.getLast?_map, hq]; rfl, ?_⟩
  unfold RulesObj.ruleFeatures
  rw [e1, e2]

theorem rulesOf_ok {E : TokEnv} {ps : List (List Tok × Re)} {s : Re} (h2 : ∀ p ∈ ps, Derives .alt p.1 p.2)
    (h3 : Alternatives s (ps.map (·.2))) (h4 : s.AllChars (SetOk E.max)) (id uid next push : Nat) (pop : Bool) :
    ∀ y ∈ rulesOf ps id uid next push pop, Denotes y.1.regex y.2 ∧ ∃ r, y.2 = some r ∧ r.AllChars (SetOk E.max) := by
  intro y hy
  obtain ⟨p, hp, rfl⟩ := List.mem_map.1 hy
  exact ⟨.re _ _ _ _ rfl rfl (h2 p hp), p.2, rfl, alts_chars h3 h4 _ (List.mem_map_of_mem hp)⟩

theorem splits_rule {xss ess : List (List SRule)} (h : Splits xss ess) {ps : List (List Tok × Re)} {s : Re}
    (h3 : Alternatives s (ps.map (·.2))) (c id uid next push : Nat) (pop : Bool) :
    Splits (xss.modify c (· ++ rulesOf ps id uid next push pop)) (ess.modify c (· ++ [ruleOf s id uid next push pop])) := by
  refine h.add (s := s) (rs := ps.map (·.2)) rfl h3 (by simp [rulesOf, Function.comp_def]) ?_
  intro y hy
  obtain ⟨p, _, rfl⟩ := List.mem_map.1 hy
  exact ⟨rfl, rfl, rfl, rfl, rfl⟩

theorem loop_adds {E : TokEnv} {tr : Traits} {t : RulesObj.Target} {ids : Nat × Nat} {id uid : Nat}
    {regex : List Nat} {ps : List (List Tok × Re)} {s : Re} {g : Nat → Nat × Nat × Bool} (h0 : ps ≠ [])
    (h2 : ∀ p ∈ ps, Derives .alt p.1 p.2) (h3 : Alternatives s (ps.map (·.2))) (h4 : s.AllChars (SetOk E.max))
    (hmk : ∀ i id uid ts, RulesObj.mkRule tr t ids i id uid ts = ⟨ts, id, uid, (g i).1, (g i).2.1, (g i).2.2⟩) :
    ∀ (is : List Nat) (o : RulesObj) (xss ess : List (List SRule)), tokenise E o.flags o.macros false regex = .ok (ps.map fun p => wrap p.1) →
      (∀ i ∈ is, i < xss.length) → Held E o xss → Splits xss ess →
      ∃ o' yss, RulesObj.pushLoop E tr regex t ids id uid is o = (o', .ok ()) ∧ Held E o' yss ∧
        Splits yss (addRules (fun i => ruleOf s id uid (g i).1 (g i).2.1 (g i).2.2) is ess) ∧
        o'.flags = o.flags ∧ o'.macros = o.macros ∧ SameNames o o'
  | [], o, xss, ess, _, _, h, hs => ⟨o, xss, rfl, h, hs, rfl, rfl, SameNames.refl o⟩
  | i :: is, o, xss, ess, ht, hl, h, hs => by
    obtain ⟨last, n, hl1, hn⟩ := feats_ok tr h0 h2 id t.recursive
    have hi : i < o.states.length := by rw [h.states]; simpa using hl i (by simp)
    have h' := h.add (c := i) (n := n) (rulesOf_ok h2 h3 h4 id uid (g i).1 (g i).2.1 (g i).2.2)
    obtain ⟨o', yss, k1, k2, k3, k4, k5, k6⟩ := loop_adds (id := id) (uid := uid) h0 h2 h3 h4 hmk is _ _ _
      (show tokenise E (o.extend i _ n).flags (o.extend i _ n).macros false regex = .ok (ps.map fun p => wrap p.1) from ht)
      (by intro j hj; rw [List.length_modify]; exact hl j (by simp [hj])) h'
      (splits_rule hs h3 i id uid (g i).1 (g i).2.1 (g i).2.2)
    refine ⟨o', yss, ?_, k2, k3, k4, k5, (extend_same o i _ n).trans k6⟩
    unfold RulesObj.pushLoop
    rw [ht]
    simp only [hl1, hn]
    rw [if_pos hi]
    rw [show (ps.map fun p => wrap p.1).map (RulesObj.mkRule tr t ids i id uid) = (rulesOf ps id uid (g i).1 (g i).2.1 (g i).2.2).map (·.1) by
      simp only [rulesOf, List.map_map, Function.comp_def, hmk]]
    exact k1

/-! ### Programs -/

/-- What is known about the object a program leaves. -/
structure Ran (E : TokEnv) (tr : Traits) (f : ReFlags) (names : List (List Nat)) (M : List (List Nat × Re)) (ess : List (List SRule))
    (o : RulesObj) (xss : List (List SRule)) : Prop where
  flags : o.flags = f
  macros : MacrosMean E o.macros M
  known : ∀ name, find name M = none → find name o.macros = none
  named : Named tr o names
  held : Held E o xss
  splits : Splits xss ess

theorem program_run {E : TokEnv} (hE : TokEnvOk E) (hC : CharsOk E) {tr : Traits} (hnp : 1 ≤ tr.npos) {f : ReFlags} {cs : List Call}
    {names : List (List Nat)} {M : List (List Nat × Re)} {ess : List (List SRule)} (h : LazyStateProgram E tr.npos f cs names M ess) :
    ∃ o xss, AllOk E tr (RulesObj.new tr f) cs o ∧ Ran E tr f names M ess o xss := by
  induction h with
  | nil =>
    obtain ⟨h1, h2, h3, h4⟩ := new_statesOk tr f
    have hN : (RulesObj.new tr f).flags = f ∧ (RulesObj.new tr f).stateNames = [chars "INITIAL"] := by
      unfold RulesObj.new RulesObj.pushState
      rw [if_neg (by simp [initial_valid])]
      simp only [find, ne_eq, not_true, if_false]
      split <;> exact ⟨rfl, rfl⟩
    refine ⟨_, [[]], .nil _, hN.1, ?_, ?_, ⟨h1, hN.2, by simpa using hnp⟩, ⟨by simp [h2], by simp [h4], by simp⟩, rfl, ?_⟩
    · intro name r h
      simp [find] at h
    · intro name _
      rw [h3]
      rfl
    · intro i xs es hi he
      have h1 := List.mem_of_getElem? hi
      have h2 := List.mem_of_getElem? he
      simp at h1 h2
      subst h1; subst h2
      exact .nil
  | state cs names M ess name _ hv hn hlt ih =>
    obtain ⟨o, xss, h1, h2⟩ := ih
    have hst : o.states.length = names.length := by rw [h2.named.ok.states, h2.named.names]
    have hp := pushState_new h2.named.ok hv (h2.named.names ▸ hn)
    rw [if_neg (by omega)] at hp
    have ok' := run_statesOk (E := E) h2.named.ok (.pushState name)
    have run : Call.run E tr (.pushState name) o = (o.addState tr name, .ok ()) := by
      simp only [Call.run, hp, outcome]
    rw [run] at ok'
    refine ⟨_, xss ++ [[]], .snoc _ _ _ _ _ h1 run, h2.flags, h2.macros, h2.known, ⟨ok', ?_, by simp; omega⟩, ⟨?_, ?_, ?_⟩, by simp [h2.splits.len], ?_⟩
    · have := h2.named.names
      simp only [RulesObj.stateNames, RulesObj.addState] at this ⊢
      rw [← this]
      simp
    · simp [RulesObj.addState, h2.held.states]
    · simp [RulesObj.addState, h2.held.feats]
    · intro xs hxs x hx
      rcases List.mem_append.1 hxs with hxs | hxs
      · exact h2.held.each xs hxs x hx
      · simp at hxs
        subst hxs
        simp at hx
    · intro i xs es hi he
      by_cases hlt : i < xss.length
      · rw [List.getElem?_append_left hlt] at hi
        rw [List.getElem?_append_left (h2.splits.len ▸ hlt)] at he
        exact h2.splits.each i xs es hi he
      · rw [List.getElem?_append_right (by omega)] at hi
        rw [List.getElem?_append_right (by have := h2.splits.len; omega)] at he
        have h1 := List.mem_of_getElem? hi
        have h2 := List.mem_of_getElem? he
        simp at h1 h2
        subst h1; subst h2
        exact .nil
  | mac cs names M ess name w r _ hv hn hw hm hb he ih =>
    obtain ⟨o, xss, h1, h2⟩ := ih
    obtain ⟨m, g1, g2, g3⟩ := insertMacro_means hE hC h2.macros hv (h2.known name hn) hw (h2.flags ▸ hm) hb he
    have ok' := run_statesOk (E := E) h2.named.ok (.insertMacro name w)
    rw [show Call.run E tr (.insertMacro name w) o = _ from g1] at ok'
    refine ⟨_, xss, .snoc _ _ _ _ _ h1 g1, h2.flags, g3, ?_, ⟨ok', h2.named.names, h2.named.small⟩, ⟨h2.held.states, h2.held.feats, h2.held.each⟩, h2.splits⟩
    intro k hk
    unfold find at hk
    split at hk
    · cases hk
    · rename_i hne
      rw [find_append, h2.known k hk, if_neg hne]
      rfl
  | rule cs names M ess w r s id uid _ hw hm hg hid hid' ih =>
    obtain ⟨o, xss, h1, h2⟩ := ih
    have hne : o.states ≠ [] := by
      have := h2.named.ok.states
      intro h0
      rw [h0] at this
      simp [RulesObj.stateNames] at this
    obtain ⟨ps, n, g1, g2, g3, g4, _⟩ := pushInitial_lazy hE hC h2.macros (uid := uid) hid hid' hne hw (h2.flags ▸ hm) hg
    have ok' := run_statesOk (E := E) h2.named.ok (.push w id uid)
    rw [show Call.run E tr (.push w id uid) o = _ from g1] at ok'
    let ys : List SRule := ps.map fun p => (⟨p.1, id, uid, 0, tr.npos, false⟩, some p.2)
    have hmap : (ps.map fun p => (⟨p.1, id, uid, 0, tr.npos, false⟩ : Rule)) = ys.map (·.1) := by simp [ys, Function.comp_def]
    rw [hmap] at g1 ok'
    refine ⟨_, xss.modify 0 (· ++ ys), .snoc _ _ _ _ _ h1 g1, h2.flags, h2.macros, h2.known,
      ⟨ok', h2.named.names, h2.named.small⟩, h2.held.add ?_, ?_⟩
    · intro y hy
      obtain ⟨p, hp, rfl⟩ := List.mem_map.1 hy
      exact ⟨g2 p hp, p.2, rfl, alts_chars g3 g4 _ (List.mem_map_of_mem hp)⟩
    · refine h2.splits.add (c := 0) (e := ruleOf s id uid 0 tr.npos false) (s := s) (rs := ps.map (·.2)) rfl g3 (by simp [ys, Function.comp_def]) ?_
      intro y hy
      obtain ⟨p, _, rfl⟩ := List.mem_map.1 hy
      exact ⟨rfl, rfl, rfl, rfl, rfl⟩
  | ruleIn cs names M ess curr is w r s id new g uid _ hpl hw hm hg hid hid' hgo ih =>
    obtain ⟨o, xss, h1, h2⟩ := ih
    obtain ⟨ps, t1, t0, t2, t3, t4, _⟩ := tokenise_lazy hE hC h2.macros (h2.flags.symm ▸ hm) hw hg
    obtain ⟨c1, c2⟩ := h2.named.places hpl
    obtain ⟨t, ids, l1, l2, l3⟩ := h2.named.leads hgo
    have hlen : xss.length = names.length := by
      have := h2.named.ok.states
      rw [h2.named.names, h2.held.states] at this
      simpa using this
    obtain ⟨o', yss, k1, k2, k3, k4, k5, k6⟩ := loop_adds (tr := tr) (id := id.getD 0) (uid := uid) t0 t2 t3 t4 l3 is o xss ess t1
      (fun i hi => hlen ▸ c2 i hi) h2.held h2.splits
    have hplan : o.pushPlan tr curr id new = .ok (t, ids, is) := by
      unfold RulesObj.pushPlan
      cases id with
      | none =>
        simp only [l1, c1]
        show (o.targetIds tr t >>= fun ids => Except.ok (t, ids, is)) = _
        rw [l2]
        rfl
      | some i =>
        have hc : checkId tr i = .ok () := by
          unfold checkId
          rw [if_neg (fun h => hid (by rw [h])), if_neg (fun h => hid' (by rw [h]))]
        simp only [hc, l1, c1]
        show (o.targetIds tr t >>= fun ids => Except.ok (t, ids, is)) = _
        rw [l2]
        rfl
    have hrun : Call.run E tr (.pushIn curr w id new uid) o = (o', .ok ()) := by
      simp only [Call.run, RulesObj.pushNamed, hplan]
      exact k1
    have ok' := run_statesOk (E := E) h2.named.ok (.pushIn curr w id new uid)
    rw [hrun] at ok'
    refine ⟨o', yss, .snoc _ _ _ _ _ h1 hrun, k4.trans h2.flags, k5 ▸ h2.macros, k5 ▸ h2.known, ⟨ok', ?_, h2.named.small⟩, k2, k3⟩
    have := k6.names
    rw [← h2.named.names]
    simp [RulesObj.stateNames, this]

/-- The numbers in the rules of a program are those of lexer states. -/
theorem program_targets {E : TokEnv} {npos : Nat} (hnp : 1 ≤ npos) {f : ReFlags} {cs : List Call} {names : List (List Nat)} {M : List (List Nat × Re)}
    {ess : List (List SRule)} (h : LazyStateProgram E npos f cs names M ess) : ess.length = names.length ∧ 0 < names.length ∧
    ∀ xs ∈ ess, ∀ x ∈ xs, (x.1.popDfa = true ∨ x.1.nextDfa < names.length) ∧ (x.1.pushDfa = npos ∨ x.1.pushDfa < names.length) ∧ x.1.id ≠ npos := by
  have add : ∀ {n : Nat} {g : Nat → SRule}, (∀ i, i < n → ((g i).1.popDfa = true ∨ (g i).1.nextDfa < n) ∧ ((g i).1.pushDfa = npos ∨ (g i).1.pushDfa < n) ∧ (g i).1.id ≠ npos) →
      ∀ (is : List Nat) (xss : List (List SRule)), (∀ i ∈ is, i < n) → xss.length = n →
      (∀ xs ∈ xss, ∀ x ∈ xs, (x.1.popDfa = true ∨ x.1.nextDfa < n) ∧ (x.1.pushDfa = npos ∨ x.1.pushDfa < n) ∧ x.1.id ≠ npos) →
      (addRules g is xss).length = n ∧
      ∀ xs ∈ addRules g is xss, ∀ x ∈ xs, (x.1.popDfa = true ∨ x.1.nextDfa < n) ∧ (x.1.pushDfa = npos ∨ x.1.pushDfa < n) ∧ x.1.id ≠ npos := by
    intro n g hg is
    induction is with
    | nil => exact fun xss _ h1 h2 => ⟨h1, h2⟩
    | cons i is ih =>
      intro xss hi h1 h2
      refine ih _ (fun j hj => hi j (by simp [hj])) (by rw [List.length_modify]; exact h1) ?_
      intro xs hxs x hx
      rcases InStates.mem_modify hxs x hx with ⟨ys, h3, h4⟩ | rfl
      · exact h2 ys h3 x h4
      · exact hg i (hi i (by simp))
  induction h with
  | nil => simp
  | state _ _ _ _ _ _ _ _ _ ih =>
    obtain ⟨h1, h2, h3⟩ := ih
    refine ⟨by simp [h1], by simp, ?_⟩
    intro xs hxs x hx
    rcases List.mem_append.1 hxs with hxs | hxs
    · obtain ⟨k1, k2, k3⟩ := h3 xs hxs x hx
      simp only [List.length_append, List.length_cons, List.length_nil]
      exact ⟨k1.imp id (fun h => by omega), k2.imp id (fun h => by omega), k3⟩
    · simp at hxs
      subst hxs
      simp at hx
  | mac _ _ _ _ _ _ _ _ _ _ _ _ _ _ ih => exact ih
  | rule _ _ _ _ _ _ s _ _ _ _ _ _ _ hid ih =>
    obtain ⟨h1, h2, h3⟩ := ih
    obtain ⟨k1, k2⟩ := add (g := fun _ => ruleOf s _ _ 0 npos false) (fun i _ => ⟨.inr h2, .inl rfl, hid⟩) [0] _ (by simpa using h2) h1 h3
    exact ⟨k1, h2, k2⟩
  | ruleIn cs names M ess curr is w r s id new g uid _ hpl _ _ _ _ hid hgo ih =>
    obtain ⟨h1, h2, h3⟩ := ih
    have hid0 : id.getD 0 ≠ npos := by
      cases id with
      | none => simp; omega
      | some i => exact fun h => hid (by simp at h; rw [h])
    have lt : ∀ {j : Nat} {name : List Nat}, names[j]? = some name → j < names.length := fun h => (List.getElem?_eq_some_iff.1 h).1
    have his : ∀ i ∈ is, i < names.length := by
      cases hpl with
      | all => simp
      | list _ _ hl =>
        clear hgo
        induction hl with
        | one name j hj =>
          intro i hi
          simp at hi; subst hi
          exact lt hj
        | more name j w js hj _ ih =>
          intro i hi
          rcases List.mem_cons.1 hi with rfl | hi
          · exact lt hj
          · exact ih i hi
    obtain ⟨k1, k2⟩ := add (g := fun i => ruleOf s (id.getD 0) uid (g i).1 (g i).2.1 (g i).2.2) (n := names.length) (fun i hi => by
      refine ⟨?_, ?_, hid0⟩
      · cases hgo with
        | stay => exact .inr hi
        | pop => exact .inl rfl
        | goto name j hj => exact .inr (lt hj)
        | push name j hj => exact .inr (lt hj)
        | pushTo name back j k hj hk => exact .inr (lt hj)
      · cases hgo with
        | stay => exact .inl rfl
        | pop => exact .inl rfl
        | goto name j hj => exact .inl rfl
        | push name j hj => exact .inr hi
        | pushTo name back j k hj hk => exact .inr (lt hk)) is ess his h1 h3
    exact ⟨k1, h2, k2⟩

/-! ### What the theorems about lexers assume -/

theorem split_noBol {xs es : List SRule} (h : Split xs es) (hb : ∀ e ∈ es, NoBol e.2) : ∀ x ∈ xs, NoBol x.2 := by
  intro x hx
  obtain ⟨e, he, _, s, rs, q, h1, h2, h3, h4⟩ := split_mem h x hx
  have := hb e he
  rw [h1] at this
  rw [h4]
  exact alts_noBol h2 this q h3

theorem split_noEol {xs es : List SRule} (h : Split xs es) (hb : ∀ e ∈ es, NoEol e.2) : ∀ x ∈ xs, NoEol x.2 := by
  intro x hx
  obtain ⟨e, he, _, s, rs, q, h1, h2, h3, h4⟩ := split_mem h x hx
  have := hb e he
  rw [h1] at this
  rw [h4]
  exact alts_noEol h2 this q h3

theorem program_anyRules {E : TokEnv} {tr : Traits} (hmax : E.max + 1 = charsOf tr) {f : ReFlags} {names : List (List Nat)}
    {M : List (List Nat × Re)} {ess : List (List SRule)} {o : RulesObj} {xss : List (List SRule)} (h : Ran E tr f names M ess o xss)
    (hbol : ∀ xs ∈ ess, ∀ x ∈ xs, NoBol x.2) (heol : ∀ xs ∈ ess, ∀ x ∈ xs, NoEol x.2)
    (hplanes : tr.compressed = true → tr.char24 = true → ∀ xs ∈ ess, ∀ x ∈ xs, ROpt (fun r => r.AllChars fun t => ∀ y ∈ t, FewPlanes y) x.2)
    (hcount : ∀ xs ∈ ess, (xs.map fun x => setsOf tr x.2).sum + 2 ≤ tr.npos) : AnyRules tr o.rules xss := by
  have nb : ∀ xs ∈ xss, ∀ x ∈ xs, NoBol x.2 := by
    intro xs hxs
    obtain ⟨es, h1, h2⟩ := h.splits.mem hxs
    exact split_noBol h2 (hbol es h1)
  have ne : ∀ xs ∈ xss, ∀ x ∈ xs, NoEol x.2 := by
    intro xs hxs
    obtain ⟨es, h1, h2⟩ := h.splits.mem hxs
    exact split_noEol h2 (heol es h1)
  refine ⟨h.held.states, fun xs hxs x hx => (h.held.each xs hxs x hx).1, ?_, ?_, fun xs hxs => .inl (ne xs hxs), fun xs hxs => .inl (nb xs hxs), ?_, ?_⟩
  · intro xs hxs x hx
    obtain ⟨_, r, hr, hs⟩ := h.held.each xs hxs x hx
    have hw : E.max = charsOf tr - 1 := by omega
    obtain ⟨es, hes, hsp⟩ := h.splits.mem hxs
    obtain ⟨e, he, _, s, rs, q, h1, h2, h3, h4⟩ := split_mem hsp x hx
    rw [hr] at h4
    injection h4 with h4
    subst h4
    rw [hr]
    show r.AllChars _
    by_cases hc : tr.compressed = true ∧ tr.char24 = true
    · have hp : r.AllChars fun t => ∀ y ∈ t, FewPlanes y := by
        have := hplanes hc.1 hc.2 es hes e he
        rw [h1] at this
        exact alts_chars h2 this r h3
      refine Anchors.mono (fun t ht => ?_) r (Anchors.both r hs hp)
      exact ⟨ht.1.1, ht.1.2.1, hw ▸ ht.1.2.2, fun _ _ => ht.2⟩
    · refine Anchors.mono (fun t ht => ?_) r hs
      exact ⟨ht.1, ht.2.1, hw ▸ ht.2.2, fun h1 h2 => absurd ⟨h1, h2⟩ hc⟩
  · intro xs hxs x hx
    obtain ⟨_, r, hr, hs⟩ := h.held.each xs hxs x hx
    have := nb xs hxs x hx
    rw [hr] at this ⊢
    exact noBol_head this
  · intro xs hxs
    obtain ⟨es, hes, hsp⟩ := h.splits.mem hxs
    have : (xs.map fun x => setsOf tr x.2 + 2 * dollarsOf x.2) = xs.map fun x => setsOf tr x.2 := by
      refine List.map_congr_left fun x hx => ?_
      obtain ⟨_, r, hr, _⟩ := h.held.each xs hxs x hx
      have := ne xs hxs x hx
      rw [hr] at this ⊢
      simp [dollarsOf, dollars_zero r this]
    rw [this, split_slots tr hsp]
    exact hcount es hes
  · rintro i xs hi ⟨x, hx, hb⟩
    exact absurd (nb xs (List.mem_of_getElem? hi) x hx) hb

theorem program_exist {E : TokEnv} {tr : Traits} (hnp : 1 ≤ tr.npos) {f : ReFlags} {cs : List Call} {names : List (List Nat)}
    {M : List (List Nat × Re)} {ess : List (List SRule)} (hP : LazyStateProgram E tr.npos f cs names M ess) {o : RulesObj}
    {xss : List (List SRule)} (h : Ran E tr f names M ess o xss) {fl : Flags}
    (hpop : fl.recursive = true ∨ ∀ xs ∈ ess, ∀ x ∈ xs, x.1.popDfa = false) (eoi : Nat) (inp : List Nat) :
    StatesExist ⟨xss, tr.npos, eoi, fl, inp⟩ := by
  obtain ⟨h1, _, h3⟩ := program_targets hnp hP
  have hlen : xss.length = names.length := h.splits.len.trans h1
  constructor
  · intro xs hxs x hx
    obtain ⟨es, hes, hsp⟩ := h.splits.mem hxs
    obtain ⟨e, he, hsame, _⟩ := split_mem hsp x hx
    obtain ⟨k1, _, _⟩ := h3 es hes e he
    rcases k1 with k | k
    · rcases hpop with hp | hp
      · exact .inl ⟨hp, hsame.2.2.2.2.trans k⟩
      · rw [hp es hes e he] at k
        cases k
    · refine .inr ?_
      show x.1.nextDfa < xss.length
      rw [hlen, hsame.2.2.1]
      exact k
  · intro xs hxs x hx hne
    obtain ⟨es, hes, hsp⟩ := h.splits.mem hxs
    obtain ⟨e, he, hsame, _⟩ := split_mem hsp x hx
    obtain ⟨_, k2, _⟩ := h3 es hes e he
    show x.1.pushDfa < xss.length
    rw [hsame.2.2.2.1, hlen]
    rcases k2 with k | k
    · exact absurd (hsame.2.2.2.1.trans k) hne
    · exact k

/-! ### Outcomes -/

/-- The rules of `E'` have the alternatives of `E`. -/
structure Refined (E E' : LexEnv) : Prop where
  npos : E'.npos = E.npos
  eoi : E'.eoi = E.eoi
  flags : E'.flags = E.flags
  inp : E'.inp = E.inp
  rules : Splits E.rules E'.rules
  noBol : ∀ es ∈ E'.rules, ∀ e ∈ es, NoBol e.2
  noEol : ∀ es ∈ E'.rules, ∀ e ∈ es, NoEol e.2

theorem noEol_text {e : Option Re} (h : NoEol e) {w : List Sym} : ¬ RMatches e (w ++ [.eol]) := by
  cases e with
  | none =>
    intro hm
    have : w ++ [Sym.eol] = [] := hm
    simp at this
  | some r => exact fun hm => noEol_words h hm (by simp)

theorem line_first {b : Bool} {xs : List SRule} (h : ∀ x ∈ xs, NoBol x.2) {w : List Sym} {j : Nat} :
    First (LineMatch b) (xs.map (·.2)) w j ↔ First RMatches (xs.map (·.2)) w j := by
  have line : ∀ e ∈ xs.map (·.2), (LineMatch b e w ↔ RMatches e w) := by
    intro e he
    obtain ⟨x, hx, rfl⟩ := List.mem_map.1 he
    exact line_noBol (h x hx) w
  constructor
  · rintro ⟨⟨e, h1, h2⟩, h3⟩
    exact ⟨⟨e, h1, (line e (List.mem_of_getElem? h1)).1 h2⟩, fun i e hi he hm => h3 i e hi he ((line e (List.mem_of_getElem? he)).2 hm)⟩
  · rintro ⟨⟨e, h1, h2⟩, h3⟩
    exact ⟨⟨e, h1, (line e (List.mem_of_getElem? h1)).2 h2⟩, fun i e hi he hm => h3 i e hi he ((line e (List.mem_of_getElem? he)).1 hm)⟩

theorem no_dollar {b d : Bool} {es : List SRule} (hb : ∀ e ∈ es, NoBol e.2) (he : ∀ e ∈ es, NoEol e.2) {inp : List Nat} {p eoi k : Nat} :
    ¬ ByDollar d (LineMatch b) (es.map (·.2)) inp p eoi k := by
  rintro ⟨_, _, e, h1, h2⟩
  obtain ⟨x, hx, rfl⟩ := List.mem_map.1 h1
  exact noEol_text (he x hx) ((line_noBol (hb x hx) _).1 h2)

theorem split_noLonger {b d : Bool} {xs es : List SRule} (h : Split xs es) (hb : ∀ e ∈ es, NoBol e.2) (he : ∀ e ∈ es, NoEol e.2) {inp : List Nat}
    {p eoi k : Nat} (hn : NoLonger d (LineMatch b) (xs.map (·.2)) inp p eoi k) : NoLonger d (LineMatch b) (es.map (·.2)) inp p eoi k := by
  intro k' h1 h2
  refine ⟨?_, no_dollar hb he⟩
  intro e hm hl
  obtain ⟨x, hx, rfl⟩ := List.mem_map.1 hm
  obtain ⟨y, hy, hym⟩ := split_cover h x hx ((line_noBol (hb x hx) _).1 hl)
  exact (hn k' h1 h2).1 y.2 (List.mem_map_of_mem hy) ((line_noBol (split_noBol h hb y hy) _).2 hym)

theorem split_early {b : Bool} {xs es : List SRule} (h : Split xs es) (hb : ∀ e ∈ es, NoBol e.2) {inp : List Nat} {p k : Nat}
    (hn : Early (LineMatch b) (xs.map (·.2)) inp p k) : Early (LineMatch b) (es.map (·.2)) inp p k := by
  obtain ⟨j, e, h1, h2, h3⟩ := hn
  obtain ⟨x, hx, rfl⟩ : ∃ x, xs[j]? = some x ∧ x.2 = e := by
    rw [List.getElem?_map] at h2
    exact Option.map_eq_some_iff.1 h2
  obtain ⟨i, e', g1, _, g3, g4⟩ := split_first h hx ((line_first (split_noBol h hb)).1 h1)
  exact ⟨i, e'.2, (line_first hb).2 g3, by simp [g1], fun hg => h3 (g4 hg)⟩

theorem Refined.accept {E E' : LexEnv} (h : Refined E E') {x y : SRule} (hk : Same x.1 y.1) (r : Results) (k next : Nat) (b : Bool) :
    E'.accept y.1 r k next b = E.accept x.1 r k next b := by
  obtain ⟨h1, h2, h3, h4, h5⟩ := hk
  unfold LexEnv.accept
  rw [h1, h4, h5, h.flags, h.npos]

theorem Refined.continues {E E' : LexEnv} (h : Refined E E') {x y : SRule} (hk : Same x.1 y.1) (r : Results) :
    E'.continues y.1 r ↔ E.continues x.1 r := by
  obtain ⟨h1, h2, h3, h4, h5⟩ := hk
  unfold LexEnv.continues
  rw [h1, h5, h.flags, h.eoi]

theorem Refined.picks {E E' : LexEnv} (h : Refined E E') {r : Results} {p : Nat} {x : SRule} {k next : Nat} {b : Bool}
    (hc : E.Picks r p x k next b) : ∃ y, Same x.1 y.1 ∧ E'.Picks r p y k next b := by
  have ha : E'.atLine r = E.atLine r := by unfold LexEnv.atLine; rw [h.flags]
  cases hc with
  | text xs x k j h1 h2 h3 h4 h5 h6 =>
    obtain ⟨es, g1, g2⟩ := h.rules.get h1
    have hb := h.noBol es (List.mem_of_getElem? g1)
    have he := h.noEol es (List.mem_of_getElem? g1)
    obtain ⟨i, e, k1, k2, k3, _⟩ := split_first g2 h2 ((line_first (split_noBol g2 hb)).1 h5)
    refine ⟨e, k2, ?_⟩
    have := LexEnv.Picks.text (E := E') (r := r) (p := p) es e k i g1 k1 h3 h4 (by rw [ha, h.inp]; exact (line_first hb).2 k3)
      (by
        rw [ha, h.inp, h.flags]
        rcases h6 with h6 | h6
        · exact .inl (split_early g2 hb h6)
        · exact .inr ⟨split_noLonger g2 hb he h6.1, no_dollar hb he⟩)
    rwa [← k2.2.2.1, h.inp] at this
  | line xs x k j h1 h2 h3 h4 h5 h6 h7 h8 =>
    exfalso
    obtain ⟨es, g1, g2⟩ := h.rules.get h1
    have hb := h.noBol es (List.mem_of_getElem? g1)
    have he := h.noEol es (List.mem_of_getElem? g1)
    obtain ⟨e, k1, k2⟩ := h7.hit
    obtain ⟨y, hy, rfl⟩ := List.mem_map.1 (List.mem_of_getElem? k1)
    exact noEol_text (split_noEol g2 he y hy) ((line_noBol (split_noBol g2 hb y hy) _).1 k2)
  | empty xs x j h1 h2 h3 h4 =>
    obtain ⟨es, g1, g2⟩ := h.rules.get h1
    have hb := h.noBol es (List.mem_of_getElem? g1)
    have he := h.noEol es (List.mem_of_getElem? g1)
    obtain ⟨i, e, k1, k2, k3, _⟩ := split_first (w := []) g2 h2 ⟨h3.hit, h3.earliest⟩
    refine ⟨e, k2, .empty es e i g1 k1 ⟨k3.hit, k3.earliest⟩ ?_⟩
    rw [ha, h.inp, h.flags]
    rcases h4 with h4 | h4
    · exact .inl (split_early g2 hb h4)
    · exact .inr ⟨split_noLonger g2 hb he h4.1, no_dollar hb he⟩

theorem Refined.unmatched {E E' : LexEnv} (h : Refined E E') {r : Results} {p : Nat} (hu : E.Unmatched r p) : E'.Unmatched r p := by
  have ha : E'.atLine r = E.atLine r := by unfold LexEnv.atLine; rw [h.flags]
  obtain ⟨xs, h1, h2, h3, h4⟩ := hu
  obtain ⟨es, g1, g2⟩ := h.rules.get h1
  have hb := h.noBol es (List.mem_of_getElem? g1)
  have he := h.noEol es (List.mem_of_getElem? g1)
  refine ⟨es, g1, ?_, no_dollar hb he, ?_⟩
  · rw [ha, h.inp, h.flags]
    exact split_noLonger g2 hb he h2
  · intro e hm hl
    obtain ⟨x, hx, rfl⟩ := List.mem_map.1 hm
    obtain ⟨y, hy, hym⟩ := split_cover g2 x hx hl
    exact h4 y.2 (List.mem_map_of_mem hy) hym

theorem Refined.lexAny {E E' : LexEnv} (h : Refined E E') {r : Results} {p : Nat} {o : M Results} (hl : E.LexAny r p o) : E'.LexAny r p o := by
  unfold LexEnv.LexAny at hl ⊢
  induction hl with
  | eoi r => rw [← h.eoi, ← h.npos]; exact .eoi r
  | none r p c h1 h2 h3 =>
    rw [← h.flags, ← h.npos]
    exact .none r p c h1 (h.unmatched h2) (by rw [h.inp]; exact h3)
  | throw r p x k next b e h1 h2 h3 =>
    obtain ⟨y, g1, g2⟩ := h.picks h2
    exact .throw r p y k next b e h1 g2 (by rw [h.accept g1]; exact h3)
  | skip r r' p x k next b o h1 h2 h3 h4 _ ih =>
    obtain ⟨y, g1, g2⟩ := h.picks h2
    exact .skip r r' p y k next b o h1 g2 (by rw [h.accept g1]; exact h3) (by rw [← g1.1, h.npos]; exact h4) ih
  | again r r' p x k next b o h1 h2 h3 h4 h5 _ ih =>
    obtain ⟨y, g1, g2⟩ := h.picks h2
    exact .again r r' p y k next b o h1 g2 (by rw [h.accept g1]; exact h3) (by rw [← g1.1, h.npos]; exact h4) ((h.continues g1 r').2 h5) ih
  | token r r' p x k next b h1 h2 h3 h4 h5 =>
    obtain ⟨y, g1, g2⟩ := h.picks h2
    rw [g1.1, g1.2.1]
    exact .token r r' p y k next b h1 g2 (by rw [h.accept g1]; exact h3) (by rw [← g1.1, h.npos]; exact h4) (fun h6 => h5 ((h.continues g1 r').1 h6))

end Lexertl.LazyStates
