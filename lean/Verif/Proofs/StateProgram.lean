import Verif.Proofs.AnchorProgram
import Verif.Spec.StateProgram
import Verif.Spec.Line

/-
Programs with several lexer states.
-/
namespace Lexertl.InStates
open Spec Reading

/-! ### Names -/

theorem name_chars {name : List Nat} (h : validName name = true) : name ≠ [] ∧ name ≠ [42] ∧ (∀ c ∈ name, c ≠ 44 ∧ c ≠ 58) ∧
    ∀ c, name.head? = some c → c ≠ 46 ∧ c ≠ 60 ∧ c ≠ 62 := by
  cases name with
  | nil => simp [validName] at h
  | cons c cs =>
    simp only [validName, Bool.and_eq_true, List.all_eq_true] at h
    have hc : c ≠ 44 ∧ c ≠ 58 ∧ c ≠ 46 ∧ c ≠ 60 ∧ c ≠ 62 ∧ c ≠ 42 := by
      have := h.1
      simp only [isLetter, Bool.or_eq_true, Bool.and_eq_true, decide_eq_true_eq, beq_iff_eq] at this
      omega
    refine ⟨by simp, by simp [hc.2.2.2.2.2], ?_, ?_⟩
    · intro d hd
      rcases List.mem_cons.1 hd with rfl | hd
      · exact ⟨hc.1, hc.2.1⟩
      · have := h.2 d hd
        simp only [isNameChar, isLetter, isDigit, Bool.or_eq_true, Bool.and_eq_true, decide_eq_true_eq, beq_iff_eq] at this
        omega
    · intro d hd
      simp at hd
      subst hd
      exact ⟨hc.2.2.1, hc.2.2.2.1, hc.2.2.2.2.1⟩

theorem splitColon_none : ∀ (name : List Nat), (∀ c ∈ name, c ≠ 58) → RulesObj.splitColon name = (name, none)
  | [], _ => rfl
  | c :: cs, h => by
    unfold RulesObj.splitColon
    rw [if_neg (h c (by simp)), splitColon_none cs (fun d hd => h d (by simp [hd]))]

theorem splitColon_some : ∀ (name back : List Nat), (∀ c ∈ name, c ≠ 58) → RulesObj.splitColon (name ++ 58 :: back) = (name, some back)
  | [], back, _ => by simp [RulesObj.splitColon]
  | c :: cs, back, h => by
    rw [List.cons_append]
    unfold RulesObj.splitColon
    rw [if_neg (h c (by simp)), splitColon_some cs back (fun d hd => h d (by simp [hd]))]

theorem splitComma_one : ∀ (name : List Nat), name ≠ [] → (∀ c ∈ name, c ≠ 44) → RulesObj.splitComma name = [name]
  | [], h, _ => absurd rfl h
  | [c], _, h => by unfold RulesObj.splitComma; rw [if_neg (h c (by simp))]
  | c :: d :: cs, _, h => by
    unfold RulesObj.splitComma
    rw [if_neg (h c (by simp)), splitComma_one (d :: cs) (by simp) (fun e he => h e (List.mem_cons_of_mem _ he))]

theorem splitComma_more (w : List Nat) (hw : w ≠ []) : ∀ (name : List Nat), (∀ c ∈ name, c ≠ 44) →
    RulesObj.splitComma (name ++ 44 :: w) = name :: RulesObj.splitComma w
  | [], _ => by
    obtain ⟨a, as, rfl⟩ := List.exists_cons_of_ne_nil hw
    rw [List.nil_append]
    rw [RulesObj.splitComma.eq_def]
    simp
  | c :: cs, h => by
    have ih := splitComma_more w hw cs (fun d hd => h d (by simp [hd]))
    rw [List.cons_append]
    cases hcs : cs ++ 44 :: w with
    | nil => simp at hcs
    | cons a as =>
      rw [hcs] at ih
      rw [RulesObj.splitComma.eq_def]
      dsimp only
      rw [if_neg (h c (by simp)), ih]

/-! ### Looking up names -/

/-- What is known about names. -/
structure Named (tr : Traits) (o : RulesObj) (ns : List (List Nat)) : Prop where
  ok : StatesOk tr o
  names : o.stateNames = ns
  small : ns.length ≤ tr.npos

theorem Named.find {tr : Traits} {o : RulesObj} {names : List (List Nat)} (h : Named tr o names) {j : Nat} {name : List Nat}
    (hj : names[j]? = some name) : find name o.statemap = some j ∧ validName name = true := by
  refine ⟨?_, h.ok.valid _ (h.names ▸ List.mem_of_getElem? hj)⟩
  rw [h.ok.map, find_numbered _ _ _ _ h.ok.nodup]
  have : j < names.length := (List.getElem?_eq_some_iff.1 hj).1
  exact ⟨j, h.names ▸ hj, by rw [Nat.zero_add, toId_small (by have := h.small; omega)]⟩

theorem Named.known {tr : Traits} {o : RulesObj} {names : List (List Nat)} (h : Named tr o names) {j : Nat} {name : List Nat}
    (hj : names[j]? = some name) : o.known name = .ok j := by
  obtain ⟨h1, h2⟩ := h.find hj
  unfold RulesObj.known
  rw [h2, h1]
  rfl

theorem Named.list {tr : Traits} {o : RulesObj} {names : List (List Nat)} (h : Named tr o names) {w js : List Nat}
    (hw : NameList names w js) : w ≠ [] ∧ w ≠ [42] ∧ (RulesObj.splitComma w).mapM (fun name => o.known name) = .ok js := by
  induction hw with
  | one name j hj =>
    obtain ⟨h1, h2, h3, _⟩ := name_chars (h.find hj).2
    refine ⟨h1, h2, ?_⟩
    rw [splitComma_one name h1 fun c hc => (h3 c hc).1, List.mapM_cons, h.known hj]
    rfl
  | more name j w js hj _ ih =>
    obtain ⟨h1, h2, h3, _⟩ := name_chars (h.find hj).2
    obtain ⟨c, cs, rfl⟩ := List.exists_cons_of_ne_nil h1
    refine ⟨by simp, by simp, ?_⟩
    rw [splitComma_more w ih.1 _ fun c hc => (h3 c hc).1, List.mapM_cons, h.known hj, ih.2.2]
    rfl

theorem Named.places {tr : Traits} {o : RulesObj} {names : List (List Nat)} (h : Named tr o names) {w js : List Nat}
    (hw : Places names w js) : o.currStates tr w = .ok js ∧ ∀ j ∈ js, j < names.length := by
  have hlen : ∀ {w js : List Nat}, NameList names w js → ∀ j ∈ js, j < names.length := by
    intro w js hw
    induction hw with
    | one name j hj =>
      intro i hi
      simp at hi; subst hi
      exact (List.getElem?_eq_some_iff.1 hj).1
    | more name j w js hj _ ih =>
      intro i hi
      rcases List.mem_cons.1 hi with rfl | hi
      · exact (List.getElem?_eq_some_iff.1 hj).1
      · exact ih i hi
  cases hw with
  | all =>
    refine ⟨?_, by simp⟩
    rw [RulesObj.currStates, if_pos rfl, h.ok.map, numbered_length, h.names, toId_small h.small]
  | list _ _ hl =>
    obtain ⟨h1, h2, h3⟩ := h.list hl
    refine ⟨?_, hlen hl⟩
    rw [RulesObj.currStates, if_neg h2, h3]

theorem Named.leads {tr : Traits} {o : RulesObj} {names : List (List Nat)} (h : Named tr o names) {new : List Nat}
    {g : Nat → Nat × Nat × Bool} (hg : Leads tr.npos names new g) :
    ∃ t ids, RulesObj.parseTarget new = .ok t ∧ o.targetIds tr t = .ok ids ∧
      ∀ i id uid ts, RulesObj.mkRule tr t ids i id uid ts = ⟨ts, id, uid, (g i).1, (g i).2.1, (g i).2.2⟩ := by
  cases hg with
  | stay => exact ⟨.stay, _, rfl, rfl, fun _ _ _ _ => rfl⟩
  | pop => exact ⟨.pop, _, rfl, rfl, fun _ _ _ _ => rfl⟩
  | goto name j hj =>
    obtain ⟨h1, h2⟩ := h.find hj
    obtain ⟨k1, k2, k3, k4⟩ := name_chars h2
    obtain ⟨c, cs, rfl⟩ := List.exists_cons_of_ne_nil k1
    obtain ⟨q1, q2, q3⟩ := k4 c rfl
    refine ⟨.goto (c :: cs), (j, tr.npos), ?_, ?_, fun _ _ _ _ => rfl⟩
    · unfold RulesObj.parseTarget
      rw [if_neg (by simp [q1]), if_neg (by simp [q2])]
      simp only [List.head?_cons, Option.some.injEq, q3, if_false, splitColon_none _ fun c hc => (k3 c hc).2, h2,
        Bool.true_eq_false, Option.isSome_none, Bool.false_eq_true]
    · simp only [RulesObj.targetIds, h1]
  | push name j hj =>
    obtain ⟨h1, h2⟩ := h.find hj
    obtain ⟨k1, k2, k3, k4⟩ := name_chars h2
    refine ⟨.push name none, (j, tr.npos), ?_, ?_, fun _ _ _ _ => rfl⟩
    · unfold RulesObj.parseTarget
      rw [if_neg (by simp), if_neg (by simp)]
      simp [splitColon_none _ fun c hc => (k3 c hc).2, h2]
    · simp only [RulesObj.targetIds, h1]
  | pushTo name back j k hj hk =>
    obtain ⟨h1, h2⟩ := h.find hj
    obtain ⟨h3, h4⟩ := h.find hk
    obtain ⟨k1, k2, k3, k4⟩ := name_chars h2
    refine ⟨.push name (some back), (j, k), ?_, ?_, fun _ _ _ _ => rfl⟩
    · unfold RulesObj.parseTarget
      rw [if_neg (by simp), if_neg (by simp)]
      simp [splitColon_some _ _ fun c hc => (k3 c hc).2, h2, h4]
    · simp only [RulesObj.targetIds, h1, h3]

/-! ### Adding a rule -/

/-- What is known about the rules of an object. -/
structure Held (E : TokEnv) (o : RulesObj) (xss : List (List SRule)) : Prop where
  states : o.states = xss.map (·.map (·.1))
  feats : o.features.length = xss.length
  each : ∀ xs ∈ xss, ∀ x ∈ xs, Denotes x.1.regex x.2 ∧ ∃ r, x.2 = some r ∧ r.greedy = true ∧ r.AllChars (SetOk E.max)
  bol : ∀ (i : Nat) xs n, xss[i]? = some xs → o.features[i]? = some n → (∃ x ∈ xs, ¬ NoBol x.2) → n % 2 = 1

theorem mem_modify {α : Type} {l : List (List α)} {c : Nat} {a : α} {xs : List α} (h : xs ∈ l.modify c (· ++ [a])) :
    ∀ x ∈ xs, (∃ ys ∈ l, x ∈ ys) ∨ x = a := by
  intro x hx
  obtain ⟨i, hi⟩ := List.getElem?_of_mem h
  rw [modify_getElem?] at hi
  split at hi
  · obtain ⟨ys, hy, rfl⟩ := Option.map_eq_some_iff.1 hi
    rcases List.mem_append.1 hx with hx | hx
    · exact .inl ⟨ys, List.mem_of_getElem? hy, hx⟩
    · exact .inr (by simpa using hx)
  · exact .inl ⟨xs, List.mem_of_getElem? hi, hx⟩

theorem map_modify {α β : Type} (l : List (List α)) (c : Nat) (a : α) (f : α → β) :
    (l.modify c (· ++ [a])).map (·.map f) = (l.map (·.map f)).modify c (· ++ [f a]) := by
  apply List.ext_getElem?
  intro i
  rw [List.getElem?_map, modify_getElem?, modify_getElem?, List.getElem?_map]
  split
  · cases l[i]? <;> simp
  · rfl

theorem Held.add {E : TokEnv} {o : RulesObj} {xss : List (List SRule)} (h : Held E o xss) {c n : Nat} {x : SRule} {r : Re}
    (hx : Denotes x.1.regex x.2) (hr : x.2 = some r) (hg : r.greedy = true) (hs : r.AllChars (SetOk E.max))
    (hb : r.noBol = false → n % 2 = 1) : Held E (o.extend c [x.1] n) (xss.modify c (· ++ [x])) := by
  refine ⟨?_, ?_, ?_, ?_⟩
  · rw [map_modify]
    simp only [RulesObj.extend, h.states]
  · simp [RulesObj.extend, h.feats]
  · intro xs hxs y hy
    rcases mem_modify hxs y hy with ⟨ys, h1, h2⟩ | rfl
    · exact h.each ys h1 y h2
    · exact ⟨hx, r, hr, hg, hs⟩
  · intro i xs m hi hm hbol
    rw [modify_getElem?] at hi
    simp only [RulesObj.extend] at hm
    rw [modify_getElem?] at hm
    split at hi
    · rename_i hc
      rw [if_pos hc] at hm
      obtain ⟨ys, hy, rfl⟩ := Option.map_eq_some_iff.1 hi
      obtain ⟨k, hk, rfl⟩ := Option.map_eq_some_iff.1 hm
      refine or_odd ?_
      obtain ⟨y, hy1, hy2⟩ := hbol
      rcases List.mem_append.1 hy1 with hy1 | hy1
      · exact .inl (h.bol i ys k hy hk ⟨y, hy1, hy2⟩)
      · simp at hy1
        subst hy1
        refine .inr (hb ?_)
        rw [hr] at hy2
        simpa [NoBol] using hy2
    · rename_i hc
      rw [if_neg hc] at hm
      exact h.bol i xs m hi hm hbol

/-- The rule of a text: its tokens and what is added for `^`. -/
theorem rule_tokens {E : TokEnv} (hE : TokEnvOk E) (hC : CharsOk E) {tr : Traits} {M : List (List Nat × Re)} {o : RulesObj}
    (hM : MacrosMean E o.macros M) {w : List Nat} {r : Re} (hw : TextOk E w) (h : Means E M o.flags w r) (hg : r.greedy = true) :
    ∃ m, tokenise E o.flags o.macros false w = .ok [m] ∧ Denotes m (some r) ∧ r.AllChars (SetOk E.max) ∧
      ∀ id rec, ∃ n, RulesObj.ruleFeatures tr m m id rec = .ok n ∧ (r.noBol = false → n % 2 = 1) := by
  obtain ⟨us, h1, h2, h3, h4⟩ := tokenise_rule hE hC hM h hw hg
  have hd : Denotes (beginTok :: us ++ [endTok]) (some r) := .re _ _ _ _ rfl rfl h2
  obtain ⟨t, ts, rfl⟩ := List.exists_cons_of_ne_nil (derives_nonempty h2)
  obtain ⟨vs, z, hz, _⟩ := derives_last h2
  have e2 : (beginTok :: (t :: ts) ++ [endTok])[(beginTok :: (t :: ts) ++ [endTok]).length - 2]? = some z := by
    rw [hz]
    have : (beginTok :: (vs ++ [z]) ++ [endTok]).length - 2 = (beginTok :: vs).length := by simp
    rw [this, show beginTok :: (vs ++ [z]) ++ [endTok] = (beginTok :: vs) ++ (z :: [endTok]) by simp, List.getElem?_append_right (Nat.le_refl _)]
    simp
  have e1 : (beginTok :: (t :: ts) ++ [endTok])[1]? = some t := rfl
  refine ⟨_, h1, hd, h3, fun id rec => ⟨((if t.type = .bol then 1 else 0) ||| (if z.type = .eol then 2 else 0) |||
      (if id = tr.npos - 1 then 4 else if id = 0 then 8 else 0) ||| (if rec then 32 else 0)), ?_, ?_⟩⟩
  · unfold RulesObj.ruleFeatures
    rw [e1, e2]
  · intro hb
    have ht : t.type = .bol := by simpa using h4 hb
    rw [if_pos ht]
    exact or_odd (.inl (or_odd (.inl (or_odd (.inl rfl)))))

/-- What `xss` says, without texts. -/
def bare (x : SRule) : SRule := ({ x.1 with regex := [] }, x.2)

theorem loop_adds {E : TokEnv} {tr : Traits} {t : RulesObj.Target} {ids : Nat × Nat} {id uid : Nat}
    {regex : List Nat} {ts : List Tok} {r : Re} {g : Nat → Nat × Nat × Bool}
    (hd : Denotes ts (some r)) (hg : r.greedy = true) (hs : r.AllChars (SetOk E.max))
    (hf : ∃ n, RulesObj.ruleFeatures tr ts ts id t.recursive = .ok n ∧ (r.noBol = false → n % 2 = 1))
    (hmk : ∀ i id uid ts, RulesObj.mkRule tr t ids i id uid ts = ⟨ts, id, uid, (g i).1, (g i).2.1, (g i).2.2⟩) :
    ∀ (is : List Nat) (o : RulesObj) (xss : List (List SRule)), tokenise E o.flags o.macros false regex = .ok [ts] →
      (∀ i ∈ is, i < xss.length) → Held E o xss →
      ∃ o' yss, RulesObj.pushLoop E tr regex t ids id uid is o = (o', .ok ()) ∧ Held E o' yss ∧
        yss.map (·.map bare) = addRules (fun i => ruleOf r id uid (g i).1 (g i).2.1 (g i).2.2) is (xss.map (·.map bare)) ∧
        o'.flags = o.flags ∧ o'.macros = o.macros ∧ SameNames o o'
  | [], o, xss, _, _, h => ⟨o, xss, rfl, h, rfl, rfl, rfl, SameNames.refl o⟩
  | i :: is, o, xss, ht, hl, h => by
    obtain ⟨n, hn, hn'⟩ := hf
    have hi : i < o.states.length := by rw [h.states]; simpa using hl i (by simp)
    have h' := h.add (c := i) (n := n) (x := (⟨ts, id, uid, (g i).1, (g i).2.1, (g i).2.2⟩, some r)) hd rfl hg hs hn'
    obtain ⟨o', yss, k1, k2, k3, k4, k5, k6⟩ := loop_adds hd hg hs ⟨n, hn, hn'⟩ hmk is _ _ (show tokenise E (o.extend i _ n).flags (o.extend i _ n).macros false regex = .ok [ts] from ht)
      (by intro j hj; rw [List.length_modify]; exact hl j (by simp [hj])) h'
    refine ⟨o', yss, ?_, k2, ?_, k4, k5, (extend_same o i _ n).trans k6⟩
    · unfold RulesObj.pushLoop
      rw [ht]
      simp only [List.getLast?_singleton, hn, List.map_cons, List.map_nil, hmk]
      rw [if_pos hi]
      exact k1
    · rw [k3, map_modify]
      rfl

/-! ### Programs -/

/-- What is known about the object a program leaves. -/
structure Ran (E : TokEnv) (tr : Traits) (f : ReFlags) (names : List (List Nat)) (M : List (List Nat × Re)) (ess : List (List SRule))
    (o : RulesObj) (xss : List (List SRule)) : Prop where
  flags : o.flags = f
  macros : MacrosMean E o.macros M
  known : ∀ name, find name M = none → find name o.macros = none
  named : Named tr o names
  held : Held E o xss
  bare : xss.map (·.map bare) = ess

theorem program_run {E : TokEnv} (hE : TokEnvOk E) (hC : CharsOk E) {tr : Traits} (hnp : 1 ≤ tr.npos) {f : ReFlags} {cs : List Call}
    {names : List (List Nat)} {M : List (List Nat × Re)} {ess : List (List SRule)} (h : StateProgram E tr.npos f cs names M ess) :
    ∃ o xss, AllOk E tr (RulesObj.new tr f) cs o ∧ Ran E tr f names M ess o xss := by
  induction h with
  | nil =>
    obtain ⟨h1, h2, h3, h4⟩ := new_statesOk tr f
    have hN : (RulesObj.new tr f).flags = f ∧ (RulesObj.new tr f).stateNames = [chars "INITIAL"] := by
      unfold RulesObj.new RulesObj.pushState
      rw [if_neg (by simp [initial_valid])]
      simp only [find, ne_eq, not_true, if_false]
      split <;> exact ⟨rfl, rfl⟩
    refine ⟨_, [[]], .nil _, hN.1, ?_, ?_, ⟨h1, hN.2, by simpa using hnp⟩, ⟨by simp [h2], by simp [h4], by simp, ?_⟩, rfl⟩
    · intro name r h
      simp [find] at h
    · intro name _
      rw [h3]
      rfl
    · intro i xs n hi _ hb
      obtain ⟨x, hx, _⟩ := hb
      have := List.mem_of_getElem? hi
      simp at this
      subst this
      simp at hx
  | state cs names M ess name _ hv hn hlt ih =>
    obtain ⟨o, xss, h1, h2⟩ := ih
    have hst : o.states.length = names.length := by rw [h2.named.ok.states, h2.named.names]
    have hp := pushState_new h2.named.ok hv (h2.named.names ▸ hn)
    rw [if_neg (by omega)] at hp
    have ok' := run_statesOk (E := E) h2.named.ok (.pushState name)
    have run : Call.run E tr (.pushState name) o = (o.addState tr name, .ok ()) := by
      simp only [Call.run, hp, outcome]
    rw [run] at ok'
    refine ⟨_, xss ++ [[]], .snoc _ _ _ _ _ h1 run, h2.flags, h2.macros, h2.known, ⟨ok', ?_, by simp; omega⟩, ⟨?_, ?_, ?_, ?_⟩, ?_⟩
    · have := h2.named.names
      simp only [RulesObj.stateNames, RulesObj.addState] at this ⊢
      rw [← this]
      simp
    · simp [RulesObj.addState, h2.held.states]
    · simp [RulesObj.addState, h2.held.feats]
    · intro xs hxs x hx
      rcases List.mem_append.1 hxs with hxs | hxs
      · exact h2.held.each xs hxs x hx
      · simp at hxs
        subst hxs
        simp at hx
    · intro i xs n hi hn hb
      by_cases hlt : i < xss.length
      · rw [List.getElem?_append_left hlt] at hi
        simp only [RulesObj.addState] at hn
        rw [List.getElem?_append_left (by rw [h2.held.feats]; exact hlt)] at hn
        exact h2.held.bol i xs n hi hn hb
      · rw [List.getElem?_append_right (by omega)] at hi
        have := List.mem_of_getElem? hi
        simp at this
        subst this
        obtain ⟨x, hx, _⟩ := hb
        simp at hx
    · simp [h2.bare]
  | mac cs names M ess name w r _ hv hn hw hm hb he ih =>
    obtain ⟨o, xss, h1, h2⟩ := ih
    obtain ⟨m, g1, g2, g3⟩ := insertMacro_means hE hC h2.macros hv (h2.known name hn) hw (h2.flags ▸ hm) hb he
    have ok' := run_statesOk (E := E) h2.named.ok (.insertMacro name w)
    rw [show Call.run E tr (.insertMacro name w) o = _ from g1] at ok'
    refine ⟨_, xss, .snoc _ _ _ _ _ h1 g1, h2.flags, g3, ?_, ⟨ok', h2.named.names, h2.named.small⟩, ⟨h2.held.states, h2.held.feats, h2.held.each, h2.held.bol⟩, h2.bare⟩
    intro k hk
    unfold find at hk
    split at hk
    · cases hk
    · rename_i hne
      rw [find_append, h2.known k hk, if_neg hne]
      rfl
  | rule cs names M ess w r id uid _ hw hm hg hid hid' ih =>
    obtain ⟨o, xss, h1, h2⟩ := ih
    have hne : o.states ≠ [] := by
      have := h2.named.ok.states
      intro h0
      rw [h0] at this
      simp [RulesObj.stateNames] at this
    obtain ⟨m, n, g1, g2, g3, g4⟩ := pushInitial_means hE hC h2.macros (uid := uid) hid hid' hne hw (h2.flags ▸ hm) hg
    have hs := extend_same o 0 [⟨m, id, uid, 0, tr.npos, false⟩] n
    have ok' := run_statesOk (E := E) h2.named.ok (.push w id uid)
    rw [show Call.run E tr (.push w id uid) o = _ from g1] at ok'
    refine ⟨_, xss.modify 0 (· ++ [(⟨m, id, uid, 0, tr.npos, false⟩, some r)]), .snoc _ _ _ _ _ h1 g1, h2.flags, h2.macros, h2.known,
      ⟨ok', h2.named.names, h2.named.small⟩, h2.held.add (x := (⟨m, id, uid, 0, tr.npos, false⟩, some r)) g2 rfl hg g3 g4, ?_⟩
    rw [map_modify, h2.bare]
    rfl
  | ruleIn cs names M ess curr is w r id new g uid _ hpl hw hm hg hid hid' hgo ih =>
    obtain ⟨o, xss, h1, h2⟩ := ih
    obtain ⟨m, t1, t2, t3, t4⟩ := rule_tokens hE hC (tr := tr) h2.macros hw (h2.flags ▸ hm) hg
    obtain ⟨c1, c2⟩ := h2.named.places hpl
    obtain ⟨t, ids, l1, l2, l3⟩ := h2.named.leads hgo
    have hlen : xss.length = names.length := by
      have := h2.named.ok.states
      rw [h2.named.names, h2.held.states] at this
      simpa using this
    obtain ⟨o', yss, k1, k2, k3, k4, k5, k6⟩ := loop_adds (tr := tr) (uid := uid) t2 hg t3 (t4 (id.getD 0) t.recursive) l3 is o xss t1 (fun i hi => hlen ▸ c2 i hi) h2.held
    have hplan : o.pushPlan tr curr id new = .ok (t, ids, is) := by
      unfold RulesObj.pushPlan
      cases id with
      | none =>
        simp only [l1, c1]
        show (o.targetIds tr t >>= fun ids => Except.ok (t, ids, is)) = _
        rw [l2]
        rfl
      | some i =>
        have hc : checkId tr i = .ok () := by
          unfold checkId
          rw [if_neg (fun h => hid (by rw [h])), if_neg (fun h => hid' (by rw [h]))]
        simp only [hc, l1, c1]
        show (o.targetIds tr t >>= fun ids => Except.ok (t, ids, is)) = _
        rw [l2]
        rfl
    have hrun : Call.run E tr (.pushIn curr w id new uid) o = (o', .ok ()) := by
      simp only [Call.run, RulesObj.pushNamed, hplan]
      exact k1
    have ok' := run_statesOk (E := E) h2.named.ok (.pushIn curr w id new uid)
    rw [hrun] at ok'
    refine ⟨o', yss, .snoc _ _ _ _ _ h1 hrun, k4.trans h2.flags, k5 ▸ h2.macros, k5 ▸ h2.known, ⟨ok', ?_, h2.named.small⟩, k2, ?_⟩
    · have := k6.names
      rw [← h2.named.names]
      simp [RulesObj.stateNames, this]
    · rw [k3, h2.bare]

/-- The numbers in the rules of a program are those of lexer states. -/
theorem program_targets {E : TokEnv} {npos : Nat} (hnp : 1 ≤ npos) {f : ReFlags} {cs : List Call} {names : List (List Nat)} {M : List (List Nat × Re)}
    {ess : List (List SRule)} (h : StateProgram E npos f cs names M ess) : ess.length = names.length ∧ 0 < names.length ∧
    ∀ xs ∈ ess, ∀ x ∈ xs, (x.1.popDfa = true ∨ x.1.nextDfa < names.length) ∧ (x.1.pushDfa = npos ∨ x.1.pushDfa < names.length) ∧ x.1.id ≠ npos := by
  have add : ∀ {n : Nat} {g : Nat → SRule}, (∀ i, i < n → ((g i).1.popDfa = true ∨ (g i).1.nextDfa < n) ∧ ((g i).1.pushDfa = npos ∨ (g i).1.pushDfa < n) ∧ (g i).1.id ≠ npos) →
      ∀ (is : List Nat) (xss : List (List SRule)), (∀ i ∈ is, i < n) → xss.length = n →
      (∀ xs ∈ xss, ∀ x ∈ xs, (x.1.popDfa = true ∨ x.1.nextDfa < n) ∧ (x.1.pushDfa = npos ∨ x.1.pushDfa < n) ∧ x.1.id ≠ npos) →
      (addRules g is xss).length = n ∧
      ∀ xs ∈ addRules g is xss, ∀ x ∈ xs, (x.1.popDfa = true ∨ x.1.nextDfa < n) ∧ (x.1.pushDfa = npos ∨ x.1.pushDfa < n) ∧ x.1.id ≠ npos := by
    intro n g hg is
    induction is with
    | nil => exact fun xss _ h1 h2 => ⟨h1, h2⟩
    | cons i is ih =>
      intro xss hi h1 h2
      refine ih _ (fun j hj => hi j (by simp [hj])) (by rw [List.length_modify]; exact h1) ?_
      intro xs hxs x hx
      rcases mem_modify hxs x hx with ⟨ys, h3, h4⟩ | rfl
      · exact h2 ys h3 x h4
      · exact hg i (hi i (by simp))
  induction h with
  | nil => simp
  | state _ _ _ _ _ _ _ _ _ ih =>
    obtain ⟨h1, h2, h3⟩ := ih
    refine ⟨by simp [h1], by simp, ?_⟩
    intro xs hxs x hx
    rcases List.mem_append.1 hxs with hxs | hxs
    · obtain ⟨k1, k2, k3⟩ := h3 xs hxs x hx
      simp only [List.length_append, List.length_cons, List.length_nil]
      exact ⟨k1.imp id (fun h => by omega), k2.imp id (fun h => by omega), k3⟩
    · simp at hxs
      subst hxs
      simp at hx
  | mac _ _ _ _ _ _ _ _ _ _ _ _ _ _ ih => exact ih
  | rule _ _ _ _ _ _ _ _ _ _ _ _ _ hid ih =>
    obtain ⟨h1, h2, h3⟩ := ih
    obtain ⟨k1, k2⟩ := add (g := fun _ => ruleOf _ _ _ 0 npos false) (fun i _ => ⟨.inr h2, .inl rfl, hid⟩) [0] _ (by simpa using h2) h1 h3
    exact ⟨k1, h2, k2⟩
  | ruleIn cs names M ess curr is w r id new g uid _ hpl _ _ _ _ hid hgo ih =>
    obtain ⟨h1, h2, h3⟩ := ih
    have hid0 : id.getD 0 ≠ npos := by
      cases id with
      | none => simp; omega
      | some i => exact fun h => hid (by simp at h; rw [h])
    have lt : ∀ {j : Nat} {name : List Nat}, names[j]? = some name → j < names.length := fun h => (List.getElem?_eq_some_iff.1 h).1
    have his : ∀ i ∈ is, i < names.length := by
      cases hpl with
      | all => simp
      | list _ _ hl =>
        clear hgo
        induction hl with
        | one name j hj =>
          intro i hi
          simp at hi; subst hi
          exact lt hj
        | more name j w js hj _ ih =>
          intro i hi
          rcases List.mem_cons.1 hi with rfl | hi
          · exact lt hj
          · exact ih i hi
    obtain ⟨k1, k2⟩ := add (g := fun i => ruleOf r (id.getD 0) uid (g i).1 (g i).2.1 (g i).2.2) (n := names.length) (fun i hi => by
      refine ⟨?_, ?_, hid0⟩
      · cases hgo with
        | stay => exact .inr hi
        | pop => exact .inl rfl
        | goto name j hj => exact .inr (lt hj)
        | push name j hj => exact .inr (lt hj)
        | pushTo name back j k hj hk => exact .inr (lt hj)
      · cases hgo with
        | stay => exact .inl rfl
        | pop => exact .inl rfl
        | goto name j hj => exact .inl rfl
        | push name j hj => exact .inr hi
        | pushTo name back j k hj hk => exact .inr (lt hk)) is ess his h1 h3
    exact ⟨k1, h2, k2⟩

/-! ### Rules without their texts -/

/-- What the specification of lexers sees of a rule. -/
def key (x : SRule) : (Nat × Nat × Nat × Nat × Bool) × Option Re := ((x.1.id, x.1.userId, x.1.nextDfa, x.1.pushDfa, x.1.popDfa), x.2)

theorem key_bare (x : SRule) : key (bare x) = key x := rfl

theorem key_eq {x y : SRule} (h : key y = key x) : y.1.id = x.1.id ∧ y.1.userId = x.1.userId ∧ y.1.nextDfa = x.1.nextDfa ∧
    y.1.pushDfa = x.1.pushDfa ∧ y.1.popDfa = x.1.popDfa ∧ y.2 = x.2 := by
  simp only [key, Prod.mk.injEq] at h
  exact ⟨h.1.1, h.1.2.1, h.1.2.2.1, h.1.2.2.2.1, h.1.2.2.2.2, h.2⟩

/-- The same rules, but for the texts. -/
structure Alike (E E' : LexEnv) : Prop where
  npos : E'.npos = E.npos
  eoi : E'.eoi = E.eoi
  flags : E'.flags = E.flags
  inp : E'.inp = E.inp
  rules : E'.rules.map (·.map key) = E.rules.map (·.map key)

theorem Alike.symm {E E' : LexEnv} (h : Alike E E') : Alike E' E := ⟨h.npos.symm, h.eoi.symm, h.flags.symm, h.inp.symm, h.rules.symm⟩

theorem Alike.get {E E' : LexEnv} (h : Alike E E') {i : Nat} {xs : List SRule} (hi : E.rules[i]? = some xs) :
    ∃ ys, E'.rules[i]? = some ys ∧ ys.map key = xs.map key := by
  have := congrArg (fun l : List (List _) => l[i]?) h.rules
  simp only [List.getElem?_map, hi, Option.map_some] at this
  exact Option.map_eq_some_iff.1 this

theorem key_snd {xs ys : List SRule} (h : ys.map key = xs.map key) : ys.map (·.2) = xs.map (·.2) := by
  have := congrArg (List.map Prod.snd) h
  simpa [Function.comp_def, key] using this

theorem key_get {xs ys : List SRule} (h : ys.map key = xs.map key) {j : Nat} {x : SRule} (hj : xs[j]? = some x) :
    ∃ y, ys[j]? = some y ∧ key y = key x := by
  have := congrArg (fun l : List _ => l[j]?) h
  simp only [List.getElem?_map, hj, Option.map_some] at this
  exact Option.map_eq_some_iff.1 this

theorem Alike.accept {E E' : LexEnv} (h : Alike E E') {x y : SRule} (hk : key y = key x) (r : Results) (k next : Nat) (b : Bool) :
    E'.accept y.1 r k next b = E.accept x.1 r k next b := by
  obtain ⟨h1, h2, h3, h4, h5, h6⟩ := key_eq hk
  unfold LexEnv.accept
  rw [h1, h4, h5, h.flags, h.npos]

theorem Alike.continues {E E' : LexEnv} (h : Alike E E') {x y : SRule} (hk : key y = key x) (r : Results) :
    E'.continues y.1 r ↔ E.continues x.1 r := by
  obtain ⟨h1, h2, h3, h4, h5, h6⟩ := key_eq hk
  unfold LexEnv.continues
  rw [h1, h5, h.flags, h.eoi]

theorem Alike.chosen {E E' : LexEnv} (h : Alike E E') {r : Results} {p : Nat} {x : SRule} {k next : Nat} {b : Bool}
    (hc : E.Chosen r p x k next b) : ∃ y, key y = key x ∧ E'.Chosen r p y k next b := by
  have ha : E'.atLine r = E.atLine r := by unfold LexEnv.atLine; rw [h.flags]
  cases hc with
  | text xs x k j h1 h2 h3 =>
    obtain ⟨ys, g1, g2⟩ := h.get h1
    obtain ⟨y, g3, g4⟩ := key_get g2 h2
    refine ⟨y, g4, ?_⟩
    have := LexEnv.Chosen.text (E := E') (r := r) (p := p) ys y k j g1 g3 (by rw [key_snd g2, ha, h.inp]; exact h3)
    rwa [(key_eq g4).2.2.1, h.inp] at this
  | empty xs x j h1 h2 h3 h4 =>
    obtain ⟨ys, g1, g2⟩ := h.get h1
    obtain ⟨y, g3, g4⟩ := key_get g2 h2
    exact ⟨y, g4, .empty ys y j g1 g3 (by rw [key_snd g2, ha, h.inp]; exact h3) (by rw [key_snd g2]; exact h4)⟩

theorem Alike.lex {E E' : LexEnv} (h : Alike E E') {r : Results} {p : Nat} {o : M Results} (hl : E.Lex r p o) : E'.Lex r p o := by
  induction hl with
  | eoi r => rw [← h.eoi, ← h.npos]; exact .eoi r
  | none r p xs c h1 h2 h3 h4 h5 =>
    obtain ⟨ys, g1, g2⟩ := h.get h2
    rw [← h.flags, ← h.npos]
    have ha : E'.atLine r = E.atLine r := by unfold LexEnv.atLine; rw [h.flags]
    exact .none r p ys c h1 g1 (by rw [key_snd g2, ha, h.inp]; exact h3) (by rw [key_snd g2]; exact h4) (by rw [h.inp]; exact h5)
  | throw r p x k next b e h1 h2 h3 =>
    obtain ⟨y, g1, g2⟩ := h.chosen h2
    exact .throw r p y k next b e h1 g2 (by rw [h.accept g1]; exact h3)
  | skip r r' p x k next b o h1 h2 h3 h4 _ ih =>
    obtain ⟨y, g1, g2⟩ := h.chosen h2
    exact .skip r r' p y k next b o h1 g2 (by rw [h.accept g1]; exact h3) (by rw [(key_eq g1).1, h.npos]; exact h4) ih
  | again r r' p x k next b o h1 h2 h3 h4 h5 _ ih =>
    obtain ⟨y, g1, g2⟩ := h.chosen h2
    exact .again r r' p y k next b o h1 g2 (by rw [h.accept g1]; exact h3) (by rw [(key_eq g1).1, h.npos]; exact h4) ((h.continues g1 r').2 h5) ih
  | token r r' p x k next b h1 h2 h3 h4 h5 =>
    obtain ⟨y, g1, g2⟩ := h.chosen h2
    rw [← (key_eq g1).1, ← (key_eq g1).2.1]
    exact .token r r' p y k next b h1 g2 (by rw [h.accept g1]; exact h3) (by rw [(key_eq g1).1, h.npos]; exact h4) (fun h6 => h5 ((h.continues g1 r').1 h6))

theorem Alike.picks {E E' : LexEnv} (h : Alike E E') {r : Results} {p : Nat} {x : SRule} {k next : Nat} {b : Bool}
    (hc : E.Picks r p x k next b) : ∃ y, key y = key x ∧ E'.Picks r p y k next b := by
  have ha : E'.atLine r = E.atLine r := by unfold LexEnv.atLine; rw [h.flags]
  cases hc with
  | text xs x k j h1 h2 h3 h4 h5 h6 =>
    obtain ⟨ys, g1, g2⟩ := h.get h1
    obtain ⟨y, g3, g4⟩ := key_get g2 h2
    refine ⟨y, g4, ?_⟩
    have := LexEnv.Picks.text (E := E') (r := r) (p := p) ys y k j g1 g3 h3 h4 (by rw [key_snd g2, ha, h.inp]; exact h5)
      (by rw [key_snd g2, ha, h.inp, h.flags]; exact h6)
    rwa [(key_eq g4).2.2.1, h.inp] at this
  | line xs x k j h1 h2 h3 h4 h5 h6 h7 h8 =>
    obtain ⟨ys, g1, g2⟩ := h.get h1
    obtain ⟨y, g3, g4⟩ := key_get g2 h2
    refine ⟨y, g4, ?_⟩
    have := LexEnv.Picks.line (E := E') (r := r) (p := p) ys y k j g1 g3 h3 h4 (by rw [h.flags]; exact h5) (by rw [h.inp]; exact h6)
      (by rw [key_snd g2, ha, h.inp]; exact h7) (by rw [key_snd g2, ha, h.inp, h.flags]; exact h8)
    rwa [(key_eq g4).2.2.1, h.inp] at this
  | empty xs x j h1 h2 h3 h4 =>
    obtain ⟨ys, g1, g2⟩ := h.get h1
    obtain ⟨y, g3, g4⟩ := key_get g2 h2
    exact ⟨y, g4, .empty ys y j g1 g3 (by rw [key_snd g2]; exact h3) (by rw [key_snd g2, ha, h.inp, h.flags]; exact h4)⟩

theorem Alike.unmatched {E E' : LexEnv} (h : Alike E E') {r : Results} {p : Nat} (hu : E.Unmatched r p) : E'.Unmatched r p := by
  have ha : E'.atLine r = E.atLine r := by unfold LexEnv.atLine; rw [h.flags]
  obtain ⟨xs, h1, h2, h3, h4⟩ := hu
  obtain ⟨ys, g1, g2⟩ := h.get h1
  exact ⟨ys, g1, by rw [key_snd g2, ha, h.inp, h.flags]; exact h2, by rw [key_snd g2, ha, h.inp, h.flags]; exact h3, by rw [key_snd g2]; exact h4⟩

theorem Alike.lexAny {E E' : LexEnv} (h : Alike E E') {r : Results} {p : Nat} {o : M Results} (hl : E.LexAny r p o) : E'.LexAny r p o := by
  unfold LexEnv.LexAny at hl ⊢
  induction hl with
  | eoi r => rw [← h.eoi, ← h.npos]; exact .eoi r
  | none r p c h1 h2 h3 =>
    rw [← h.flags, ← h.npos]
    exact .none r p c h1 (h.unmatched h2) (by rw [h.inp]; exact h3)
  | throw r p x k next b e h1 h2 h3 =>
    obtain ⟨y, g1, g2⟩ := h.picks h2
    exact .throw r p y k next b e h1 g2 (by rw [h.accept g1]; exact h3)
  | skip r r' p x k next b o h1 h2 h3 h4 _ ih =>
    obtain ⟨y, g1, g2⟩ := h.picks h2
    exact .skip r r' p y k next b o h1 g2 (by rw [h.accept g1]; exact h3) (by rw [(key_eq g1).1, h.npos]; exact h4) ih
  | again r r' p x k next b o h1 h2 h3 h4 h5 _ ih =>
    obtain ⟨y, g1, g2⟩ := h.picks h2
    exact .again r r' p y k next b o h1 g2 (by rw [h.accept g1]; exact h3) (by rw [(key_eq g1).1, h.npos]; exact h4) ((h.continues g1 r').2 h5) ih
  | token r r' p x k next b h1 h2 h3 h4 h5 =>
    obtain ⟨y, g1, g2⟩ := h.picks h2
    rw [← (key_eq g1).1, ← (key_eq g1).2.1]
    exact .token r r' p y k next b h1 g2 (by rw [h.accept g1]; exact h3) (by rw [(key_eq g1).1, h.npos]; exact h4) (fun h6 => h5 ((h.continues g1 r').1 h6))

/-! ### What the theorems about lexers assume -/

theorem Ran.alike {E : TokEnv} {tr : Traits} {f : ReFlags} {names : List (List Nat)} {M : List (List Nat × Re)} {ess : List (List SRule)}
    {o : RulesObj} {xss : List (List SRule)} (h : Ran E tr f names M ess o xss) (npos eoi : Nat) (fl : Flags) (inp : List Nat) :
    Alike ⟨xss, npos, eoi, fl, inp⟩ ⟨ess, npos, eoi, fl, inp⟩ := by
  refine ⟨rfl, rfl, rfl, rfl, ?_⟩
  rw [← h.bare]
  simp [Function.comp_def, key_bare]

theorem Ran.mem {E : TokEnv} {tr : Traits} {f : ReFlags} {names : List (List Nat)} {M : List (List Nat × Re)} {ess : List (List SRule)}
    {o : RulesObj} {xss : List (List SRule)} (h : Ran E tr f names M ess o xss) {xs : List SRule} (hxs : xs ∈ xss) :
    xs.map InStates.bare ∈ ess := h.bare ▸ List.mem_map_of_mem hxs

theorem program_anyRules {E : TokEnv} {tr : Traits} (hmax : E.max + 1 = charsOf tr) {f : ReFlags} {names : List (List Nat)}
    {M : List (List Nat × Re)} {ess : List (List SRule)} {o : RulesObj} {xss : List (List SRule)} (h : Ran E tr f names M ess o xss)
    (hbol : ∀ xs ∈ ess, ∀ x ∈ xs, ROpt (fun r => r.bolHead = true) x.2)
    (heol : ∀ xs ∈ ess, (∀ x ∈ xs, NoEol x.2) ∨ (264 ≤ tr.npos ∧ DollarOk tr (xs.map (·.2))))
    (hplanes : tr.compressed = true → tr.char24 = true → ∀ xs ∈ ess, ∀ x ∈ xs, ROpt (fun r => r.AllChars fun t => ∀ y ∈ t, FewPlanes y) x.2)
    (hcount : ∀ xs ∈ ess, (xs.map fun x => setsOf tr x.2 + 2 * dollarsOf x.2).sum + 2 ≤ tr.npos) : AnyRules tr o.rules xss := by
  have hb : ∀ xs ∈ xss, ∀ x ∈ xs, bare x ∈ xs.map InStates.bare := fun _ _ _ hx => List.mem_map_of_mem hx
  refine ⟨h.held.states, fun xs hxs x hx => (h.held.each xs hxs x hx).1, ?_, fun xs hxs x hx => hbol _ (h.mem hxs) (InStates.bare x) (hb xs hxs x hx), ?_, ?_, ?_, ?_⟩
  · intro xs hxs x hx
    obtain ⟨_, r, hr, _, hs⟩ := h.held.each xs hxs x hx
    rw [hr]
    have hw : E.max = charsOf tr - 1 := by omega
    show r.AllChars _
    by_cases hc : tr.compressed = true ∧ tr.char24 = true
    · have hp : r.AllChars fun t => ∀ y ∈ t, FewPlanes y := by
        have := hplanes hc.1 hc.2 _ (h.mem hxs) _ (hb xs hxs x hx)
        simp only [InStates.bare, hr] at this
        exact this
      refine Anchors.mono (fun t ht => ?_) r (Anchors.both r hs hp)
      exact ⟨ht.1.1, ht.1.2.1, hw ▸ ht.1.2.2, fun _ _ => ht.2⟩
    · refine Anchors.mono (fun t ht => ?_) r hs
      exact ⟨ht.1, ht.2.1, hw ▸ ht.2.2, fun h1 h2 => absurd ⟨h1, h2⟩ hc⟩
  · intro xs hxs
    rcases heol _ (h.mem hxs) with he | he
    · exact .inl fun x hx => he (InStates.bare x) (hb xs hxs x hx)
    · refine .inr ?_
      simpa [Function.comp_def, InStates.bare] using he
  · intro xs hxs
    refine .inr fun x hx hn => ?_
    obtain ⟨_, r, hr, hg, _⟩ := h.held.each xs hxs x hx
    rw [hr] at hn
    exact absurd hg hn
  · intro xs hxs
    have := hcount _ (h.mem hxs)
    simpa [Function.comp_def, InStates.bare] using this
  · intro i xs hi hx
    have hlt : i < o.features.length := by rw [h.held.feats]; exact (List.getElem?_eq_some_iff.1 hi).1
    exact ⟨o.features[i], List.getElem?_eq_getElem hlt, h.held.bol i xs _ hi (List.getElem?_eq_getElem hlt) hx⟩

theorem program_exist {E : TokEnv} {tr : Traits} (hnp : 1 ≤ tr.npos) {f : ReFlags} {cs : List Call} {names : List (List Nat)}
    {M : List (List Nat × Re)} {ess : List (List SRule)} (hP : StateProgram E tr.npos f cs names M ess) {o : RulesObj}
    {xss : List (List SRule)} (h : Ran E tr f names M ess o xss) {fl : Flags}
    (hpop : fl.recursive = true ∨ ∀ xs ∈ ess, ∀ x ∈ xs, x.1.popDfa = false) (eoi : Nat) (inp : List Nat) :
    StatesExist ⟨xss, tr.npos, eoi, fl, inp⟩ := by
  obtain ⟨h1, _, h3⟩ := program_targets hnp hP
  have hlen : xss.length = names.length := by
    rw [← h1, ← h.bare]
    simp
  constructor
  · intro xs hxs x hx
    obtain ⟨k1, _, _⟩ := h3 _ (h.mem hxs) (bare x) (List.mem_map_of_mem hx)
    rcases k1 with k | k
    · rcases hpop with hp | hp
      · exact .inl ⟨hp, k⟩
      · rw [hp _ (h.mem hxs) (bare x) (List.mem_map_of_mem hx)] at k
        cases k
    · exact .inr (show _ < xss.length by rw [hlen]; exact k)
  · intro xs hxs x hx hne
    obtain ⟨_, k2, _⟩ := h3 _ (h.mem hxs) (bare x) (List.mem_map_of_mem hx)
    rcases k2 with k | k
    · exact absurd k hne
    · show _ < xss.length
      rw [hlen]
      exact k

theorem Ran.ruleSet {E : TokEnv} {tr : Traits} {f : ReFlags} {names : List (List Nat)} {M : List (List Nat × Re)} {ess : List (List SRule)}
    {o : RulesObj} {xss : List (List SRule)} (h : Ran E tr f names M ess o xss) (hA : AnyRules tr o.rules xss)
    (he : ∀ xs ∈ ess, ∀ x ∈ xs, NoEol x.2) : RuleSet tr o.rules xss := by
  refine ⟨hA.states, hA.den, hA.sets, hA.bolHead, fun xs hxs x hx => he _ (h.mem hxs) (InStates.bare x) (List.mem_map_of_mem hx), ?_, ?_, hA.bolBit⟩
  · intro xs hxs x hx
    obtain ⟨_, r, hr, hg, _⟩ := h.held.each xs hxs x hx
    rw [hr]
    exact hg
  · intro xs hxs
    have h1 := hA.count xs hxs
    have h2 : ∀ (l : List SRule), (l.map fun x => setsOf tr x.2).sum ≤ (l.map fun x => setsOf tr x.2 + 2 * dollarsOf x.2).sum := by
      intro l
      induction l with
      | nil => simp
      | cons a l ih => simp only [List.map_cons, List.sum_cons]; omega
    have := h2 xs
    omega

end Lexertl.InStates
