import Verif.Spec.Rules

/-
The rules object: lexer states, and what failed calls leave behind.
-/
namespace Lexertl
open Spec

/-- Pairs of names and indices. -/
def numbered (tr : Traits) : Nat → List (List Nat) → List (List Nat × Nat)
  | _, [] => []
  | i, n :: ns => (n, tr.toId i) :: numbered tr (i + 1) ns

theorem numbered_length (tr : Traits) : ∀ (i : Nat) (ns : List (List Nat)), (numbered tr i ns).length = ns.length
  | _, [] => rfl
  | i, _ :: ns => by simp [numbered, numbered_length tr (i + 1) ns]

theorem numbered_append (tr : Traits) : ∀ (i : Nat) (ns ms : List (List Nat)),
    numbered tr i (ns ++ ms) = numbered tr i ns ++ numbered tr (i + ns.length) ms
  | _, [], _ => rfl
  | i, _ :: ns, ms => by
    simp only [List.cons_append, numbered, numbered_append tr (i + 1) ns ms, List.length_cons]
    rw [show i + 1 + ns.length = i + (ns.length + 1) by omega]

/-- The state names in order of their indices. -/
def RulesObj.stateNames (o : RulesObj) : List (List Nat) := initialName :: o.names

/-- What holds of every rules object. -/
structure StatesOk (tr : Traits) (o : RulesObj) : Prop where
  map : o.statemap = numbered tr 0 o.stateNames
  nodup : o.stateNames.Nodup
  valid : ∀ n ∈ o.stateNames, validName n = true
  states : o.states.length = o.stateNames.length
  features : o.features.length = o.stateNames.length

theorem find_numbered (tr : Traits) (name : List Nat) : ∀ (i : Nat) (ns : List (List Nat)), ns.Nodup → ∀ v,
    find name (numbered tr i ns) = some v ↔ ∃ j : Nat, ns[j]? = some name ∧ v = tr.toId (i + j)
  | i, [], _, v => by simp [numbered, find]
  | i, n :: ns, hd, v => by
    rw [List.nodup_cons] at hd
    simp only [numbered, find]
    split
    · rename_i hn
      subst hn
      simp only [Option.some.injEq]
      constructor
      · intro h; exact ⟨0, rfl, h.symm⟩
      · rintro ⟨j, h1, h2⟩
        cases j with
        | zero => exact h2.symm
        | succ j =>
          rw [List.getElem?_cons_succ] at h1
          exact (hd.1 (List.mem_of_getElem? h1)).elim
    · rename_i hn
      rw [find_numbered tr name (i + 1) ns hd.2 v]
      constructor
      · rintro ⟨j, h1, h2⟩
        exact ⟨j + 1, h1, by rw [h2]; congr 1; omega⟩
      · rintro ⟨j, h1, h2⟩
        cases j with
        | zero => simp at h1; exact (hn h1).elim
        | succ j => exact ⟨j, h1, by rw [h2]; congr 1; omega⟩

theorem find_none (tr : Traits) (name : List Nat) : ∀ (i : Nat) (ns : List (List Nat)),
    find name (numbered tr i ns) = none ↔ name ∉ ns
  | i, [] => by simp [numbered, find]
  | i, n :: ns => by
    simp only [numbered, find]
    split
    · rename_i hn; simp [hn]
    · rename_i hn
      rw [find_none tr name (i + 1) ns, List.mem_cons, not_or]
      constructor
      · intro h; exact ⟨fun e => hn e.symm, h⟩
      · intro h; exact h.2

theorem initial_valid : validName initialName = true := by decide

theorem new_statesOk (tr : Traits) (flags : ReFlags) : StatesOk tr (RulesObj.new tr flags) ∧
    (RulesObj.new tr flags).states = [[]] ∧ (RulesObj.new tr flags).macros = [] ∧ (RulesObj.new tr flags).features = [0] := by
  have h : RulesObj.new tr flags = ⟨flags, [(initialName, tr.toId 0)], [], [], [0], [[]]⟩ := by
    unfold RulesObj.new RulesObj.pushState
    rw [if_neg (by simp [initial_valid])]
    simp only [find, List.length_nil, List.nil_append, ne_eq, not_true, if_false]
    split <;> rfl
  rw [h]
  exact ⟨⟨rfl, by simp [RulesObj.stateNames], by simp [RulesObj.stateNames, initial_valid], rfl, rfl⟩, rfl, rfl, rfl⟩

theorem pushState_cases {tr : Traits} {o : RulesObj} (h : StatesOk tr o) (name : List Nat) :
    (o.pushState tr name = (o, throw_ "Invalid name")) ∨
    (∃ i : Nat, o.stateNames[i]? = some name ∧ o.pushState tr name = (o, .ok (tr.toId i))) ∨
    (name ∉ o.stateNames ∧ validName name = true ∧ ∃ o',
      o' = { o with statemap := o.statemap ++ [(name, tr.toId o.statemap.length)], states := o.states ++ [[]],
                    features := o.features ++ [0], names := o.names ++ [name] } ∧
      o.pushState tr name = (o', if o'.states.length > tr.npos then
        throw_ "The id_type you have chosen cannot hold this many lexer start states." else .ok (tr.toId o'.names.length))) := by
  unfold RulesObj.pushState
  split
  · exact .inl rfl
  · rename_i hv
    right
    split
    · rename_i v hf
      rw [h.map, find_numbered _ _ _ _ h.nodup] at hf
      obtain ⟨j, h1, h2⟩ := hf
      exact .inl ⟨j, h1, by rw [h2, Nat.zero_add]⟩
    · rename_i hf
      rw [h.map, find_none] at hf
      have hne : name ≠ initialName := by
        rintro rfl
        exact hf (by simp [RulesObj.stateNames])
      refine .inr ⟨hf, by simpa using hv, _, rfl, ?_⟩
      simp only [hne, ne_eq, not_false_eq_true, if_true]
      split <;> rfl

/-- The object with a further state. -/
def RulesObj.addState (tr : Traits) (o : RulesObj) (name : List Nat) : RulesObj :=
  { o with statemap := o.statemap ++ [(name, tr.toId o.statemap.length)], states := o.states ++ [[]],
           features := o.features ++ [0], names := o.names ++ [name] }

theorem pushState_new {tr : Traits} {o : RulesObj} (hs : StatesOk tr o) {a : List Nat} (hv : validName a = true) (hnot : a ∉ o.stateNames) :
    o.pushState tr a = (o.addState tr a, if o.states.length + 1 > tr.npos then
      throw_ "The id_type you have chosen cannot hold this many lexer start states." else .ok (tr.toId (o.names.length + 1))) := by
  have hne : a ≠ initialName := by
    rintro rfl
    exact hnot (by simp [RulesObj.stateNames])
  unfold RulesObj.pushState RulesObj.addState
  rw [if_neg (by simp [hv]), (show find a o.statemap = none by rw [hs.map, find_none]; exact hnot)]
  simp only [hne, ne_eq, not_false_eq_true, if_true, List.length_append, List.length_cons, List.length_nil, Nat.zero_add]
  split <;> rfl

theorem pushState_ok {tr : Traits} {o : RulesObj} (h : StatesOk tr o) (name : List Nat) :
    StatesOk tr (o.pushState tr name).1 := by
  rcases pushState_cases h name with e | ⟨i, _, e⟩ | ⟨h1, h2, o', ho', e⟩
  · rw [e]; exact h
  · rw [e]; exact h
  · rw [e, ho']
    refine ⟨?_, ?_, ?_, ?_, ?_⟩
    · simp only [RulesObj.stateNames]
      rw [← List.cons_append, numbered_append, h.map, numbered_length]
      simp [RulesObj.stateNames, numbered]
    · simp only [RulesObj.stateNames]
      rw [← List.cons_append, List.nodup_append]
      refine ⟨h.nodup, by simp, ?_⟩
      intro a ha b hb
      rw [List.mem_singleton.1 hb]
      rintro rfl
      exact h1 ha
    · intro n hn
      simp only [RulesObj.stateNames, ← List.cons_append] at hn
      rcases List.mem_append.1 hn with hn | hn
      · exact h.valid n hn
      · rw [List.mem_singleton.1 hn]; exact h2
    · simp [RulesObj.stateNames, h.states]
    · simp [RulesObj.stateNames, h.features]

/-- The parts of the object lexer state names depend on. -/
theorem StatesOk.congr {tr : Traits} {o o' : RulesObj} (h : StatesOk tr o) (h1 : o'.statemap = o.statemap)
    (h2 : o'.names = o.names) (h3 : o'.states.length = o.states.length) (h4 : o'.features.length = o.features.length) :
    StatesOk tr o' := by
  have : o'.stateNames = o.stateNames := by simp [RulesObj.stateNames, h2]
  exact ⟨by rw [h1, this]; exact h.map, by rw [this]; exact h.nodup, by rw [this]; exact h.valid,
    by rw [h3, this]; exact h.states, by rw [h4, this]; exact h.features⟩

/-- Calls that leave the lexer state names alone. -/
structure SameNames (o o' : RulesObj) : Prop where
  statemap : o'.statemap = o.statemap
  names : o'.names = o.names
  states : o'.states.length = o.states.length
  features : o'.features.length = o.features.length

theorem SameNames.refl (o : RulesObj) : SameNames o o := ⟨rfl, rfl, rfl, rfl⟩

theorem extend_same (o : RulesObj) (curr : Nat) (rs : List Rule) (f : Nat) : SameNames o (o.extend curr rs f) :=
  ⟨rfl, rfl, by simp [RulesObj.extend], by simp [RulesObj.extend]⟩

theorem SameNames.trans {a b c : RulesObj} (h : SameNames a b) (h' : SameNames b c) : SameNames a c :=
  ⟨h'.1.trans h.1, h'.2.trans h.2, h'.3.trans h.3, h'.4.trans h.4⟩

theorem pushLoop_same (E : TokEnv) (tr : Traits) (regex : List Nat) (t : RulesObj.Target) (ids : Nat × Nat) (id userId : Nat) :
    ∀ (currs : List Nat) (o : RulesObj), SameNames o (RulesObj.pushLoop E tr regex t ids id userId currs o).1
  | [], o => SameNames.refl o
  | curr :: currs, o => by
    unfold RulesObj.pushLoop
    split
    · exact SameNames.refl o
    split
    · exact SameNames.refl o
    split
    · exact SameNames.refl o
    split
    · exact (extend_same ..).trans (pushLoop_same E tr regex t ids id userId currs _)
    · exact SameNames.refl o

theorem pushNamed_same (E : TokEnv) (tr : Traits) (a b : List Nat) (id : Option Nat) (c : List Nat) (u : Nat) (o : RulesObj) :
    SameNames o (o.pushNamed E tr a b id c u).1 := by
  unfold RulesObj.pushNamed
  split
  · exact SameNames.refl o
  · exact pushLoop_same ..

theorem pushInitial_same (E : TokEnv) (tr : Traits) (b : List Nat) (id u : Nat) (o : RulesObj) :
    SameNames o (o.pushInitial E tr b id u).1 := by
  unfold RulesObj.pushInitial
  repeat' split
  all_goals first | exact SameNames.refl o | exact extend_same ..

theorem insertMacro_same (E : TokEnv) (name regex : List Nat) (o : RulesObj) : SameNames o (o.insertMacro E name regex).1 := by
  unfold RulesObj.insertMacro
  repeat' first | split | dsimp only
  all_goals exact ⟨rfl, rfl, rfl, rfl⟩

theorem clearState_same (dfa : Nat) (o : RulesObj) : SameNames o (o.clearState dfa) := by
  unfold RulesObj.clearState
  split
  · exact ⟨rfl, rfl, by simp, by simp⟩
  · exact SameNames.refl o

theorem run_statesOk {E : TokEnv} {tr : Traits} {o : RulesObj} (h : StatesOk tr o) (c : Call) :
    StatesOk tr (c.run E tr o).1 := by
  have same : ∀ {o'}, SameNames o o' → StatesOk tr o' := fun s => h.congr s.1 s.2 s.3 s.4
  cases c with
  | pushState name => exact pushState_ok h name
  | clear => exact (new_statesOk tr {}).1
  | clearState dfa => exact same (clearState_same ..)
  | setFlags f => exact same ⟨rfl, rfl, rfl, rfl⟩
  | insertMacro n r => exact same (insertMacro_same ..)
  | push r i u => exact same (pushInitial_same ..)
  | pushIn a b i c u => exact same (pushNamed_same ..)

theorem calls_statesOk {E : TokEnv} {tr : Traits} {o o' : RulesObj} {cs : List Call} (h : Calls E tr o cs o')
    (ho : StatesOk tr o) : StatesOk tr o' := by
  induction h with
  | nil => exact ho
  | cons o c cs o' _ _ ih => exact ih (run_statesOk ho c)

/-- The names only grow. -/
theorem run_prefix {E : TokEnv} {tr : Traits} {o : RulesObj} (h : StatesOk tr o) (c : Call) (hc : c ≠ .clear) :
    o.stateNames <+: (c.run E tr o).1.stateNames := by
  have same : ∀ {o'}, SameNames o o' → o.stateNames <+: o'.stateNames := fun s => by
    unfold RulesObj.stateNames; rw [s.names]; exact List.prefix_refl _
  cases c with
  | pushState name =>
    show o.stateNames <+: (o.pushState tr name).1.stateNames
    rcases pushState_cases h name with e | ⟨i, _, e⟩ | ⟨h1, h2, o', ho', e⟩
    · rw [e]; exact List.prefix_refl _
    · rw [e]; exact List.prefix_refl _
    · rw [e, ho']; exact ⟨[name], rfl⟩
  | clear => exact (hc rfl).elim
  | clearState dfa => exact same (clearState_same ..)
  | setFlags f => exact same ⟨rfl, rfl, rfl, rfl⟩
  | insertMacro n r => exact same (insertMacro_same ..)
  | push r i u => exact same (pushInitial_same ..)
  | pushIn a b i c u => exact same (pushNamed_same ..)

theorem calls_prefix {E : TokEnv} {tr : Traits} {o o' : RulesObj} {cs : List Call} (h : Calls E tr o cs o')
    (ho : StatesOk tr o) (hc : .clear ∉ cs) : o.stateNames <+: o'.stateNames := by
  induction h with
  | nil => exact List.prefix_refl _
  | cons o c cs o' _ _ ih =>
    simp only [List.mem_cons, not_or] at hc
    exact (run_prefix ho c (fun e => hc.1 e.symm)).trans (ih (run_statesOk ho c) hc.2)

theorem toId_small {tr : Traits} {i : Nat} (h : i ≤ tr.npos) : tr.toId i = i := Nat.mod_eq_of_lt (by omega)

theorem stateId_iff {tr : Traits} {o : RulesObj} (h : StatesOk tr o) (hn : o.states.length ≤ tr.npos) (name : List Nat) (i : Nat)
    (hi : i < o.states.length) : o.stateId tr name = i ↔ o.stateNames[i]? = some name := by
  have hs := h.states
  unfold RulesObj.stateId
  rw [h.map]
  cases hf : find name (numbered tr 0 o.stateNames) with
  | none =>
    rw [find_none] at hf
    constructor
    · intro e; simp at e; omega
    · intro e; exact (hf (List.mem_of_getElem? e)).elim
  | some v =>
    rw [find_numbered _ _ _ _ h.nodup] at hf
    obtain ⟨j, h1, h2⟩ := hf
    have hj : j < o.stateNames.length := (List.getElem?_eq_some_iff.1 h1).1
    rw [Nat.zero_add, toId_small (by omega)] at h2
    subst h2
    simp only [Option.getD_some]
    constructor
    · rintro rfl; exact h1
    · intro e
      exact (List.getElem?_inj hj h.nodup).1 (h1.trans e.symm)

theorem stateName_eq {tr : Traits} {o : RulesObj} (i : Nat) (hi : i ≤ tr.npos + 1) :
    o.stateName tr i = o.stateNames[i]? := by
  unfold RulesObj.stateName RulesObj.stateNames
  cases i with
  | zero => rfl
  | succ i =>
    rw [if_neg (by omega), toId_small (by omega)]
    rfl

/-! ### Failed calls -/

theorem tokenise_same {E : TokEnv} {o : RulesObj} {curr : Nat} {rs : List Rule} {f : Nat} (regex : List Nat) :
    tokenise E (o.extend curr rs f).flags (o.extend curr rs f).macros false regex = tokenise E o.flags o.macros false regex := rfl

theorem pushLoop_throw {E : TokEnv} {tr : Traits} {regex : List Nat} {t : RulesObj.Target} {ids : Nat × Nat} {id userId : Nat}
    {tss : List (List Tok)} : ∀ (currs : List Nat) (o : RulesObj), tokenise E o.flags o.macros false regex = .ok tss →
    ∀ msg, (RulesObj.pushLoop E tr regex t ids id userId currs o).2 ≠ .error (.throw msg)
  | [], o, _, msg => by simp [RulesObj.pushLoop]
  | curr :: currs, o, h, msg => by
    unfold RulesObj.pushLoop
    rw [h]
    dsimp only
    split
    · simp
    · split
      · rename_i e he
        unfold RulesObj.ruleFeatures at he
        split at he
        · contradiction
        · simp only [Except.error.injEq] at he
          subst he
          simp
      · split
        · exact pushLoop_throw (tss := tss) currs (RulesObj.extend _ _ _ _) h msg
        · simp

theorem pushNamed_throw {E : TokEnv} {tr : Traits} {a b : List Nat} {id : Option Nat} {c : List Nat} {u : Nat} {o o' : RulesObj}
    {msg : String} (h : o.pushNamed E tr a b id c u = (o', .error (.throw msg))) : o' = o := by
  unfold RulesObj.pushNamed at h
  split at h
  · simp only [Prod.mk.injEq] at h; exact h.1.symm
  · rename_i currs _
    cases currs with
    | nil => simp [RulesObj.pushLoop] at h
    | cons curr currs =>
      unfold RulesObj.pushLoop at h
      split at h
      · simp only [Prod.mk.injEq] at h; exact h.1.symm
      · rename_i tss htok
        split at h
        · simp only [Prod.mk.injEq] at h; exact h.1.symm
        split at h
        · simp only [Prod.mk.injEq] at h; exact h.1.symm
        split at h
        · have hs := congrArg Prod.snd h
          exact (pushLoop_throw (tss := tss) currs (RulesObj.extend _ _ _ o) (show tokenise E o.flags o.macros false b = _ from htok) msg hs).elim
        · simp at h

theorem pushInitial_throw {E : TokEnv} {tr : Traits} {b : List Nat} {id u : Nat} {o o' : RulesObj} {e : Fault}
    (h : o.pushInitial E tr b id u = (o', .error e)) : o' = o := by
  unfold RulesObj.pushInitial at h
  repeat' split at h
  all_goals
    simp only [Prod.mk.injEq, reduceCtorEq, and_false] at h
    try exact h.1.symm

theorem modify_getElem? {α : Type} (l : List α) (f : α → α) (c i : Nat) :
    (l.modify c f)[i]? = if c = i then l[i]?.map f else l[i]? := by
  rw [List.getElem?_modify]
  by_cases h : c = i
  · simp [h]
  · simp [h]

/-- The loop over the states adds the same rules to each of them. -/
theorem pushLoop_done {E : TokEnv} {tr : Traits} {regex : List Nat} {t : RulesObj.Target} {ids : Nat × Nat} {id userId : Nat}
    {tss : List (List Tok)} : ∀ (currs : List Nat) (o : RulesObj), tokenise E o.flags o.macros false regex = .ok tss →
    ∀ o', RulesObj.pushLoop E tr regex t ids id userId currs o = (o', .ok ()) →
      o'.flags = o.flags ∧ o'.macros = o.macros ∧
      ∀ i : Nat, o'.states[i]? = o.states[i]?.map
        (· ++ (List.replicate (currs.count i) (tss.map (RulesObj.mkRule tr t ids i id userId))).flatten)
  | [], o, _, o', he => by
    simp only [RulesObj.pushLoop, Prod.mk.injEq] at he
    rw [← he.1]
    refine ⟨rfl, rfl, fun i => ?_⟩
    simp
  | curr :: currs, o, h, o', he => by
    unfold RulesObj.pushLoop at he
    rw [h] at he
    dsimp only at he
    split at he
    · simp at he
    split at he
    · simp at he
    rename_i f _
    split at he
    · obtain ⟨h1, h2, h3⟩ := pushLoop_done currs _ (show tokenise E (o.extend curr _ f).flags (o.extend curr _ f).macros false regex = .ok tss from h) o' he
      refine ⟨h1, h2, fun i => ?_⟩
      rw [h3 i]
      have : (o.extend curr (tss.map (RulesObj.mkRule tr t ids curr id userId)) f).states[i]? =
          if curr = i then o.states[i]?.map (· ++ tss.map (RulesObj.mkRule tr t ids curr id userId)) else o.states[i]? := by
        unfold RulesObj.extend
        exact modify_getElem? ..
      rw [this]
      by_cases hc : curr = i
      · subst hc
        rw [if_pos rfl, List.count_cons_self, List.replicate_succ, List.flatten_cons, Option.map_map]
        congr 1
        funext x
        simp
      · rw [if_neg hc, List.count_cons_of_ne hc]
    · simp at he

end Lexertl
