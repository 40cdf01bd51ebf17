import Verif.Proofs.FeatBuild

/-
The features of a machine say nothing that its rules do not need.
-/
namespace Lexertl.FeatOnly
open Spec Feat

variable {tr : Traits}

/-- The bits of a machine are those of its lexer states, and the bit for several states. -/
theorem bits {addr : Nat → Nat} {R : Rules} {sm : Internals} (hl : R.features.length = R.states.length)
    (h : buildTemp tr addr R = .ok sm) (k : Nat) : hasBit sm.features (2 ^ k) = true ↔
      (∃ f ∈ R.features, hasBit f (2 ^ k) = true) ∨ (k = 4 ∧ 1 < R.states.length) := by
  obtain ⟨outs, rfl, o2, _⟩ := buildTemp_ok (T := fun _ _ _ => True) trivial (fun _ _ _ _ => trivial) h
  show hasBit ((R.features.take outs.length).foldl (· ||| ·) 0 ||| (if outs.length > 1 then 16 else 0)) (2 ^ k) = true ↔ _
  have z : hasBit 0 (2 ^ k) = false := by rw [hasBit_test, Nat.zero_testBit]
  have e : hasBit 16 (2 ^ k) = true ↔ k = 4 := by
    rw [hasBit_test, show (16 : Nat) = 2 ^ 4 from rfl, Nat.testBit_two_pow]
    simp [eq_comm]
  rw [hasBit_or, Bool.or_eq_true, foldl_bit, o2, ← hl, List.take_length, z]
  by_cases hm : R.features.length > 1
  · rw [if_pos hm, e]
    simp [hm]
  · rw [if_neg hm, z]
    simp [hm]

/-- The bits of the feature word are needed; `len` is the number of lexer states. -/
structure Only (npos len : Nat) (rs : List Rule) (f : Nat) : Prop where
  bol : hasBit f 1 = true → ∃ r ∈ rs, Rule.Has r (· = .bol)
  eol : hasBit f 2 = true → ∃ r ∈ rs, Rule.Has r (· = .eol)
  skip : hasBit f 4 = true → ∃ r ∈ rs, r.id = npos - 1
  again : hasBit f 8 = true → ∃ r ∈ rs, r.id = 0
  stack : hasBit f 32 = true → (∃ r ∈ rs, r.popDfa = true ∨ r.pushDfa ≠ npos) ∨ npos < len
  few : f < 64 ∧ hasBit f 16 = false

def ObjOnly (npos : Nat) (o : RulesObj) : Prop :=
  ∀ (i : Nat) rs f, o.states[i]? = some rs → o.features[i]? = some f → Only npos o.states.length rs f

theorem only_nil (npos len : Nat) : Only npos len [] 0 := by
  refine ⟨?_, ?_, ?_, ?_, ?_, by decide⟩ <;> intro h <;> cases h

theorem or_lt {a b : Nat} (ha : a < 64) (hb : b < 64) : a ||| b < 64 := Nat.or_lt_two_pow (n := 6) ha hb

theorem Only.append {npos len : Nat} {rs rs' : List Rule} {f f' : Nat} (h : Only npos len rs f) (h' : Only npos len rs' f') :
    Only npos len (rs ++ rs') (f ||| f') := by
  have b : ∀ k, hasBit (f ||| f') (2 ^ k) = true → hasBit f (2 ^ k) = true ∨ hasBit f' (2 ^ k) = true := fun k h => by
    rw [hasBit_or, Bool.or_eq_true] at h; exact h
  have m : ∀ {P : Rule → Prop}, ((∃ r ∈ rs, P r) ∨ ∃ r ∈ rs', P r) → ∃ r ∈ rs ++ rs', P r := by
    rintro P (⟨r, h, g⟩ | ⟨r, h, g⟩)
    · exact ⟨r, List.mem_append.2 (.inl h), g⟩
    · exact ⟨r, List.mem_append.2 (.inr h), g⟩
  refine ⟨fun g => m ((b 0 g).imp h.bol h'.bol), fun g => m ((b 1 g).imp h.eol h'.eol), fun g => m ((b 2 g).imp h.skip h'.skip),
    fun g => m ((b 3 g).imp h.again h'.again), fun g => ?_, or_lt h.few.1 h'.few.1, ?_⟩
  · rcases b 5 g with g | g
    · exact (h.stack g).imp (fun g => m (.inl g)) id
    · exact (h'.stack g).imp (fun g => m (.inr g)) id
  · have := hasBit_or f f' 4
    rw [show (2 : Nat) ^ 4 = 16 from rfl, h.few.2, h'.few.2] at this
    exact this

theorem extend_only {npos : Nat} {o : RulesObj} (h : ObjOnly npos o) {curr : Nat} {rs : List Rule} {f : Nat}
    (hn : Only npos o.states.length rs f) : ObjOnly npos (o.extend curr rs f) := by
  intro i rs' f' hr hf
  have hl : (o.extend curr rs f).states.length = o.states.length := by simp [RulesObj.extend]
  rw [hl]
  simp only [RulesObj.extend, List.getElem?_modify] at hr hf
  obtain ⟨rs0, hr0, hr⟩ := Option.map_eq_some_iff.1 hr
  obtain ⟨f0, hf0, hf⟩ := Option.map_eq_some_iff.1 hf
  by_cases hi : curr = i
  · rw [if_pos hi] at hf hr
    subst hf hr
    exact (h i rs0 f0 hr0 hf0).append hn
  · rw [if_neg hi] at hf hr
    subst hf hr
    exact h i _ _ hr0 hf0

theorem features_only {npos len : Nat} {tss : List (List Tok)} {first last : List Tok} (h1 : first ∈ tss) (h2 : last ∈ tss)
    {id : Nat} {b : Bool} {f : Nat} (hq : npos = tr.npos) (hf : RulesObj.ruleFeatures tr first last id b = .ok f) {mk : List Tok → Rule}
    (hm : ∀ ts, (mk ts).regex = ts ∧ (mk ts).id = id)
    (hs : b = true → ∀ ts, ((mk ts).popDfa = true ∨ (mk ts).pushDfa ≠ npos) ∨ npos < len) : Only npos len (tss.map mk) f := by
  subst hq
  unfold RulesObj.ruleFeatures at hf
  split at hf
  · rename_i x y e1 e2
    cases hf
    have has : ∀ {ts : List Tok} {t : Tok} {i : Nat} {P : TT → Prop}, ts ∈ tss → ts[i]? = some t → P t.type →
        ∃ r ∈ tss.map mk, Rule.Has r P := fun {ts t i P} hts ht hP =>
      ⟨mk ts, List.mem_map.2 ⟨ts, hts, rfl⟩, t, by rw [(hm ts).1]; exact List.mem_of_getElem? ht, hP⟩
    refine ⟨fun g => has h1 e1 ?_, fun g => has h2 e2 ?_, fun g => ⟨mk first, List.mem_map.2 ⟨_, h1, rfl⟩, ?_⟩,
      fun g => ⟨mk first, List.mem_map.2 ⟨_, h1, rfl⟩, ?_⟩, fun g => ?_, ?_⟩
    · revert g; clear e1
      repeat' split
      all_goals first | (intro _; assumption) | (intro g; exact absurd g (by decide))
    · revert g; clear e2
      repeat' split
      all_goals first | (intro _; assumption) | (intro g; exact absurd g (by decide))
    · rw [(hm first).2]
      revert g; clear e1 e2
      repeat' split
      all_goals first | (intro _; assumption) | (intro g; exact absurd g (by decide))
    · rw [(hm first).2]
      revert g; clear e1 e2
      repeat' split
      all_goals first | (intro _; assumption) | (intro g; exact absurd g (by decide))
    · have : b = true := by
        revert g; clear e1 e2
        repeat' split
        all_goals first | (intro _; assumption) | (intro g; exact absurd g (by decide))
      exact (hs this first).imp (fun g => ⟨mk first, List.mem_map.2 ⟨_, h1, rfl⟩, g⟩) (fun g => g)
    · clear e1 e2
      repeat' split
      all_goals decide
  · cases hf

theorem pushInitial_only {E : TokEnv} {o : RulesObj} (hr : ObjOnly tr.npos o) (regex : List Nat) (id userId : Nat) :
    ObjOnly tr.npos (o.pushInitial E tr regex id userId).1 := by
  unfold RulesObj.pushInitial
  cases checkId tr id with
  | error e => exact hr
  | ok u =>
    dsimp only
    cases tokenise E o.flags o.macros false regex with
    | error e => exact hr
    | ok tss =>
      dsimp only
      cases hh : tss.head? with
      | none => exact hr
      | some first =>
        cases hl : tss.getLast? with
        | none => exact hr
        | some last =>
          dsimp only
          cases hf : RulesObj.ruleFeatures tr first last id false with
          | error e => exact hr
          | ok f =>
            dsimp only
            split
            · exact hr
            · exact extend_only hr (features_only (List.mem_of_head? hh) (List.mem_of_getLast? hl) rfl hf (fun ts => ⟨rfl, rfl⟩)
                fun g => by cases g)

/-- The rules of a target that pushes or pops do so. -/
theorem target_stack {o : RulesObj} (h : StatesOk tr o) {t : RulesObj.Target} {ids : Nat × Nat} (hi : o.targetIds tr t = .ok ids)
    {curr : Nat} (hc : curr < o.states.length) (hr : t.recursive = true) (id userId : Nat) (ts : List Tok) :
    ((RulesObj.mkRule tr t ids curr id userId ts).popDfa = true ∨ (RulesObj.mkRule tr t ids curr id userId ts).pushDfa ≠ tr.npos) ∨
      tr.npos < o.states.length := by
  by_cases hlen : tr.npos < o.states.length
  · exact .inr hlen
  left
  cases t with
  | stay => cases hr
  | goto n => cases hr
  | pop => exact .inl rfl
  | push n e =>
    right
    unfold RulesObj.targetIds at hi
    dsimp only at hi
    cases e with
    | none => show curr ≠ tr.npos; omega
    | some e =>
      show ids.2 ≠ tr.npos
      split at hi
      · cases hi
      · dsimp only at hi
        split at hi
        · cases hi
        · rename_i j hj
          cases hi
          have := find_lt h hj
          dsimp only
          omega

theorem pushLoop_only {E : TokEnv} {regex : List Nat} {t : RulesObj.Target} {ids : Nat × Nat} {id userId len : Nat}
    (hs : ∀ curr, curr < len → t.recursive = true → ∀ id userId ts,
      ((RulesObj.mkRule tr t ids curr id userId ts).popDfa = true ∨ (RulesObj.mkRule tr t ids curr id userId ts).pushDfa ≠ tr.npos) ∨
      tr.npos < len) :
    ∀ (currs : List Nat) (o : RulesObj), ObjOnly tr.npos o → o.states.length = len →
    ObjOnly tr.npos (RulesObj.pushLoop E tr regex t ids id userId currs o).1
  | [], o, h, _ => h
  | curr :: currs, o, hr, hlen => by
    unfold RulesObj.pushLoop
    cases tokenise E o.flags o.macros false regex with
    | error e => exact hr
    | ok tss =>
      dsimp only
      cases hl : tss.getLast? with
      | none => exact hr
      | some last =>
        dsimp only
        cases hf : RulesObj.ruleFeatures tr last last id t.recursive with
        | error e => exact hr
        | ok f =>
          dsimp only
          split
          · rename_i hc
            refine pushLoop_only hs currs _ ?_ (by simp [RulesObj.extend, hlen])
            have hm := List.mem_of_getLast? hl
            refine extend_only hr (features_only hm hm rfl hf (fun ts => ?_) fun g ts => ?_)
            · unfold RulesObj.mkRule
              split <;> exact ⟨rfl, rfl⟩
            · rw [hlen]; exact hs curr (by omega) g id userId ts
          · exact hr

theorem pushNamed_only {E : TokEnv} {o : RulesObj} (h : StatesOk tr o) (hr : ObjOnly tr.npos o) (regex : List Nat)
    (currDfa : List Nat) (id : Option Nat) (newDfa : List Nat) (userId : Nat) :
    ObjOnly tr.npos (o.pushNamed E tr currDfa regex id newDfa userId).1 := by
  unfold RulesObj.pushNamed
  cases hpl : o.pushPlan tr currDfa id newDfa with
  | error e => exact hr
  | ok x =>
    obtain ⟨t, ids, currs⟩ := x
    unfold RulesObj.pushPlan at hpl
    have fin : (do
        let t ← RulesObj.parseTarget newDfa
        let ids ← o.targetIds tr t
        let currs ← o.currStates tr currDfa
        .ok (t, ids, currs) : M (RulesObj.Target × (Nat × Nat) × List Nat)) = .ok (t, ids, currs) →
        ObjOnly tr.npos (RulesObj.pushLoop E tr regex t ids (id.getD 0) userId currs o).1 := by
      intro hpl
      obtain ⟨t', _, hpl⟩ := bind_ok hpl
      obtain ⟨ids', h2, hpl⟩ := bind_ok hpl
      obtain ⟨currs', h3, hpl⟩ := bind_ok hpl
      cases hpl
      exact pushLoop_only (fun curr hc => target_stack h h2 hc) currs o hr rfl
    cases id with
    | none => exact fin hpl
    | some id =>
      obtain ⟨u, h1, hpl⟩ := bind_ok hpl
      exact fin hpl

theorem new_only (npos : Nat) (flags : ReFlags) : ObjOnly npos (RulesObj.new tr flags) := by
  obtain ⟨_, h2, _, h4⟩ := new_statesOk tr flags
  intro i rs f hi hf
  rw [h2] at hi
  rw [h4] at hf
  cases i with
  | zero => simp at hi hf; subst hi hf; exact only_nil _ _
  | succ i => simp at hi

theorem Only.grow {npos len len' : Nat} {rs : List Rule} {f : Nat} (h : Only npos len rs f) (hl : len ≤ len') : Only npos len' rs f :=
  ⟨h.bol, h.eol, h.skip, h.again, fun g => (h.stack g).imp id fun g => by omega, h.few⟩

theorem run_only {E : TokEnv} {o : RulesObj} (h : StatesOk tr o) (hr : ObjOnly tr.npos o) (c : Call) :
    ObjOnly tr.npos (c.run E tr o).1 := by
  cases c with
  | pushState name =>
    show ObjOnly tr.npos (o.pushState tr name).1
    rcases pushState_cases h name with e | ⟨i, _, e⟩ | ⟨_, _, o', ho', e⟩
    · rw [e]; exact hr
    · rw [e]; exact hr
    · rw [e, ho']
      intro i rs f hi hf
      dsimp only at hi hf ⊢
      rw [List.getElem?_append] at hi hf
      split at hi
      · rename_i hl
        rw [if_pos (by rw [h.features, ← h.states]; exact hl)] at hf
        exact (hr i rs f hi hf).grow (by simp)
      · rename_i hl
        rw [if_neg (by rw [h.features, ← h.states]; exact hl)] at hf
        have e1 := List.mem_of_getElem? hi
        have e2 := List.mem_of_getElem? hf
        simp only [List.mem_singleton] at e1 e2
        subst e1 e2
        exact only_nil _ _
  | clear => exact new_only _ {}
  | clearState dfa =>
    show ObjOnly tr.npos (o.clearState dfa)
    unfold RulesObj.clearState
    split
    · intro i rs f hi hf
      dsimp only at hi hf ⊢
      rw [List.length_set]
      rw [List.getElem?_set] at hi hf
      by_cases hne : dfa = i
      · rw [if_pos hne] at hi hf
        split at hi <;> split at hf
        all_goals
          cases hi
          try cases hf
          try exact only_nil _ _
      · rw [if_neg hne] at hi hf
        exact hr i rs f hi hf
    · exact hr
  | setFlags f => exact hr
  | insertMacro n r =>
    show ObjOnly tr.npos (o.insertMacro E n r).1
    have : (o.insertMacro E n r).1.states = o.states ∧ (o.insertMacro E n r).1.features = o.features := by
      unfold RulesObj.insertMacro
      dsimp only
      repeat' split
      all_goals exact ⟨rfl, rfl⟩
    intro i rs f hi hf
    rw [this.1] at hi ⊢
    rw [this.2] at hf
    exact hr i rs f hi hf
  | push r i u => exact pushInitial_only hr r i u
  | pushIn a b i c u => exact pushNamed_only h hr b a i c u

theorem careful_only {E : TokEnv} (hE : TokEnvOk E) (hnpos : 2 < tr.npos) {o o' : RulesObj} {cs : List Call}
    (h : Careful E tr o cs o') (ho : ObjOk E tr o) (hr : ObjOnly tr.npos o) : ObjOnly tr.npos o' := by
  induction h with
  | nil => exact hr
  | cons o c cs o' h1 h2 _ ih => exact ih (run_objOk hE (by omega) ho h1 h2) (run_only ho.states hr c)

theorem onlyRecorded {E : TokEnv} {o : RulesObj} (h : ObjOk E tr o) (hr : ObjOnly tr.npos o) (hlen : o.states.length ≤ tr.npos) :
    OnlyRecorded tr.npos o.rules := by
  refine ⟨fun i rs f h1 h2 => (hr i rs f h1 h2).bol, fun i rs f h1 h2 => (hr i rs f h1 h2).eol,
    fun i rs f h1 h2 => (hr i rs f h1 h2).skip, fun i rs f h1 h2 => (hr i rs f h1 h2).again,
    fun i rs f h1 h2 g => ((hr i rs f h1 h2).stack g).resolve_right (by omega), fun f hf => ?_⟩
  obtain ⟨i, hi⟩ := List.getElem?_of_mem (show f ∈ o.features from hf)
  have hl : i < o.states.length := by
    have := (List.getElem?_eq_some_iff.1 hi).1
    rw [h.states.features, ← h.states.states] at this
    exact this
  exact (hr i _ f (List.getElem?_eq_getElem hl) hi).few

end Lexertl.FeatOnly
