import Verif.Proofs.RulesObj
import Verif.Proofs.MacroExt

/-
What holds of the rules object after any calls.
-/
namespace Lexertl
open Spec

/-- A rule: its tokens, and where it leads to. -/
structure RuleOk (max npos len : Nat) (r : Rule) : Prop where
  whole : WholeOk max r.regex
  anch : WholeAnch r.regex
  next : r.popDfa = true ∨ r.nextDfa < len
  push : r.pushDfa = npos ∨ r.pushDfa < len
  id : r.id ≠ npos

/-- A lexer state: its rules and its features. -/
structure ObjStateOk (max npos len : Nat) (rs : List Rule) (f : Nat) : Prop where
  rules : ∀ r ∈ rs, RuleOk max npos len r
  bol : (∃ r ∈ rs, Rule.Has r (· = .bol)) → f % 2 = 1 ∨ ∃ r ∈ rs, Rule.Has r (fun t => isLazy t = true)

structure ObjOk (E : TokEnv) (tr : Traits) (o : RulesObj) : Prop where
  states : StatesOk tr o
  macros : MacrosOk E.max o.macros
  anch : MacrosAnch o.macros
  state : ∀ (i : Nat) rs f, o.states[i]? = some rs → o.features[i]? = some f → ObjStateOk E.max tr.npos o.states.length rs f

theorem RuleOk.mono {max npos len len' : Nat} {r : Rule} (h : RuleOk max npos len r) (hl : len ≤ len') : RuleOk max npos len' r :=
  ⟨h.whole, h.anch, h.next.imp_right fun h => by omega, h.push.imp_right fun h => by omega, h.id⟩

theorem ObjStateOk.mono {max npos len len' : Nat} {rs : List Rule} {f : Nat} (h : ObjStateOk max npos len rs f) (hl : len ≤ len') :
    ObjStateOk max npos len' rs f := ⟨fun r hr => (h.rules r hr).mono hl, h.bol⟩

theorem stateOk_nil {max npos len f : Nat} : ObjStateOk max npos len [] f := ⟨by simp, by simp⟩

theorem macros_nil {max : Nat} : MacrosOk max [] ∧ MacrosAnch [] := ⟨by intro n m h; simp [find] at h, by intro n m h; simp [find] at h⟩

theorem new_objOk (E : TokEnv) (tr : Traits) (flags : ReFlags) : ObjOk E tr (RulesObj.new tr flags) := by
  obtain ⟨h1, h2, h3, h4⟩ := new_statesOk tr flags
  refine ⟨h1, by rw [h3]; exact macros_nil.1, by rw [h3]; exact (macros_nil (max := 0)).2, ?_⟩
  intro i rs f hr _
  rw [h2] at hr
  cases i with
  | zero => simp at hr; rw [hr]; exact stateOk_nil
  | succ i => simp at hr

theorem clearState_objOk {E : TokEnv} {tr : Traits} {o : RulesObj} (h : ObjOk E tr o) (dfa : Nat) : ObjOk E tr (o.clearState dfa) := by
  refine ⟨?_, ?_, ?_, ?_⟩
  · have s := clearState_same dfa o; exact h.states.congr s.1 s.2 s.3 s.4
  · unfold RulesObj.clearState; split <;> exact h.macros
  · unfold RulesObj.clearState; split <;> exact h.anch
  · unfold RulesObj.clearState
    split
    · intro i rs f hr hf
      dsimp only at hr hf
      rw [List.getElem?_set] at hr hf
      simp only [List.length_set]
      by_cases hne : dfa = i
      · rw [if_pos hne] at hr
        by_cases hl : dfa < o.states.length
        · rw [if_pos hl] at hr; cases hr; exact stateOk_nil
        · rw [if_neg hl] at hr; cases hr
      · rw [if_neg hne] at hf hr
        exact h.state i rs f hr hf
    · exact h.state

theorem pushState_objOk {E : TokEnv} {tr : Traits} {o : RulesObj} (h : ObjOk E tr o) (name : List Nat) :
    ObjOk E tr (o.pushState tr name).1 := by
  have hs := pushState_ok h.states name
  rcases pushState_cases h.states name with e | ⟨i, _, e⟩ | ⟨_, _, o', ho', e⟩
  · rw [e]; exact h
  · rw [e]; exact h
  · refine ⟨hs, ?_, ?_, ?_⟩
    · rw [e, ho']; exact h.macros
    · rw [e, ho']; exact h.anch
    · rw [e, ho']
      intro i rs f hr hf
      dsimp only at hr hf ⊢
      rw [List.length_append]
      rw [List.getElem?_append] at hr hf
      split at hr
      · rename_i hi
        rw [if_pos (by rw [h.states.features, ← h.states.states]; exact hi)] at hf
        exact (h.state i rs f hr hf).mono (by simp)
      · rename_i hi
        have : rs = [] := by
          have := List.mem_of_getElem? hr
          simpa using this
        rw [this]; exact stateOk_nil

/-- Rules and a feature word that may be added to a lexer state. -/
structure NewRules (max npos len : Nat) (rs : List Rule) (f : Nat) : Prop where
  rules : ∀ r ∈ rs, RuleOk max npos len r
  bol : (∃ r ∈ rs, Rule.Has r (· = .bol)) → f % 2 = 1 ∨ ∃ r ∈ rs, Rule.Has r (fun t => isLazy t = true)

theorem extend_objOk {E : TokEnv} {tr : Traits} {o : RulesObj} (h : ObjOk E tr o) {curr : Nat} {rs : List Rule} {f : Nat}
    (hn : ObjStateOk E.max tr.npos o.states.length rs f) : ObjOk E tr (o.extend curr rs f) := by
  have s := extend_same o curr rs f
  refine ⟨h.states.congr s.1 s.2 s.3 s.4, h.macros, h.anch, ?_⟩
  intro i rs' f' hr hf
  rw [s.states]
  simp only [RulesObj.extend, List.getElem?_modify] at hr hf
  obtain ⟨rs0, hr0, hr⟩ := Option.map_eq_some_iff.1 hr
  obtain ⟨f0, hf0, hf⟩ := Option.map_eq_some_iff.1 hf
  by_cases hi : curr = i
  · rw [if_pos hi] at hf hr
    subst hf hr
    have h0 := h.state i rs0 f0 hr0 hf0
    constructor
    · intro r hr
      rcases List.mem_append.1 hr with hr | hr
      · exact h0.rules r hr
      · exact hn.rules r hr
    · rintro ⟨r, hr, hb⟩
      rw [Nat.or_mod_two_eq_one]
      rcases List.mem_append.1 hr with hr | hr
      · rcases h0.bol ⟨r, hr, hb⟩ with g | ⟨r', g1, g2⟩
        · exact .inl (.inl g)
        · exact .inr ⟨r', List.mem_append.2 (.inl g1), g2⟩
      · rcases hn.bol ⟨r, hr, hb⟩ with g | ⟨r', g1, g2⟩
        · exact .inl (.inr g)
        · exact .inr ⟨r', List.mem_append.2 (.inr g1), g2⟩
  · rw [if_neg hi] at hf hr
    subst hf hr
    exact h.state i _ _ hr0 hf0

/-- What `tokenise` returns. -/
structure TssOk (max : Nat) (tss : List (List Tok)) : Prop where
  ne : tss ≠ []
  whole : ∀ toks ∈ tss, WholeOk max toks
  anch : ∀ toks ∈ tss, WholeAnch toks
  one : tss.length = 1 ∨ ∃ toks ∈ tss, ∃ t ∈ toks, isLazy t.type = true

theorem tokenise_tss {E : TokEnv} (hE : TokEnvOk E) {tr : Traits} {o : RulesObj} (h : ObjOk E tr o) {regex : List Nat} (hx : TextOk E regex)
    (hp : PlainCounts regex) (isMacro : Bool) : Total (TssOk E.max) (tokenise E o.flags o.macros isMacro regex) := by
  have h1 := tokenise_total hE h.macros o.flags isMacro hx hp
  have h2 := tokenise_anch hE h.macros h.anch o.flags isMacro hx hp
  cases hr : tokenise E o.flags o.macros isMacro regex with
  | error e =>
    rw [hr] at h1
    cases e with
    | throw m => trivial
    | ub m => exact h1
    | fuel => exact h1
  | ok tss =>
    rw [hr] at h1
    obtain ⟨a1, a2⟩ := h2 tss hr
    exact ⟨h1.1, h1.2.1, a1, a2⟩

theorem bolFirst {toks : List Tok} (h : WholeAnch toks) (hb : ∃ t ∈ toks, t.type = .bol) :
    ∃ b, toks[1]? = some b ∧ b.type = .bol := by
  obtain ⟨ts, rfl, ha⟩ := h
  obtain ⟨t, ht, hb⟩ := hb
  simp only [List.cons_append, List.mem_cons, List.mem_append, List.not_mem_nil, or_false] at ht
  rcases ht with rfl | ht | rfl
  · cases hb
  · cases ts with
    | nil => cases ht
    | cons u us =>
      rcases List.mem_cons.1 ht with rfl | ht
      · exact ⟨t, rfl, hb⟩
      · exact (ha.bol t ht hb).elim
  · cases hb

theorem ruleFeatures_ok {tr : Traits} {max : Nat} {first last : List Tok} (h1 : WholeOk max first) (h2 : WholeOk max last)
    (id : Nat) (rec : Bool) : ∃ f, RulesObj.ruleFeatures tr first last id rec = .ok f ∧
      (∀ b, first[1]? = some b → b.type = .bol → f % 2 = 1) := by
  obtain ⟨ts, rfl, _⟩ := h1
  obtain ⟨us, rfl, _⟩ := h2
  have e1 : ∃ b, (beginTok :: ts ++ [endTok])[1]? = some b := by cases ts <;> simp
  have e2 : ∃ b, (beginTok :: us ++ [endTok])[(beginTok :: us ++ [endTok]).length - 2]? = some b := by
    exact ⟨_, List.getElem?_eq_getElem (by simp; omega)⟩
  obtain ⟨b, e1⟩ := e1
  obtain ⟨e, e2⟩ := e2
  unfold RulesObj.ruleFeatures
  rw [e1, e2]
  refine ⟨_, rfl, ?_⟩
  intro b' hb hbol
  cases hb
  rw [Nat.or_mod_two_eq_one, Nat.or_mod_two_eq_one, Nat.or_mod_two_eq_one]
  simp [hbol]

theorem push_bol {tr : Traits} {max : Nat} {tss : List (List Tok)} (h : TssOk max tss) {first last : List Tok}
    (hf : first ∈ tss) (hl : last ∈ tss) (id : Nat) (rec : Bool)
    {f : Nat} (hfe : RulesObj.ruleFeatures tr first last id rec = .ok f) :
    (∃ toks ∈ tss, ∃ t ∈ toks, t.type = .bol) → f % 2 = 1 ∨ ∃ toks ∈ tss, ∃ t ∈ toks, isLazy t.type = true := by
  rintro ⟨toks, ht, hb⟩
  rcases h.one with h1 | h1
  · left
    obtain ⟨f', e, he⟩ := ruleFeatures_ok (tr := tr) (h.whole first hf) (h.whole last hl) id rec
    rw [e] at hfe
    cases hfe
    obtain ⟨x, rfl⟩ := List.length_eq_one_iff.1 h1
    simp only [List.mem_singleton] at hf ht
    subst hf; subst ht
    obtain ⟨b, hb1, hb2⟩ := bolFirst (h.anch _ (by simp)) hb
    exact he b hb1 hb2
  · exact .inr h1

theorem checkId_ok {tr : Traits} {id : Nat} (h : checkId tr id = .ok ()) : id ≠ tr.npos ∧ id ≠ 0 := by
  unfold checkId at h
  split at h
  · cases h
  · split at h
    · cases h
    · exact ⟨‹_›, ‹_›⟩

theorem head?_mem {α : Type} {l : List α} {a : α} (h : l.head? = some a) : a ∈ l := by
  cases l with
  | nil => cases h
  | cons b l => simp at h; simp [h]

theorem getLast?_mem {α : Type} {l : List α} {a : α} (h : l.getLast? = some a) : a ∈ l := List.mem_of_getLast? h

theorem pushInitial_ok {E : TokEnv} (hE : TokEnvOk E) {tr : Traits} {o : RulesObj} (h : ObjOk E tr o) {regex : List Nat} (hx : TextOk E regex)
    (hp : PlainCounts regex) (id userId : Nat) :
    ObjOk E tr (o.pushInitial E tr regex id userId).1 ∧ Total (fun _ => True) (o.pushInitial E tr regex id userId).2 := by
  unfold RulesObj.pushInitial
  have hc : Total (fun _ => True) (checkId tr id) := by
    unfold checkId; repeat' split
    all_goals trivial
  cases hid : checkId tr id with
  | error e => rw [hid] at hc; exact ⟨h, hc⟩
  | ok u =>
    dsimp only
    have ht := tokenise_tss hE h hx hp false
    cases htok : tokenise E o.flags o.macros false regex with
    | error e =>
      rw [htok] at ht
      refine ⟨h, ?_⟩
      cases e with
      | throw m => trivial
      | ub m => exact ht
      | fuel => exact ht
    | ok tss =>
      rw [htok] at ht
      have ht : TssOk E.max tss := ht
      dsimp only
      have hne := ht.ne
      cases hh : tss.head? with
      | none => simp at hh; exact (hne hh).elim
      | some first =>
        cases hl : tss.getLast? with
        | none => simp at hl; exact (hne hl).elim
        | some last =>
          dsimp only
          have m1 := head?_mem hh
          have m2 := getLast?_mem hl
          obtain ⟨f, e, _⟩ := ruleFeatures_ok (tr := tr) (ht.whole _ m1) (ht.whole _ m2) id false
          have hpb := push_bol ht m1 m2 id false e
          rw [e]
          dsimp only
          have hlen : 0 < o.states.length := by rw [h.states.states]; simp [RulesObj.stateNames]
          have hs : o.states ≠ [] := by intro h; rw [h] at hlen; simp at hlen
          rw [if_neg hs]
          refine ⟨extend_objOk h ⟨?_, ?_⟩, trivial⟩
          · intro r hr
            obtain ⟨ts, hts, rfl⟩ := List.mem_map.1 hr
            exact ⟨ht.whole _ hts, ht.anch _ hts, .inr hlen, .inl rfl, (checkId_ok hid).1⟩
          · rintro ⟨r, hr, t, ht', hb⟩
            obtain ⟨ts, hts, rfl⟩ := List.mem_map.1 hr
            rcases hpb ⟨ts, hts, t, ht', hb⟩ with g | ⟨ts', g1, t', g2, g3⟩
            · exact .inl g
            · exact .inr ⟨_, List.mem_map_of_mem g1, t', g2, g3⟩

/-- Indices of existing lexer states. -/
theorem find_lt {tr : Traits} {o : RulesObj} (h : StatesOk tr o) {name : List Nat} {i : Nat} (hf : find name o.statemap = some i) :
    i < o.states.length := by
  rw [h.map, find_numbered _ _ _ _ h.nodup] at hf
  obtain ⟨j, h1, h2⟩ := hf
  have hj : j < o.stateNames.length := (List.getElem?_eq_some_iff.1 h1).1
  rw [h2, h.states, Nat.zero_add]
  exact Nat.lt_of_le_of_lt (Nat.mod_le _ _) hj

theorem targetIds_total {tr : Traits} {o : RulesObj} (h : StatesOk tr o) (t : RulesObj.Target) :
    Total (fun ids => ∀ curr, curr < o.states.length → ∀ id userId ts,
      let r := RulesObj.mkRule tr t ids curr id userId ts
      r.regex = ts ∧ r.id = id ∧ (r.popDfa = true ∨ r.nextDfa < o.states.length) ∧ (r.pushDfa = tr.npos ∨ r.pushDfa < o.states.length))
      (o.targetIds tr t) := by
  unfold RulesObj.targetIds
  cases t with
  | stay => exact fun curr hc id u ts => ⟨rfl, rfl, .inr hc, .inl rfl⟩
  | pop => exact fun curr hc id u ts => ⟨rfl, rfl, .inl rfl, .inl rfl⟩
  | goto name =>
    dsimp only
    cases hf : find name o.statemap with
    | none => trivial
    | some i => exact fun curr hc id u ts => ⟨rfl, rfl, .inr (find_lt h hf), .inl rfl⟩
  | push name exit =>
    dsimp only
    cases hf : find name o.statemap with
    | none => trivial
    | some i =>
      cases exit with
      | none => exact fun curr hc id u ts => ⟨rfl, rfl, .inr (find_lt h hf), .inr hc⟩
      | some e =>
        dsimp only
        cases hf' : find e o.statemap with
        | none => trivial
        | some j => exact fun curr hc id u ts => ⟨rfl, rfl, .inr (find_lt h hf), .inr (find_lt h hf')⟩

theorem mapM_total {α β : Type} {Q : β → Prop} {f : α → M β} (hf : ∀ a, Total Q (f a)) : ∀ l : List α,
    Total (fun bs => ∀ b ∈ bs, Q b) (l.mapM f)
  | [] => by simp [List.mapM_nil, pure, Except.pure, Total]
  | a :: l => by
    rw [List.mapM_cons]
    refine (hf a).bind fun b hb => ?_
    refine (mapM_total hf l).bind fun bs hbs => ?_
    intro c hc
    rcases List.mem_cons.1 hc with rfl | hc
    · exact hb
    · exact hbs c hc

theorem currStates_total {tr : Traits} {o : RulesObj} (h : StatesOk tr o) (currDfa : List Nat) :
    Total (fun cs => ∀ c ∈ cs, c < o.states.length) (o.currStates tr currDfa) := by
  unfold RulesObj.currStates
  split
  · intro c hc
    rw [List.mem_range] at hc
    have : o.statemap.length = o.states.length := by rw [h.map, numbered_length, h.states]
    rw [← this]
    exact Nat.lt_of_lt_of_le hc (Nat.mod_le _ _)
  · refine mapM_total (fun name => ?_) _
    unfold RulesObj.known
    split
    · trivial
    · split
      · trivial
      · exact find_lt h ‹_›

theorem pushLoop_ok {E : TokEnv} (hE : TokEnvOk E) {tr : Traits} {regex : List Nat} (hx : TextOk E regex)
    (hp : PlainCounts regex) {t : RulesObj.Target} {ids : Nat × Nat} {id userId len : Nat} (hid : id ≠ tr.npos)
    (hids : ∀ curr, curr < len → ∀ id userId ts,
      let r := RulesObj.mkRule tr t ids curr id userId ts
      r.regex = ts ∧ r.id = id ∧ (r.popDfa = true ∨ r.nextDfa < len) ∧ (r.pushDfa = tr.npos ∨ r.pushDfa < len)) :
    ∀ (currs : List Nat) (o : RulesObj), (∀ c ∈ currs, c < len) → ObjOk E tr o → o.states.length = len →
    ObjOk E tr (RulesObj.pushLoop E tr regex t ids id userId currs o).1 ∧
      Total (fun _ => True) (RulesObj.pushLoop E tr regex t ids id userId currs o).2
  | [], o, _, h, _ => ⟨h, trivial⟩
  | curr :: currs, o, hc, h, hlen => by
    have hcur := hc curr (by simp)
    unfold RulesObj.pushLoop
    have ht := tokenise_tss hE h hx hp false
    cases htok : tokenise E o.flags o.macros false regex with
    | error e =>
      rw [htok] at ht
      refine ⟨h, ?_⟩
      cases e with
      | throw m => trivial
      | ub m => exact ht
      | fuel => exact ht
    | ok tss =>
      rw [htok] at ht
      have ht : TssOk E.max tss := ht
      dsimp only
      have hne := ht.ne
      cases hl : tss.getLast? with
      | none => simp at hl; exact (hne hl).elim
      | some last =>
        dsimp only
        have m2 := getLast?_mem hl
        obtain ⟨f, e, _⟩ := ruleFeatures_ok (tr := tr) (ht.whole _ m2) (ht.whole _ m2) id t.recursive
        have hpb := push_bol ht m2 m2 id t.recursive e
        rw [e]
        dsimp only
        rw [if_pos (by omega)]
        refine pushLoop_ok hE hx hp hid hids currs _ (fun c hc' => hc c (by simp [hc'])) ?_ (by simp [RulesObj.extend, hlen])
        refine extend_objOk h ⟨?_, ?_⟩
        · intro r hr
          obtain ⟨ts, hts, rfl⟩ := List.mem_map.1 hr
          obtain ⟨q1, q2, q3, q4⟩ := hids curr hcur id userId ts
          exact ⟨by rw [q1]; exact ht.whole _ hts, by rw [q1]; exact ht.anch _ hts, hlen ▸ q3, hlen ▸ q4, by rw [q2]; exact hid⟩
        · rintro ⟨r, hr, u, hu, hb⟩
          obtain ⟨ts, hts, rfl⟩ := List.mem_map.1 hr
          rw [(hids curr hcur id userId ts).1] at hu
          rcases hpb ⟨ts, hts, u, hu, hb⟩ with g | ⟨ts', g1, t', g2, g3⟩
          · exact .inl g
          · refine .inr ⟨_, List.mem_map_of_mem g1, t', ?_, g3⟩
            rw [(hids curr hcur id userId ts').1]
            exact g2

theorem parseTarget_total (newDfa : List Nat) : Total (fun _ => True) (RulesObj.parseTarget newDfa) := by
  unfold RulesObj.parseTarget
  dsimp only
  repeat' split
  all_goals trivial

theorem pushNamed_ok {E : TokEnv} (hE : TokEnvOk E) {tr : Traits} (hnp : tr.npos ≠ 0) {o : RulesObj} (h : ObjOk E tr o) {regex : List Nat}
    (hx : TextOk E regex) (hp : PlainCounts regex) (currDfa : List Nat) (id : Option Nat) (newDfa : List Nat) (userId : Nat) :
    ObjOk E tr (o.pushNamed E tr currDfa regex id newDfa userId).1 ∧
      Total (fun _ => True) (o.pushNamed E tr currDfa regex id newDfa userId).2 := by
  unfold RulesObj.pushNamed
  have hplan : Total (fun (x : RulesObj.Target × (Nat × Nat) × List Nat) => id.getD 0 ≠ tr.npos ∧ (∀ c ∈ x.2.2, c < o.states.length) ∧
      (∀ curr, curr < o.states.length → ∀ id userId ts,
      let r := RulesObj.mkRule tr x.1 x.2.1 curr id userId ts
      r.regex = ts ∧ r.id = id ∧ (r.popDfa = true ∨ r.nextDfa < o.states.length) ∧ (r.pushDfa = tr.npos ∨ r.pushDfa < o.states.length)))
      (o.pushPlan tr currDfa id newDfa) := by
    unfold RulesObj.pushPlan
    have fin : id.getD 0 ≠ tr.npos → Total (fun (x : RulesObj.Target × (Nat × Nat) × List Nat) => id.getD 0 ≠ tr.npos ∧ (∀ c ∈ x.2.2, c < o.states.length) ∧
      (∀ curr, curr < o.states.length → ∀ id userId ts,
      let r := RulesObj.mkRule tr x.1 x.2.1 curr id userId ts
      r.regex = ts ∧ r.id = id ∧ (r.popDfa = true ∨ r.nextDfa < o.states.length) ∧ (r.pushDfa = tr.npos ∨ r.pushDfa < o.states.length)))
      (do
        let t ← RulesObj.parseTarget newDfa
        let ids ← o.targetIds tr t
        let currs ← o.currStates tr currDfa
        .ok (t, ids, currs)) := by
      intro hid
      refine (parseTarget_total newDfa).bind fun t _ => ?_
      refine (targetIds_total h.states t).bind fun ids hids => ?_
      refine (currStates_total h.states currDfa).bind fun currs hcurrs => ?_
      exact ⟨hid, hcurrs, hids⟩
    cases id with
    | none => exact fin (by simp; omega)
    | some id =>
      dsimp only
      cases hid : checkId tr id with
      | error e =>
        have hc : Total (fun _ => True) (checkId tr id) := by
          unfold checkId; repeat' split
          all_goals trivial
        rw [hid] at hc
        cases e with
        | throw m => trivial
        | ub m => exact hc
        | fuel => exact hc
      | ok u => exact fin (checkId_ok hid).1
  generalize o.pushPlan tr currDfa id newDfa = plan at hplan ⊢
  cases plan with
  | error e =>
    refine ⟨h, ?_⟩
    cases e with
    | throw m => trivial
    | ub m => exact hplan
    | fuel => exact hplan
  | ok x =>
    obtain ⟨t, ids, currs⟩ := x
    obtain ⟨h1, h2, h3⟩ := hplan
    exact pushLoop_ok hE hx hp h1 h3 currs o h2 h rfl

theorem insertMacro_ok {E : TokEnv} (hE : TokEnvOk E) {tr : Traits} {o : RulesObj} (h : ObjOk E tr o) {name regex : List Nat}
    (hx : TextOk E regex) (hp : PlainCounts regex) :
    (((o.insertMacro E name regex).2 = .ok () ∨ (o.insertMacro E name regex).1 = o) → ObjOk E tr (o.insertMacro E name regex).1) ∧
    (Total (fun _ => True) (o.insertMacro E name regex).2 ∨ Refers name regex) := by
  unfold RulesObj.insertMacro
  split
  · exact ⟨fun _ => h, .inl trivial⟩
  split
  · exact ⟨fun _ => h, .inl trivial⟩
  rename_i hfn
  dsimp only
  have ht := tokenise_tss hE h hx hp true
  have same : ∀ ts, StatesOk tr { o with macros := o.macros ++ [(name, ts)] } := fun ts =>
    h.states.congr rfl rfl rfl rfl
  rcases tokenise_ext hE hfn o.flags true hx hp with e | ⟨⟨m, e⟩, hr⟩
  · rw [e]
    cases htok : tokenise E o.flags o.macros true regex with
    | error e =>
      rw [htok] at ht
      dsimp only
      refine ⟨?_, .inl ?_⟩
      · rintro (g | g)
        · cases g
        · rw [g]; exact h
      · cases e with
        | throw m => trivial
        | ub m => exact ht
        | fuel => exact ht
    | ok tss =>
      rw [htok] at ht
      have ht : TssOk E.max tss := ht
      dsimp only
      cases hl : tss.getLast? with
      | none => simp at hl; exact (ht.ne hl).elim
      | some ts =>
        dsimp only
        have m := getLast?_mem hl
        refine ⟨fun _ => ⟨same ts, ?_, ?_, h.state⟩, .inl trivial⟩
        · intro k v hv
          rw [find_append] at hv
          cases hk : find k o.macros with
          | some w => rw [hk] at hv; simp at hv; rw [← hv]; exact h.macros k w hk
          | none =>
            rw [hk] at hv
            simp at hv
            rw [← hv.2]
            exact ht.whole ts m
        · intro k v hv
          rw [find_append] at hv
          cases hk : find k o.macros with
          | some w => rw [hk] at hv; simp at hv; rw [← hv]; exact h.anch k w hk
          | none =>
            rw [hk] at hv
            simp at hv
            rw [← hv.2]
            exact ht.anch ts m
  · rw [e]
    refine ⟨?_, .inr hr⟩
    rintro (g | g)
    · cases g
    · dsimp only at g ⊢; rw [g]; exact h

theorem run_objOk {E : TokEnv} (hE : TokEnvOk E) {tr : Traits} (hnp : tr.npos ≠ 0) {o : RulesObj} (h : ObjOk E tr o) {c : Call}
    (ht : c.TextOk E) (hm : c.MacroOk E tr o) : ObjOk E tr (c.run E tr o).1 := by
  cases c with
  | pushState name => exact pushState_objOk h name
  | clear => exact new_objOk E tr {}
  | clearState dfa => exact clearState_objOk h dfa
  | setFlags f => exact ⟨h.states.congr rfl rfl rfl rfl, h.macros, h.anch, h.state⟩
  | insertMacro n r => exact (insertMacro_ok hE h ht.1 ht.2).1 (hm n r rfl)
  | push r i u => exact (pushInitial_ok hE h ht.1 ht.2 i u).1
  | pushIn a b i c u => exact (pushNamed_ok hE hnp h ht.1 ht.2 a i c u).1

theorem careful_objOk {E : TokEnv} (hE : TokEnvOk E) {tr : Traits} (hnp : tr.npos ≠ 0) {o o' : RulesObj} {cs : List Call}
    (h : Careful E tr o cs o') (ho : ObjOk E tr o) : ObjOk E tr o' := by
  induction h with
  | nil => exact ho
  | cons o c cs o' h1 h2 _ ih => exact ih (run_objOk hE hnp ho h1 h2)

end Lexertl
