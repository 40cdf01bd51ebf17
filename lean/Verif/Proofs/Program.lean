import Verif.Proofs.Means
import Verif.Proofs.MacroExt
import Verif.Proofs.RulesObj
import Verif.Spec.Lexer

/-
A program of macro definitions and rules, given as texts.
-/
namespace Lexertl.Reading
open Spec

theorem macrosMean_snoc {E : TokEnv} {macros : List (List Nat × List Tok)} {M : List (List Nat × Re)} (hM : MacrosMean E macros M)
    (name : List Nat) (v : List Tok) : MacrosMean E (macros ++ [(name, v)]) M := by
  intro k r h
  obtain ⟨h1, h2, h3, m, h4, h5⟩ := hM k r h
  exact ⟨h1, h2, h3, m, by rw [find_append, h4]; rfl, h5⟩

theorem insertMacro_means {E : TokEnv} (hE : TokEnvOk E) (hC : CharsOk E) {M : List (List Nat × Re)} {o : RulesObj}
    (hM : MacrosMean E o.macros M) {name w : List Nat} {r : Re} (hv : validName name = true) (hn : find name o.macros = none)
    (hw : TextOk E w) (h : Means E M o.flags w r) (hb : r.noBol = true) (he : r.noEol = true) :
    ∃ m, o.insertMacro E name w = ({ o with macros := o.macros ++ [(name, m)] }, .ok ()) ∧ Denotes m (some r) ∧
      MacrosMean E (o.macros ++ [(name, m)]) ((name, r) :: M) := by
  obtain ⟨us, h1, h2, h3, h4⟩ := tokenise_macro hE hC (macrosMean_snoc hM name []) h hw
  have hd : Denotes (beginTok :: us ++ [endTok]) (some r) := .re _ _ _ _ rfl rfl h2
  refine ⟨beginTok :: us ++ [endTok], ?_, hd, ?_⟩
  · unfold RulesObj.insertMacro
    rw [if_neg (by simp [hv]), hn]
    simp only [h1, List.getLast?_singleton]
  · intro k q hk
    unfold find at hk
    split at hk
    · rename_i hkn
      subst hkn
      injection hk with hk
      subst hk
      exact ⟨hb, he, h3, _, by rw [find_append, hn]; simp, hd, fun t ht => by simp [h4 t ht]⟩
    · exact macrosMean_snoc hM name _ k q hk

theorem or_odd {n m : Nat} (h : n % 2 = 1 ∨ m % 2 = 1) : (n ||| m) % 2 = 1 := by
  have h1 := Nat.or_mod_two_eq_one (a := n) (b := m)
  exact h1.2 h

theorem pushInitial_means {E : TokEnv} (hE : TokEnvOk E) (hC : CharsOk E) {tr : Traits} {M : List (List Nat × Re)} {o : RulesObj}
    (hM : MacrosMean E o.macros M) {w : List Nat} {r : Re} {id uid : Nat} (hid : id ≠ 0) (hid' : id ≠ tr.npos) (ho : o.states ≠ [])
    (hw : TextOk E w) (h : Means E M o.flags w r) (hg : r.greedy = true) :
    ∃ m n, o.pushInitial E tr w id uid = (o.extend 0 [⟨m, id, uid, 0, tr.npos, false⟩] n, .ok ()) ∧ Denotes m (some r) ∧
      r.AllChars (SetOk E.max) ∧ (r.noBol = false → n % 2 = 1) := by
  obtain ⟨us, h1, h2, h3, h4⟩ := tokenise_rule hE hC hM h hw hg
  have hd : Denotes (beginTok :: us ++ [endTok]) (some r) := .re _ _ _ _ rfl rfl h2
  obtain ⟨t, ts, rfl⟩ := List.exists_cons_of_ne_nil (derives_nonempty h2)
  obtain ⟨vs, z, hz, _⟩ := derives_last h2
  have e2 : (beginTok :: (t :: ts) ++ [endTok])[(beginTok :: (t :: ts) ++ [endTok]).length - 2]? = some z := by
    rw [hz]
    have : (beginTok :: (vs ++ [z]) ++ [endTok]).length - 2 = (beginTok :: vs).length := by simp
    rw [this, show beginTok :: (vs ++ [z]) ++ [endTok] = (beginTok :: vs) ++ (z :: [endTok]) by simp, List.getElem?_append_right (Nat.le_refl _)]
    simp
  have e1 : (beginTok :: (t :: ts) ++ [endTok])[1]? = some t := rfl
  refine ⟨_, ((if t.type = .bol then 1 else 0) ||| (if z.type = .eol then 2 else 0) |||
      (if id = tr.npos - 1 then 4 else if id = 0 then 8 else 0) ||| 0), ?_, hd, h3, ?_⟩
  · unfold RulesObj.pushInitial checkId
    rw [if_neg hid, if_neg hid']
    simp only [h1, List.head?_cons, List.getLast?_singleton]
    unfold RulesObj.ruleFeatures
    rw [e1, e2]
    simp only [Bool.false_eq_true, if_false]
    rw [if_neg ho]
    simp
  · intro hb
    have ht : t.type = .bol := by simpa using h4 hb
    rw [if_pos ht]
    exact or_odd (.inl (or_odd (.inl (or_odd (.inl rfl)))))

/-- What is known about the object a program leaves. -/
structure Ran (E : TokEnv) (tr : Traits) (f : ReFlags) (M : List (List Nat × Re)) (es : List (Re × Nat × Nat)) (o : RulesObj)
    (xs : List SRule) : Prop where
  flags : o.flags = f
  macros : MacrosMean E o.macros M
  known : ∀ name, find name M = none → find name o.macros = none
  states : o.states = [xs.map (·.1)]
  rules : xs.map (fun x => (x.2, x.1.id, x.1.userId)) = es.map (fun e => (some e.1, e.2.1, e.2.2))
  each : ∀ x ∈ xs, Denotes x.1.regex x.2 ∧ x.1.nextDfa = 0 ∧ x.1.pushDfa = tr.npos ∧ x.1.popDfa = false ∧
    ∃ r, x.2 = some r ∧ r.greedy = true ∧ r.AllChars (SetOk E.max)
  bol : ∃ n, o.features = [n] ∧ ((∃ x ∈ xs, ¬ NoBol x.2) → n % 2 = 1)

theorem program_run {E : TokEnv} (hE : TokEnvOk E) (hC : CharsOk E) {tr : Traits} {f : ReFlags} {cs : List Call}
    {M : List (List Nat × Re)} {es : List (Re × Nat × Nat)} (h : Program E tr.npos f cs M es) :
    ∃ o xs, AllOk E tr (RulesObj.new tr f) cs o ∧ Ran E tr f M es o xs := by
  induction h with
  | nil =>
    obtain ⟨_, h2, h3, h4⟩ := new_statesOk tr f
    refine ⟨_, [], .nil _, ?_, ?_, ?_, h2, rfl, by simp, 0, h4, by simp⟩
    · unfold RulesObj.new RulesObj.pushState
      split
      · rfl
      split
      · rfl
      dsimp only
      split <;> rfl
    · intro name r h
      simp [find] at h
    · intro name _
      rw [h3]
      rfl
  | mac cs M es name w r _ hv hn hw hm hb he ih =>
    obtain ⟨o, xs, h1, h2⟩ := ih
    obtain ⟨m, g1, g2, g3⟩ := insertMacro_means hE hC h2.macros hv (h2.known name hn) hw (h2.flags ▸ hm) hb he
    refine ⟨_, xs, .snoc _ _ _ _ _ h1 g1, h2.flags, g3, ?_, h2.states, h2.rules, h2.each, h2.bol⟩
    intro k hk
    unfold find at hk
    split at hk
    · cases hk
    · rename_i hne
      rw [find_append, h2.known k hk, if_neg hne]
      rfl
  | rule cs M es w r id uid _ hw hm hg hid hid' ih =>
    obtain ⟨o, xs, h1, h2⟩ := ih
    obtain ⟨m, n, g1, g2, g3, g4⟩ := pushInitial_means hE hC h2.macros (uid := uid) hid hid' (by rw [h2.states]; simp) hw (h2.flags ▸ hm) hg
    obtain ⟨k, k1, k2⟩ := h2.bol
    refine ⟨_, xs ++ [(⟨m, id, uid, 0, tr.npos, false⟩, some r)], .snoc _ _ _ _ _ h1 g1, h2.flags, h2.macros, h2.known, ?_, ?_, ?_, ?_⟩
    · simp [RulesObj.extend, h2.states]
    · simp [h2.rules]
    · intro x hx
      rcases List.mem_append.1 hx with hx | hx
      · exact h2.each x hx
      · simp at hx
        subst hx
        exact ⟨g2, rfl, rfl, rfl, r, rfl, hg, g3⟩
    · refine ⟨k ||| n, by simp [RulesObj.extend, k1], ?_⟩
      rintro ⟨x, hx, hb⟩
      refine or_odd ?_
      rcases List.mem_append.1 hx with hx | hx
      · exact .inl (k2 ⟨x, hx, hb⟩)
      · simp at hx
        subst hx
        exact .inr (g4 (by simpa [NoBol] using hb))

/-- Such an object satisfies what the theorems about lexers assume. -/
theorem program_ruleSet {E : TokEnv} {tr : Traits} (hmax : E.max + 1 = charsOf tr) {f : ReFlags} {M : List (List Nat × Re)}
    {es : List (Re × Nat × Nat)} {o : RulesObj} {xs : List SRule} (h : Ran E tr f M es o xs)
    (hbol : ∀ e ∈ es, e.1.bolHead = true) (heol : ∀ e ∈ es, e.1.noEol = true)
    (hplanes : tr.compressed = true → tr.char24 = true → ∀ e ∈ es, e.1.AllChars fun t => ∀ x ∈ t, FewPlanes x)
    (hcount : (es.map fun e => e.1.slots tr).sum + 2 ≤ tr.npos) : RuleSet tr o.rules [xs] := by
  have hmem : ∀ x ∈ xs, ∃ e ∈ es, x.2 = some e.1 := by
    intro x hx
    have : (x.2, x.1.id, x.1.userId) ∈ es.map (fun e => (some e.1, e.2.1, e.2.2)) := h.rules ▸ List.mem_map_of_mem hx
    obtain ⟨e, he, heq⟩ := List.mem_map.1 this
    exact ⟨e, he, by injection heq with h1 _; exact h1.symm⟩
  have both : ∀ {P Q : List (Nat × Nat) → Prop} (r : Re), r.AllChars P → r.AllChars Q → r.AllChars (fun t => P t ∧ Q t) := by
    intro P Q r
    induction r with
    | chars t => exact fun h1 h2 => ⟨h1, h2⟩
    | bol | eol => exact fun _ _ => trivial
    | seq l r ih1 ih2 => exact fun h1 h2 => ⟨ih1 h1.1 h2.1, ih2 h1.2 h2.2⟩
    | alt l r ih1 ih2 => exact fun h1 h2 => ⟨ih1 h1.1 h2.1, ih2 h1.2 h2.2⟩
    | opt r _ ih => exact ih
    | star r _ ih => exact ih
    | plus r _ ih => exact ih
    | rep r _ _ _ ih => exact ih
  have mono : ∀ {P Q : List (Nat × Nat) → Prop}, (∀ t, P t → Q t) → ∀ (r : Re), r.AllChars P → r.AllChars Q := by
    intro P Q hPQ r
    induction r with
    | chars t => exact hPQ t
    | bol | eol => exact fun _ => trivial
    | seq l r ih1 ih2 => exact fun h1 => ⟨ih1 h1.1, ih2 h1.2⟩
    | alt l r ih1 ih2 => exact fun h1 => ⟨ih1 h1.1, ih2 h1.2⟩
    | opt r _ ih => exact ih
    | star r _ ih => exact ih
    | plus r _ ih => exact ih
    | rep r _ _ _ ih => exact ih
  refine ⟨by simp [RulesObj.rules, h.states], ?_, ?_, ?_, ?_, ?_, ?_, ?_⟩
  · intro ys hys x hx
    simp at hys; subst hys
    exact (h.each x hx).1
  · intro ys hys x hx
    simp at hys; subst hys
    obtain ⟨r, hr, _, hs⟩ := (h.each x hx).2.2.2.2
    obtain ⟨e, he, hxe⟩ := hmem x hx
    rw [hr] at hxe
    injection hxe with hxe
    rw [hr]
    have hw : E.max = charsOf tr - 1 := by omega
    show r.AllChars _
    by_cases hc : tr.compressed = true ∧ tr.char24 = true
    · refine mono (fun t ht => ?_) r (both r hs (hxe ▸ hplanes hc.1 hc.2 e he))
      exact ⟨ht.1.1, ht.1.2.1, hw ▸ ht.1.2.2, fun _ _ => ht.2⟩
    · refine mono (fun t ht => ?_) r hs
      exact ⟨ht.1, ht.2.1, hw ▸ ht.2.2, fun h1 h2 => absurd ⟨h1, h2⟩ hc⟩
  · intro ys hys x hx
    simp at hys; subst hys
    obtain ⟨e, he, hxe⟩ := hmem x hx
    rw [hxe]
    exact hbol e he
  · intro ys hys x hx
    simp at hys; subst hys
    obtain ⟨e, he, hxe⟩ := hmem x hx
    rw [hxe]
    exact heol e he
  · intro ys hys x hx
    simp at hys; subst hys
    obtain ⟨r, hr, hg, _⟩ := (h.each x hx).2.2.2.2
    rw [hr]
    exact hg
  · intro ys hys
    simp at hys; subst hys
    have : (ys.map fun x => setsOf tr x.2) = es.map fun e => e.1.slots tr := by
      have := congrArg (List.map fun p : Option Re × Nat × Nat => setsOf tr p.1) h.rules
      simpa [List.map_map, Function.comp_def, setsOf] using this
    rw [this]
    exact hcount
  · intro i ys hi hb
    cases i with
    | zero =>
      simp at hi; subst hi
      obtain ⟨n, h1, h2⟩ := h.bol
      exact ⟨n, by simp [RulesObj.rules, h1], h2 hb⟩
    | succ i => simp at hi

end Lexertl.Reading
