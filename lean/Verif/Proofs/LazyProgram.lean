import Verif.Proofs.LazyPrune
import Verif.Spec.Line

/-
Programs whose rules have non-greedy operators.
-/
namespace Lexertl.Lazy
open Spec Reading

theorem greedy_endsLazy : ∀ (r : Re), r.greedy = true → r.endsLazy = false
  | .chars _, _ | .bol, _ | .eol, _ => rfl
  | .seq l r, h => by
    simp only [Re.greedy, Bool.and_eq_true] at h
    exact greedy_endsLazy r h.2
  | .alt l r, h => by
    simp only [Re.greedy, Bool.and_eq_true] at h
    simp [Re.endsLazy, greedy_endsLazy l h.1, greedy_endsLazy r h.2]
  | .opt _ z, h | .star _ z, h | .plus _ z, h | .rep _ _ _ z, h => by
    simp only [Re.greedy, Bool.and_eq_true] at h
    simpa [Re.endsLazy] using h.1

theorem noEol_words {r : Re} (hr : r.noEol = true) {w : List Sym} (h : r.Matches w) : Sym.eol ∉ w := by
  have pow : ∀ (L : List Sym → Prop), (∀ w, L w → Sym.eol ∉ w) → ∀ k w, Pow L k w → Sym.eol ∉ w := by
    intro L hL k
    induction k with
    | zero => rintro w rfl; simp
    | succ k ih =>
      rintro w ⟨u, v, rfl, h1, h2⟩
      simp only [List.mem_append, not_or]
      exact ⟨hL u h1, ih v h2⟩
  induction r generalizing w with
  | chars t => obtain ⟨c, _, rfl⟩ := h; simp
  | bol => rw [show w = [.bol] from h]; simp
  | eol => cases hr
  | seq l r ihl ihr =>
    simp only [Re.noEol, Bool.and_eq_true] at hr
    obtain ⟨u, v, rfl, h1, h2⟩ := h
    simp only [List.mem_append, not_or]
    exact ⟨ihl hr.1 h1, ihr hr.2 h2⟩
  | alt l r ihl ihr =>
    simp only [Re.noEol, Bool.and_eq_true] at hr
    rcases h with h | h
    · exact ihl hr.1 h
    · exact ihr hr.2 h
  | opt r lz ih =>
    rcases h with rfl | h
    · simp
    · exact ih hr h
  | star r lz ih => obtain ⟨k, h⟩ := h; exact pow _ (fun w hw => ih hr hw) k w h
  | plus r lz ih => obtain ⟨k, _, h⟩ := h; exact pow _ (fun w hw => ih hr hw) k w h
  | rep r lo hi lz ih => obtain ⟨k, _, _, h⟩ := h; exact pow _ (fun w hw => ih hr hw) k w h

theorem dollars_zero : ∀ (r : Re), r.noEol = true → r.dollars = 0
  | .chars _, _ | .bol, _ => rfl
  | .eol, h => by cases h
  | .seq l r, h | .alt l r, h => by
    simp only [Re.noEol, Bool.and_eq_true] at h
    simp [Re.dollars, dollars_zero l h.1, dollars_zero r h.2]
  | .opt r _, h | .star r _, h | .plus r _, h | .rep r _ _ _, h => by
    simp only [Re.noEol] at h
    simp [Re.dollars, dollars_zero r h]

/-! ### Alternatives -/

theorem alts_ne {r : Re} {rs : List Re} (h : Alternatives r rs) : rs ≠ [] := by
  induction h with
  | one => simp
  | alt _ _ _ _ _ _ ih _ => simp [ih]

theorem alts_matches {r : Re} {rs : List Re} (h : Alternatives r rs) (w : List Sym) : r.Matches w ↔ ∃ q ∈ rs, q.Matches w := by
  induction h with
  | one => simp
  | alt l r ls rs _ _ ih1 ih2 =>
    show (l.Matches w ∨ r.Matches w) ↔ _
    rw [ih1, ih2]
    simp only [List.mem_append]
    constructor
    · rintro (⟨q, h1, h2⟩ | ⟨q, h1, h2⟩)
      · exact ⟨q, .inl h1, h2⟩
      · exact ⟨q, .inr h1, h2⟩
    · rintro ⟨q, h1 | h1, h2⟩
      · exact .inl ⟨q, h1, h2⟩
      · exact .inr ⟨q, h1, h2⟩

theorem alts_greedy {r : Re} {rs : List Re} (h : Alternatives r rs) (hg : r.greedy = true) : ∀ q ∈ rs, q.greedy = true := by
  induction h with
  | one => simpa using hg
  | alt l r ls rs _ _ ih1 ih2 =>
    simp only [Re.greedy, Bool.and_eq_true] at hg
    intro q hq
    rcases List.mem_append.1 hq with hq | hq
    · exact ih1 hg.1 q hq
    · exact ih2 hg.2 q hq

theorem alts_noBol {r : Re} {rs : List Re} (h : Alternatives r rs) (hg : r.noBol = true) : ∀ q ∈ rs, q.noBol = true := by
  induction h with
  | one => simpa using hg
  | alt l r ls rs _ _ ih1 ih2 =>
    simp only [Re.noBol, Bool.and_eq_true] at hg
    intro q hq
    rcases List.mem_append.1 hq with hq | hq
    · exact ih1 hg.1 q hq
    · exact ih2 hg.2 q hq

theorem alts_noEol {r : Re} {rs : List Re} (h : Alternatives r rs) (hg : r.noEol = true) : ∀ q ∈ rs, q.noEol = true := by
  induction h with
  | one => simpa using hg
  | alt l r ls rs _ _ ih1 ih2 =>
    simp only [Re.noEol, Bool.and_eq_true] at hg
    intro q hq
    rcases List.mem_append.1 hq with hq | hq
    · exact ih1 hg.1 q hq
    · exact ih2 hg.2 q hq

theorem alts_chars {P : List (Nat × Nat) → Prop} {r : Re} {rs : List Re} (h : Alternatives r rs) (hg : r.AllChars P) :
    ∀ q ∈ rs, q.AllChars P := by
  induction h with
  | one => simpa using hg
  | alt l r ls rs _ _ ih1 ih2 =>
    intro q hq
    rcases List.mem_append.1 hq with hq | hq
    · exact ih1 hg.1 q hq
    · exact ih2 hg.2 q hq

theorem alts_slots (tr : Traits) {r : Re} {rs : List Re} (h : Alternatives r rs) : (rs.map fun q => q.slots tr).sum = r.slots tr := by
  induction h with
  | one => simp
  | alt l r ls rs _ _ ih1 ih2 => simp [ih1, ih2, Re.slots]

/-! ### push -/

theorem pushInitial_lazy {E : TokEnv} (hE : TokEnvOk E) (hC : CharsOk E) {tr : Traits} {M : List (List Nat × Re)} {o : RulesObj}
    (hM : MacrosMean E o.macros M) {w : List Nat} {r s : Re} {id uid : Nat} (hid : id ≠ 0) (hid' : id ≠ tr.npos) (ho : o.states ≠ [])
    (hw : TextOk E w) (h : Means E M o.flags w r) (hg : Shortened r s) :
    ∃ (ps : List (List Tok × Re)) (n : Nat), o.pushInitial E tr w id uid = (o.extend 0 (ps.map fun p => ⟨p.1, id, uid, 0, tr.npos, false⟩) n, .ok ()) ∧
      (∀ p ∈ ps, Denotes p.1 (some p.2)) ∧ Alternatives s (ps.map (·.2)) ∧ s.AllChars (SetOk E.max) ∧ (s.noBol = false → n % 2 = 1) := by
  obtain ⟨ps, h1, h0, h2, h3, h4, h5⟩ := tokenise_lazy hE hC hM h hw hg
  obtain ⟨p, ps', rfl⟩ := List.exists_cons_of_ne_nil h0
  obtain ⟨q, hq⟩ : ∃ q, (p :: ps').getLast? = some q := ⟨_, List.getLast?_eq_some_getLast (by simp)⟩
  have hqm := List.mem_of_getLast? hq
  obtain ⟨t, ts, ht⟩ := List.exists_cons_of_ne_nil (derives_nonempty (h2 p (by simp)))
  obtain ⟨vs, z, hz, _⟩ := derives_last (h2 q hqm)
  have e2 : (wrap q.1)[(wrap q.1).length - 2]? = some z := by
    unfold wrap
    rw [hz]
    have : (beginTok :: (vs ++ [z]) ++ [endTok]).length - 2 = (beginTok :: vs).length := by simp
    rw [this, show beginTok :: (vs ++ [z]) ++ [endTok] = (beginTok :: vs) ++ (z :: [endTok]) by simp, List.getElem?_append_right (Nat.le_refl _)]
    simp
  have e1 : (wrap p.1)[1]? = some t := by simp [wrap, ht]
  refine ⟨(p :: ps').map fun p => (wrap p.1, p.2), ((if t.type = .bol then 1 else 0) ||| (if z.type = .eol then 2 else 0) |||
      (if id = tr.npos - 1 then 4 else if id = 0 then 8 else 0) ||| 0), ?_, ?_, ?_, h4, ?_⟩
  · unfold RulesObj.pushInitial checkId
    rw [if_neg hid, if_neg hid']
    have hl : ((p :: ps').map fun p => wrap p.1).getLast? = some (wrap q.1) := by rw [List.getLast?_map, hq]; rfl
    simp only [h1, hl]
    simp only [List.map_cons, List.head?_cons]
    unfold RulesObj.ruleFeatures
    rw [e1, e2]
    simp only [Bool.false_eq_true, if_false]
    rw [if_neg ho]
    simp [Function.comp_def]
  · intro x hx
    obtain ⟨y, hy, rfl⟩ := List.mem_map.1 hx
    exact .re _ _ _ _ rfl rfl (h2 y hy)
  · simpa [Function.comp_def] using h3
  · intro hb
    have := h5 hb
    have ht : t.type = .bol := by simpa [ht] using this
    rw [if_pos ht]
    exact or_odd (.inl (or_odd (.inl (or_odd (.inl rfl)))))

/-! ### Programs -/

/-- The rules `xs` are the alternatives of the expressions `es`. -/
inductive Grouped : List SRule → List (Re × Nat × Nat) → Prop
  | nil : Grouped [] []
  | snoc (xs es ys e rs) : Grouped xs es → Alternatives e.1 rs → ys.map (·.2) = rs.map some →
      (∀ y ∈ ys, y.1.id = e.2.1 ∧ y.1.userId = e.2.2) → Grouped (xs ++ ys) (es ++ [e])

/-- What is known about the object a program leaves. -/
structure Ran (E : TokEnv) (tr : Traits) (f : ReFlags) (M : List (List Nat × Re)) (es : List (Re × Nat × Nat)) (o : RulesObj)
    (xs : List SRule) : Prop where
  flags : o.flags = f
  macros : MacrosMean E o.macros M
  known : ∀ name, find name M = none → find name o.macros = none
  states : o.states = [xs.map (·.1)]
  rules : Grouped xs es
  each : ∀ x ∈ xs, Denotes x.1.regex x.2 ∧ x.1.nextDfa = 0 ∧ x.1.pushDfa = tr.npos ∧ x.1.popDfa = false ∧ x.1.id ≠ 0 ∧ x.1.id ≠ tr.npos ∧
    ∃ r, x.2 = some r ∧ r.AllChars (SetOk E.max)
  bol : ∃ n, o.features = [n] ∧ ((∃ e ∈ es, e.1.noBol = false) → n % 2 = 1)

theorem program_run {E : TokEnv} (hE : TokEnvOk E) (hC : CharsOk E) {tr : Traits} {f : ReFlags} {cs : List Call}
    {M : List (List Nat × Re)} {es : List (Re × Nat × Nat)} (h : LazyProgram E tr.npos f cs M es) :
    ∃ o xs, AllOk E tr (RulesObj.new tr f) cs o ∧ Ran E tr f M es o xs := by
  induction h with
  | nil =>
    obtain ⟨_, h2, h3, h4⟩ := new_statesOk tr f
    refine ⟨_, [], .nil _, ?_, ?_, ?_, h2, .nil, by simp, 0, h4, by simp⟩
    · unfold RulesObj.new RulesObj.pushState
      split
      · rfl
      split
      · rfl
      dsimp only
      split <;> rfl
    · intro name r h
      simp [find] at h
    · intro name _
      rw [h3]
      rfl
  | mac cs M es name w r _ hv hn hw hm hb he ih =>
    obtain ⟨o, xs, h1, h2⟩ := ih
    obtain ⟨m, g1, g2, g3⟩ := insertMacro_means hE hC h2.macros hv (h2.known name hn) hw (h2.flags ▸ hm) hb he
    refine ⟨_, xs, .snoc _ _ _ _ _ h1 g1, h2.flags, g3, ?_, h2.states, h2.rules, h2.each, h2.bol⟩
    intro k hk
    unfold find at hk
    split at hk
    · cases hk
    · rename_i hne
      rw [find_append, h2.known k hk, if_neg hne]
      rfl
  | rule cs M es w r s id uid _ hw hm hg hid hid' ih =>
    obtain ⟨o, xs, h1, h2⟩ := ih
    obtain ⟨ps, n, g1, g2, g3, g4, g5⟩ := pushInitial_lazy hE hC h2.macros (uid := uid) hid hid' (by rw [h2.states]; simp) hw (h2.flags ▸ hm) hg
    obtain ⟨k, k1, k2⟩ := h2.bol
    refine ⟨_, xs ++ ps.map (fun p => (⟨p.1, id, uid, 0, tr.npos, false⟩, some p.2)), .snoc _ _ _ _ _ h1 g1, h2.flags, h2.macros, h2.known, ?_,
      ?_, ?_, ?_⟩
    · simp [RulesObj.extend, h2.states, Function.comp_def]
    · refine .snoc xs es _ (s, id, uid) (ps.map (·.2)) h2.rules g3 (by simp [Function.comp_def]) ?_
      intro y hy
      obtain ⟨p, _, rfl⟩ := List.mem_map.1 hy
      exact ⟨rfl, rfl⟩
    · intro x hx
      rcases List.mem_append.1 hx with hx | hx
      · exact h2.each x hx
      · obtain ⟨p, hp, rfl⟩ := List.mem_map.1 hx
        exact ⟨g2 p hp, rfl, rfl, rfl, hid, hid', p.2, rfl, alts_chars g3 g4 _ (List.mem_map_of_mem hp)⟩
    · refine ⟨k ||| n, by simp [RulesObj.extend, k1], ?_⟩
      rintro ⟨x, hx, hb⟩
      refine or_odd ?_
      rcases List.mem_append.1 hx with hx | hx
      · exact .inl (k2 ⟨x, hx, hb⟩)
      · simp at hx
        subst hx
        exact .inr (g5 hb)

/-- Where a rule comes from. -/
theorem grouped_mem {xs : List SRule} {es : List (Re × Nat × Nat)} (h : Grouped xs es) : ∀ x ∈ xs, ∃ e ∈ es, ∃ rs q,
    Alternatives e.1 rs ∧ q ∈ rs ∧ x.2 = some q := by
  induction h with
  | nil => simp
  | snoc xs es ys e rs _ ha hs hi ih =>
    intro x hx
    rcases List.mem_append.1 hx with hx | hx
    · obtain ⟨e', h1, h2⟩ := ih x hx
      exact ⟨e', by simp [h1], h2⟩
    · have : x.2 ∈ rs.map some := hs ▸ List.mem_map_of_mem hx
      obtain ⟨q, hq, heq⟩ := List.mem_map.1 this
      exact ⟨e, by simp, rs, q, ha, hq, heq.symm⟩

/-- An expression matches exactly what its rules match. -/
theorem grouped_cover {xs : List SRule} {es : List (Re × Nat × Nat)} (h : Grouped xs es) {w : List Sym} : ∀ e ∈ es, e.1.Matches w →
    ∃ x ∈ xs, RMatches x.2 w := by
  induction h with
  | nil => simp
  | snoc xs es ys e rs _ ha hs hi ih =>
    intro e' he' hm
    rcases List.mem_append.1 he' with he' | he'
    · obtain ⟨x, h1, h2⟩ := ih e' he' hm
      exact ⟨x, by simp [h1], h2⟩
    · simp at he'
      subst he'
      obtain ⟨q, hq, hqm⟩ := (alts_matches ha w).1 hm
      have : some q ∈ ys.map (·.2) := hs ▸ List.mem_map_of_mem hq
      obtain ⟨y, hy, heq⟩ := List.mem_map.1 this
      exact ⟨y, by simp [hy], by rw [heq]; exact hqm⟩

/-- The first rule to match belongs to the first expression to match. -/
theorem grouped_first {xs : List SRule} {es : List (Re × Nat × Nat)} (h : Grouped xs es) {w : List Sym} : ∀ {j : Nat} {x : SRule}, xs[j]? = some x →
    RMatches x.2 w → (∀ (i : Nat) (y : SRule), i < j → xs[i]? = some y → ¬ RMatches y.2 w) →
    ∃ (i : Nat) (e : Re × Nat × Nat), es[i]? = some e ∧ x.1.id = e.2.1 ∧ x.1.userId = e.2.2 ∧ e.1.Matches w ∧ (∀ (i' : Nat) (e' : Re × Nat × Nat), i' < i → es[i']? = some e' → ¬ e'.1.Matches w) ∧
      ∃ (rs : List Re) (q : Re), Alternatives e.1 rs ∧ q ∈ rs ∧ x.2 = some q := by
  induction h with
  | nil => simp
  | snoc xs es ys e rs hg ha hs hi ih =>
    intro j x hx hm hf
    by_cases hj : j < xs.length
    · rw [List.getElem?_append_left hj] at hx
      obtain ⟨i, e', h1, h2, h3, h4, h5, h6⟩ := ih hx hm (fun i y hi hy => hf i y hi (by rw [List.getElem?_append_left (by omega)]; exact hy))
      have hlt := (List.getElem?_eq_some_iff.1 h1).1
      refine ⟨i, e', by rw [List.getElem?_append_left hlt]; exact h1, h2, h3, h4, ?_, h6⟩
      intro i' e'' hi' he''
      rw [List.getElem?_append_left (by omega)] at he''
      exact h5 i' e'' hi' he''
    · rw [List.getElem?_append_right (by omega)] at hx
      have hy := List.mem_of_getElem? hx
      have : x.2 ∈ rs.map some := hs ▸ List.mem_map_of_mem hy
      obtain ⟨q, hq, heq⟩ := List.mem_map.1 this
      refine ⟨es.length, e, by simp, (hi x hy).1, (hi x hy).2, (alts_matches ha w).2 ⟨q, hq, by rw [← heq] at hm; exact hm⟩, ?_, rs, q, ha, hq,
        heq.symm⟩
      intro i' e' hi' he' hm'
      rw [List.getElem?_append_left hi'] at he'
      obtain ⟨y, hy, hym⟩ := grouped_cover hg e' (List.mem_of_getElem? he') hm'
      obtain ⟨k, hk⟩ := List.mem_iff_getElem?.1 hy
      have hlt := (List.getElem?_eq_some_iff.1 hk).1
      exact hf k y (by omega) (by rw [List.getElem?_append_left hlt]; exact hk) hym

theorem grouped_slots (tr : Traits) {xs : List SRule} {es : List (Re × Nat × Nat)} (h : Grouped xs es) :
    (xs.map fun x => setsOf tr x.2).sum = (es.map fun e => e.1.slots tr).sum := by
  induction h with
  | nil => rfl
  | snoc xs es ys e rs _ ha hs hi ih =>
    have : (ys.map fun x => setsOf tr x.2) = rs.map fun q => q.slots tr := by
      have := congrArg (List.map (setsOf tr)) hs
      simpa [List.map_map, Function.comp_def, setsOf] using this
    simp [ih, this, alts_slots tr ha]

/-- Such an object satisfies what the theorems about lexers assume. -/
theorem program_anyRules {E : TokEnv} {tr : Traits} (hmax : E.max + 1 = charsOf tr) {f : ReFlags} {M : List (List Nat × Re)}
    {es : List (Re × Nat × Nat)} {o : RulesObj} {xs : List SRule} (h : Ran E tr f M es o xs)
    (hbol : ∀ e ∈ es, e.1.noBol = true) (heol : ∀ e ∈ es, e.1.noEol = true)
    (hplanes : tr.compressed = true → tr.char24 = true → ∀ e ∈ es, e.1.AllChars fun t => ∀ x ∈ t, FewPlanes x)
    (hcount : (es.map fun e => e.1.slots tr).sum + 2 ≤ tr.npos) : AnyRules tr o.rules [xs] := by
  have both : ∀ {P Q : List (Nat × Nat) → Prop} (r : Re), r.AllChars P → r.AllChars Q → r.AllChars (fun t => P t ∧ Q t) := by
    intro P Q r
    induction r with
    | chars t => exact fun h1 h2 => ⟨h1, h2⟩
    | bol | eol => exact fun _ _ => trivial
    | seq l r ih1 ih2 => exact fun h1 h2 => ⟨ih1 h1.1 h2.1, ih2 h1.2 h2.2⟩
    | alt l r ih1 ih2 => exact fun h1 h2 => ⟨ih1 h1.1 h2.1, ih2 h1.2 h2.2⟩
    | opt r _ ih => exact ih
    | star r _ ih => exact ih
    | plus r _ ih => exact ih
    | rep r _ _ _ ih => exact ih
  have mono : ∀ {P Q : List (Nat × Nat) → Prop}, (∀ t, P t → Q t) → ∀ (r : Re), r.AllChars P → r.AllChars Q := by
    intro P Q hPQ r
    induction r with
    | chars t => exact hPQ t
    | bol | eol => exact fun _ => trivial
    | seq l r ih1 ih2 => exact fun h1 => ⟨ih1 h1.1, ih2 h1.2⟩
    | alt l r ih1 ih2 => exact fun h1 => ⟨ih1 h1.1, ih2 h1.2⟩
    | opt r _ ih => exact ih
    | star r _ ih => exact ih
    | plus r _ ih => exact ih
    | rep r _ _ _ ih => exact ih
  have nb : ∀ x ∈ xs, NoBol x.2 := by
    intro x hx
    obtain ⟨e, he, rs, q, ha, hq, hxq⟩ := grouped_mem h.rules x hx
    rw [hxq]
    exact alts_noBol ha (hbol e he) q hq
  have ne : ∀ x ∈ xs, NoEol x.2 := by
    intro x hx
    obtain ⟨e, he, rs, q, ha, hq, hxq⟩ := grouped_mem h.rules x hx
    rw [hxq]
    exact alts_noEol ha (heol e he) q hq
  refine ⟨by simp [RulesObj.rules, h.states], ?_, ?_, ?_, ?_, ?_, ?_, ?_⟩
  · intro ys hys x hx
    simp at hys; subst hys
    exact (h.each x hx).1
  · intro ys hys x hx
    simp at hys; subst hys
    obtain ⟨r, hr, hs⟩ := (h.each x hx).2.2.2.2.2.2
    obtain ⟨e, he, rs, q, ha, hq, hxq⟩ := grouped_mem h.rules x hx
    rw [hr] at hxq
    injection hxq with hxq
    subst hxq
    rw [hr]
    have hw : E.max = charsOf tr - 1 := by omega
    show r.AllChars _
    by_cases hc : tr.compressed = true ∧ tr.char24 = true
    · refine mono (fun t ht => ?_) r (both r hs (alts_chars ha (hplanes hc.1 hc.2 e he) r hq))
      exact ⟨ht.1.1, ht.1.2.1, hw ▸ ht.1.2.2, fun _ _ => ht.2⟩
    · refine mono (fun t ht => ?_) r hs
      exact ⟨ht.1, ht.2.1, hw ▸ ht.2.2, fun h1 h2 => absurd ⟨h1, h2⟩ hc⟩
  · intro ys hys x hx
    simp at hys; subst hys
    obtain ⟨e, he, rs, q, ha, hq, hxq⟩ := grouped_mem h.rules x hx
    rw [hxq]
    exact noBol_head (alts_noBol ha (hbol e he) q hq)
  · intro ys hys
    simp at hys; subst hys
    exact .inl ne
  · intro ys hys
    simp at hys; subst hys
    exact .inl nb
  · intro ys hys
    simp at hys; subst hys
    have : (ys.map fun x => setsOf tr x.2 + 2 * dollarsOf x.2) = ys.map fun x => setsOf tr x.2 := by
      refine List.map_congr_left fun x hx => ?_
      obtain ⟨e, he, rs, q, ha, hq, hxq⟩ := grouped_mem h.rules x hx
      rw [hxq]
      simp [dollarsOf, dollars_zero q (alts_noEol ha (heol e he) q hq)]
    rw [this, grouped_slots tr h.rules]
    exact hcount
  · intro i ys hi hb
    exfalso
    obtain ⟨x, hx, hb⟩ := hb
    cases i with
    | zero =>
      simp at hi; subst hi
      exact hb (nb x hx)
    | succ i => simp at hi

end Lexertl.Lazy
