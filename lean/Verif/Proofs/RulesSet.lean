import Verif.Proofs.RulesInv
import Verif.Proofs.Sound
import Verif.Spec.Lexer

/-
The rules of a rules object are what the theorems about built machines assume.
-/
namespace Lexertl
open Spec

theorem pdepth_prefix : ∀ (n : Nat) (ts : List Tok) (k : Nat), pdepth n ts = some k → ∀ u v, ts = u ++ v →
    u.countP (fun t => t.type = .closeparen) ≤ n + u.countP (fun t => t.type = .openparen) := by
  intro n ts k h u v e
  subst e
  induction u generalizing n with
  | nil => simp
  | cons t u ih =>
    rw [List.cons_append] at h
    rw [List.countP_cons, List.countP_cons]
    unfold pdepth at h
    split at h
    · rename_i ht
      have := ih _ h
      simp [ht]; omega
    · rename_i ht
      split at h
      · cases h
      · have := ih _ h
        simp [ht]; omega
    · rename_i h1 h2
      have := ih _ h
      rw [if_neg (by simpa using fun h => h2 h), if_neg (by simpa using fun h => h1 h)]
      omega

theorem wholeOk_terminal {max : Nat} {toks : List Tok} (h : WholeOk max toks) : FromTokeniser toks := by
  obtain ⟨ts, rfl, hB⟩ := h
  refine ⟨beginTok, endTok, ts, rfl, rfl, rfl, ?_, ?_⟩
  · intro t ht
    rcases hB.tok t ht with h | h | h
    · exact .inr (.inl h.1)
    · simp only [List.mem_cons, List.not_mem_nil, or_false] at h
      rcases h with h | h | h | h | h
      · exact .inl h
      · exact .inr (.inr (.inl h))
      · exact .inr (.inr (.inr (.inl h)))
      · exact .inr (.inr (.inr (.inr (.inl h))))
      · exact .inr (.inr (.inr (.inr (.inr (.inl h)))))
    · exact .inr (.inr (.inr (.inr (.inr (.inr h.1)))))
  · intro u v e
    have := pdepth_prefix 0 ts 0 hB.pdepth u v e
    simpa [BEq.beq] using this

theorem r_derives_allChars {P : List (Nat × Nat) → Prop} {l : Level} {ts : List Tok} {r : Re} (h : Derives l ts r)
    (hp : ∀ t ∈ ts, t.type = .charset → P t.str) : r.AllChars P := by
  induction h with
  | charset e s => exact hp ⟨.charset, e, s⟩ (by simp) rfl
  | bol | eol => trivial
  | paren o c ts r _ _ _ ih => exact ih fun t ht => hp t (by simp [ht])
  | item ts r _ ih => exact ih hp
  | postfix_ ts r d q _ hd ih =>
    have := ih fun t ht => hp t (by simp [ht])
    cases hd <;> exact this
  | seq1 ts r _ ih => exact ih hp
  | seq ts us l r _ _ ih1 ih2 => exact ⟨ih1 fun t ht => hp t (by simp [ht]), ih2 fun t ht => hp t (by simp [ht])⟩
  | alt1 ts r _ ih => exact ih hp
  | alt ts us o l r _ _ _ ih1 ih2 => exact ⟨ih1 fun t ht => hp t (by simp [ht]), ih2 fun t ht => hp t (by simp [ht])⟩

theorem r_derives_noEol {l : Level} {ts : List Tok} {r : Re} (h : Derives l ts r) (hp : NoType .eol ts) : r.noEol = true := by
  induction h with
  | charset e s => rfl
  | bol => rfl
  | eol e s => exact (hp ⟨.eol, e, s⟩ (by simp) rfl).elim
  | paren o c ts r _ _ _ ih => exact ih (hp.sub fun t ht => by simp [ht])
  | item ts r _ ih => exact ih hp
  | postfix_ ts r d q _ hd ih =>
    have := ih (hp.sub fun t ht => by simp [ht])
    cases hd <;> exact this
  | seq1 ts r _ ih => exact ih hp
  | seq ts us l r _ _ ih1 ih2 => simp [Re.noEol, ih1 (hp.sub fun t ht => by simp [ht]), ih2 (hp.sub fun t ht => by simp [ht])]
  | alt1 ts r _ ih => exact ih hp
  | alt ts us o l r _ _ _ ih1 ih2 => simp [Re.noEol, ih1 (hp.sub fun t ht => by simp [ht]), ih2 (hp.sub fun t ht => by simp [ht])]

theorem r_derives_noBol {l : Level} {ts : List Tok} {r : Re} (h : Derives l ts r) (hp : NoType .bol ts) : r.noBol = true := by
  induction h with
  | charset e s => rfl
  | eol => rfl
  | bol e s => exact (hp ⟨.bol, e, s⟩ (by simp) rfl).elim
  | paren o c ts r _ _ _ ih => exact ih (hp.sub fun t ht => by simp [ht])
  | item ts r _ ih => exact ih hp
  | postfix_ ts r d q _ hd ih =>
    have := ih (hp.sub fun t ht => by simp [ht])
    cases hd <;> exact this
  | seq1 ts r _ ih => exact ih hp
  | seq ts us l r _ _ ih1 ih2 => simp [Re.noBol, ih1 (hp.sub fun t ht => by simp [ht]), ih2 (hp.sub fun t ht => by simp [ht])]
  | alt1 ts r _ ih => exact ih hp
  | alt ts us o l r _ _ _ ih1 ih2 => simp [Re.noBol, ih1 (hp.sub fun t ht => by simp [ht]), ih2 (hp.sub fun t ht => by simp [ht])]

/-- And conversely: no `^` in the expression, none in the tokens. -/
theorem r_derives_bol {l : Level} {ts : List Tok} {r : Re} (h : Derives l ts r) (hp : r.noBol = true) : NoType .bol ts := by
  induction h with
  | charset e s => exact noType_single (by simp)
  | eol => exact noType_single (by simp)
  | bol e s => simp [Re.noBol] at hp
  | paren o c ts r ho hc _ ih =>
    exact NoType.append (NoType.cons (by rw [ho]; simp) (ih hp)) (noType_single (by rw [hc]; simp))
  | item ts r _ ih => exact ih hp
  | postfix_ ts r d q _ hd ih =>
    refine NoType.append (ih (by cases hd <;> exact hp)) (noType_single ?_)
    cases hd <;> simp
  | seq1 ts r _ ih => exact ih hp
  | seq ts us l r _ _ ih1 ih2 =>
    simp [Re.noBol] at hp
    exact (ih1 hp.1).append (ih2 hp.2)
  | alt1 ts r _ ih => exact ih hp
  | alt ts us o l r ho _ _ ih1 ih2 =>
    simp [Re.noBol] at hp
    exact (ih1 hp.1).append (NoType.cons (by rw [ho]; simp) (ih2 hp.2))

theorem r_derives_greedy {l : Level} {ts : List Tok} {r : Re} (h : Derives l ts r) (hp : ∀ t ∈ ts, isLazy t.type = false) :
    r.greedy = true := by
  induction h with
  | charset | bol | eol => rfl
  | paren o c ts r _ _ _ ih => exact ih fun t ht => hp t (by simp [ht])
  | item ts r _ ih => exact ih hp
  | postfix_ ts r d q _ hd ih =>
    have h1 := ih fun t ht => hp t (by simp [ht])
    have h2 := hp d (by simp)
    cases hd <;> simp [isLazy] at h2 <;> simp [Re.greedy, h1]
  | seq1 ts r _ ih => exact ih hp
  | seq ts us l r _ _ ih1 ih2 => simp [Re.greedy, ih1 fun t ht => hp t (by simp [ht]), ih2 fun t ht => hp t (by simp [ht])]
  | alt1 ts r _ ih => exact ih hp
  | alt ts us o l r _ _ _ ih1 ih2 => simp [Re.greedy, ih1 fun t ht => hp t (by simp [ht]), ih2 fun t ht => hp t (by simp [ht])]

theorem r_derives_slots (tr : Traits) {l : Level} {ts : List Tok} {r : Re} (h : Derives l ts r) :
    r.slots tr = ((ts.filter (·.type == .charset)).map fun t => slotsOf tr t.str).sum := by
  induction h with
  | charset e s => simp [Re.slots]
  | bol | eol => rfl
  | paren o c ts r ho hc _ ih => simp [ho, hc, ih]
  | item ts r _ ih => exact ih
  | postfix_ ts r d q _ hd ih => cases hd <;> simp [Re.slots, ih]
  | seq1 ts r _ ih => exact ih
  | seq ts us l r _ _ ih1 ih2 => simp [Re.slots, ih1, ih2]
  | alt1 ts r _ ih => exact ih
  | alt ts us o l r ho _ _ ih1 ih2 => simp [Re.slots, ho, ih1, ih2]

theorem r_derives_ne {l : Level} {ts : List Tok} {r : Re} (h : Derives l ts r) : ts ≠ [] := by
  induction h with
  | seq ts us l r _ _ ih1 _ => simp [ih1]
  | item _ _ _ ih | seq1 _ _ _ ih | alt1 _ _ _ ih => exact ih
  | _ => simp

theorem noBol_head : ∀ {r : Re}, r.noBol = true → r.bolHead = true
  | .chars _, _ | .eol, _ | .bol, _ => rfl
  | .seq l r, h => by simp [Re.noBol] at h; simp [Re.bolHead, noBol_head h.1, h.2]
  | .alt l r, h => by simp [Re.noBol] at h; simp [Re.bolHead, noBol_head h.1, noBol_head h.2]
  | .opt r _, h => noBol_head (r := r) h
  | .star r _, h => h
  | .plus r _, h => h
  | .rep r _ _ _, h => h

theorem r_derives_bolHead {l : Level} {ts : List Tok} {r : Re} (h : Derives l ts r) (hb : NoType .bol ts.tail) (hr : ¬ RepeatedBol ts) :
    r.bolHead = true := by
  induction h with
  | charset | bol | eol => rfl
  | paren o c ts r ho hc h ih => exact noBol_head (r_derives_noBol h (hb.sub fun t ht => by simp [ht]))
  | item ts r _ ih => exact ih hb hr
  | postfix_ ts r d q h hd ih =>
    by_cases hn : NoType .bol ts
    · have := r_derives_noBol h hn
      cases hd
      case opt | aopt => exact noBol_head (r := r) this
      all_goals exact this
    · have hr' : r = .bol ∧ ∃ e s, ts = [⟨.bol, e, s⟩] := by
        generalize hl : Level.atom = l at h
        cases h <;> cases hl
        case charset e s => exact (hn (noType_single (by simp))).elim
        case eol e s => exact (hn (noType_single (by simp))).elim
        case bol e s => exact ⟨rfl, e, s, rfl⟩
        case paren o c ts ho hc h =>
          refine (hn ?_).elim
          refine NoType.cons (by rw [ho]; simp) (hb.sub fun t ht => ?_)
          simp at ht ⊢
          rcases ht with ht | ht <;> simp [ht]
      obtain ⟨rfl, e, s, rfl⟩ := hr'
      have hd' : d.type ∉ [TT.zeroormore, .azeroormore, .oneormore, .aoneormore, .repeatn, .arepeatn] := by
        intro hm
        exact hr ⟨_, d, List.infix_refl _, rfl, hm⟩
      cases hd <;> first | rfl | exact (hd' (by simp)).elim
  | seq1 ts r _ ih => exact ih hb hr
  | seq ts us l r h1 h2 ih1 ih2 =>
    have hne := r_derives_ne h1
    rw [List.tail_append_of_ne_nil hne] at hb
    simp only [Re.bolHead, Bool.and_eq_true]
    refine ⟨ih1 (hb.sub fun t ht => by simp [ht]) fun ⟨b, d, g1, g2⟩ => hr ⟨b, d, g1.trans ⟨[], us, by simp⟩, g2⟩, ?_⟩
    exact r_derives_noBol h2 (hb.sub fun t ht => by simp [ht])
  | alt1 ts r _ ih => exact ih hb hr
  | alt ts us o l r ho h1 h2 ih1 ih2 =>
    have hne := r_derives_ne h1
    rw [List.tail_append_of_ne_nil hne] at hb
    simp only [Re.bolHead, Bool.and_eq_true]
    refine ⟨ih1 (hb.sub fun t ht => by simp [ht]) fun ⟨b, d, g1, g2⟩ => hr ⟨b, d, g1.trans ⟨[], o :: us, by simp⟩, g2⟩, ?_⟩
    exact noBol_head (r_derives_noBol h2 (hb.sub fun t ht => by simp [ht]))

/-- The tokens between `BEGIN` and `END`. -/
theorem r_denotes_body {ts : List Tok} {e : Option Re} (h : Denotes (beginTok :: ts ++ [endTok]) e) :
    (ts = [] ∧ e = none) ∨ ∃ r, e = some r ∧ Derives .alt ts r := by
  generalize hx : beginTok :: ts ++ [endTok] = x at h
  cases h with
  | empty b c _ _ =>
    left
    have := congrArg List.length hx
    simp at this
    exact ⟨this, rfl⟩
  | re b c us r _ _ hd =>
    right
    rw [List.cons_append, List.cons_append, List.cons.injEq] at hx
    have := List.append_inj' hx.2 rfl
    exact ⟨r, rfl, this.1 ▸ hd⟩

theorem r_list_choose {α β : Type} {P : α → β → Prop} : ∀ (l : List α), (∀ a ∈ l, ∃ b, P a b) →
    ∃ xs : List (α × β), xs.map (·.1) = l ∧ ∀ x ∈ xs, P x.1 x.2
  | [], _ => ⟨[], rfl, by simp⟩
  | a :: l, h => by
    obtain ⟨b, hb⟩ := h a (by simp)
    obtain ⟨xs, h1, h2⟩ := r_list_choose l fun a ha => h a (by simp [ha])
    refine ⟨(a, b) :: xs, by simp [h1], ?_⟩
    intro x hx
    rcases List.mem_cons.1 hx with rfl | hx
    · exact hb
    · exact h2 x hx

theorem r_list_choose2 {α β : Type} {P : α → β → Prop} : ∀ (l : List (List α)), (∀ as ∈ l, ∀ a ∈ as, ∃ b, P a b) →
    ∃ xss : List (List (α × β)), xss.map (·.map (·.1)) = l ∧ ∀ xs ∈ xss, ∀ x ∈ xs, P x.1 x.2
  | [], _ => ⟨[], rfl, by simp⟩
  | as :: l, h => by
    obtain ⟨xs, g1, g2⟩ := r_list_choose as (h as (by simp))
    obtain ⟨xss, h1, h2⟩ := r_list_choose2 l fun a ha => h a (by simp [ha])
    refine ⟨xs :: xss, by simp [g1, h1], ?_⟩
    intro x hx
    rcases List.mem_cons.1 hx with rfl | hx
    · exact g2
    · exact h2 x hx

theorem obj_state {E : TokEnv} {tr : Traits} {o : RulesObj} (h : ObjOk E tr o) {rs : List Rule} (hr : rs ∈ o.states) :
    ∃ f, ObjStateOk E.max tr.npos o.states.length rs f := by
  obtain ⟨i, hi, e⟩ := List.mem_iff_getElem.1 hr
  have hf : i < o.features.length := by rw [h.states.features, ← h.states.states]; exact hi
  exact ⟨_, h.state i rs o.features[i] (by rw [List.getElem?_eq_getElem hi, e]) (List.getElem?_eq_getElem hf)⟩

theorem obj_targets {E : TokEnv} {tr : Traits} {o : RulesObj} (h : ObjOk E tr o) : TargetsExist tr.npos o.rules := by
  intro rs hrs r hr
  obtain ⟨f, hf⟩ := obj_state h hrs
  exact ⟨(hf.rules r hr).next, (hf.rules r hr).push⟩

theorem obj_fromTokeniser {E : TokEnv} {tr : Traits} {o : RulesObj} (h : ObjOk E tr o) :
    ∀ rs ∈ o.rules.states, ∀ r ∈ rs, FromTokeniser r.regex := by
  intro rs hrs r hr
  obtain ⟨f, hf⟩ := obj_state h hrs
  exact wholeOk_terminal (hf.rules r hr).whole

/-- The rules denote expressions, and satisfy what the theorems about lexers assume. -/
theorem obj_ruleSet {E : TokEnv} {tr : Traits} (hmax : E.max + 1 = charsOf tr) {o : RulesObj} (h : ObjOk E tr o) (hpl : PlainRules tr o)
    {xss : List (List SRule)} (hx : xss.map (·.map (·.1)) = o.states) (hd : ∀ xs ∈ xss, ∀ x ∈ xs, Denotes x.1.regex x.2) :
    RuleSet tr o.rules xss := by
  have hmem : ∀ xs ∈ xss, xs.map (·.1) ∈ o.states := fun xs hxs => hx ▸ List.mem_map_of_mem hxs
  -- the tokens of a rule
  have body : ∀ xs ∈ xss, ∀ x ∈ xs, ∃ ts, x.1.regex = beginTok :: ts ++ [endTok] ∧ Body (charsOf tr - 1) ts 0 ∧ Anch ts ∧
      ((ts = [] ∧ x.2 = none) ∨ ∃ r, x.2 = some r ∧ Derives .alt ts r) := by
    intro xs hxs x hx
    obtain ⟨f, hf⟩ := obj_state h (hmem xs hxs)
    have hr := hf.rules x.1 (List.mem_map_of_mem hx)
    obtain ⟨ts, e, hB⟩ := hr.whole
    obtain ⟨us, e', hA⟩ := hr.anch
    rw [e, List.cons_append, List.cons_append, List.cons.injEq] at e'
    have := (List.append_inj' e'.2 rfl).1
    subst this
    refine ⟨ts, e, (show E.max = charsOf tr - 1 by omega) ▸ hB, hA, r_denotes_body ?_⟩
    rw [← e]
    exact hd xs hxs x hx
  have has : ∀ {r : Rule} {ts : List Tok} {P : TT → Prop}, r.regex = beginTok :: ts ++ [endTok] → ¬ Rule.Has r P → ∀ t ∈ ts, ¬ P t.type :=
    fun {r ts P} e hn t ht hp => hn ⟨t, by rw [e]; simp [ht], hp⟩
  refine ⟨hx.symm, hd, ?_, ?_, ?_, ?_, ?_, ?_⟩
  · intro xs hxs x hx
    obtain ⟨ts, e, hB, hA, ⟨_, h2⟩ | ⟨r, h2, h3⟩⟩ := body xs hxs x hx
    · rw [h2]; trivial
    · rw [h2]
      refine r_derives_allChars h3 fun t ht hc => ?_
      rcases hB.tok t ht with g | g | ⟨⟨_, _, g⟩, _⟩
      · exact ⟨g.2.2.normal, g.2.2.ne, g.2.2.within, fun h1 h2 =>
          hpl.planes h1 h2 _ (hmem xs hxs) x.1 (List.mem_map_of_mem hx) t (by rw [e]; simp [ht]) hc⟩
      · rw [hc] at g; simp at g
      · cases g <;> cases hc
  · intro xs hxs x hx
    obtain ⟨ts, e, hB, hA, ⟨_, h2⟩ | ⟨r, h2, h3⟩⟩ := body xs hxs x hx
    · rw [h2]; trivial
    · rw [h2]
      refine r_derives_bolHead h3 hA.bol fun ⟨b, d, g1, g2⟩ => ?_
      refine hpl.once _ (hmem xs hxs) x.1 (List.mem_map_of_mem hx) ⟨b, d, g1.trans ?_, g2⟩
      rw [e]
      exact ⟨[beginTok], [endTok], rfl⟩
  · intro xs hxs x hx
    obtain ⟨ts, e, hB, hA, ⟨_, h2⟩ | ⟨r, h2, h3⟩⟩ := body xs hxs x hx
    · rw [h2]; trivial
    · rw [h2]
      exact r_derives_noEol h3 (has e (hpl.noEol _ (hmem xs hxs) x.1 (List.mem_map_of_mem hx)))
  · intro xs hxs x hx
    obtain ⟨ts, e, hB, hA, ⟨_, h2⟩ | ⟨r, h2, h3⟩⟩ := body xs hxs x hx
    · rw [h2]; trivial
    · rw [h2]
      refine r_derives_greedy h3 fun t ht => ?_
      have := has e (hpl.greedy _ (hmem xs hxs) x.1 (List.mem_map_of_mem hx)) t ht
      simpa using this
  · intro xs hxs
    have := hpl.count _ (hmem xs hxs)
    rw [List.map_map] at this
    rw [show (xs.map fun x => setsOf tr x.2) = xs.map ((fun r : Rule =>
      ((r.regex.filter (·.type == .charset)).map fun t => slotsOf tr t.str).sum) ∘ fun x => x.1) from ?_]
    · exact this
    · refine List.map_congr_left fun x hx => ?_
      obtain ⟨ts, e, hB, hA, ⟨h1, h2⟩ | ⟨r, h2, h3⟩⟩ := body xs hxs x hx
      · subst h1
        rw [h2]
        simp [Function.comp, e, setsOf, beginTok, endTok]
      · rw [h2]
        simp [Function.comp, e, setsOf, r_derives_slots tr h3, beginTok, endTok]
  · intro i xs hxs hb
    obtain ⟨x, hxx, hnb⟩ := hb
    have hxm := List.mem_of_getElem? hxs
    have hs : o.states[i]? = some (xs.map (·.1)) := by rw [← hx, List.getElem?_map, hxs]; rfl
    have hi : i < o.features.length := by
      rw [h.states.features, ← h.states.states]; exact (List.getElem?_eq_some_iff.1 hs).1
    have hst := h.state i _ o.features[i] hs (List.getElem?_eq_getElem hi)
    refine ⟨o.features[i], List.getElem?_eq_getElem hi, ?_⟩
    obtain ⟨ts, e, hB, hA, ⟨h1, h2⟩ | ⟨r, h2, h3⟩⟩ := body xs hxm x hxx
    · rw [h2] at hnb; exact (hnb trivial).elim
    · rw [h2] at hnb
      have hbt : ∃ t ∈ ts, t.type = .bol := by
        refine Classical.byContradiction fun hne => hnb (r_derives_noBol h3 fun t ht hb => hne ⟨t, ht, hb⟩)
      obtain ⟨t, ht, hb⟩ := hbt
      rcases hst.bol ⟨x.1, List.mem_map_of_mem hxx, t, by rw [e]; simp [ht], hb⟩ with g | ⟨r', g1, g2⟩
      · exact g
      · exact (hpl.greedy _ (hmem xs hxm) r' g1 g2).elim

end Lexertl
