import Verif.Proofs.Reads
import Verif.Proofs.Tokenise
import Verif.Proofs.RulesSet

/-
From the lexemes of a text to the tokens of a rule, and what these denote.
-/
namespace Lexertl.Reading
open Spec

/-! ### Sequences of lexemes -/

inductive Lexed (max : Nat) : List Lx → List Lexeme → Prop
  | nil : Lexed max [] []
  | cons (l x ls xs) : LexTok max l x → Lexed max ls xs → Lexed max (l :: ls) (x :: xs)

theorem Lexed.split {max : Nat} {a b : List Lx} : ∀ {xs : List Lexeme}, Lexed max (a ++ b) xs → ∃ ys zs, xs = ys ++ zs ∧ Lexed max a ys ∧ Lexed max b zs := by
  induction a with
  | nil => intro xs h; exact ⟨[], xs, rfl, .nil, h⟩
  | cons l a ih =>
    intro xs h
    cases h with
    | cons _ x _ xs h1 h2 =>
      obtain ⟨ys, zs, rfl, h3, h4⟩ := ih h2
      exact ⟨x :: ys, zs, rfl, .cons _ _ _ _ h1 h3, h4⟩

theorem Lexed.one {max : Nat} {l : Lx} {xs : List Lexeme} (h : Lexed max [l] xs) : ∃ x, xs = [x] ∧ LexTok max l x := by
  cases h with
  | cons _ x _ xs h1 h2 => cases h2; exact ⟨x, rfl, h1⟩

/-- The tokeniser, called again and again, gives these lexemes and then the end. -/
inductive Trace (E : TokEnv) : TkState → List Lexeme → Prop
  | done (s s') : (∀ lhs, s.next E lhs = .ok (.tok ⟨.end_, [], []⟩, s')) → Trace E s []
  | next (s s' x xs) : (∀ lhs, ((∃ c, x = .diff c) → lhs = .charset) → s.next E lhs = .ok (x, s')) → Trace E s' xs →
      Trace E s (x :: xs)

theorem reads_trace {E : TokEnv} (hE : TokEnvOk E) (hC : CharsOk E) : ∀ {ls : List Lx} {start : Bool} {f : ReFlags} {fs : List ReFlags}
    {b : Bool} {w : List Nat} {s : TkState}, Reads E start f fs b w ls → TextOk E w → At s start f fs b w →
    ∃ xs, Trace E s xs ∧ Lexed E.max ls xs ∧ xs.length ≤ w.length := by
  intro ls
  induction ls with
  | nil =>
    intro start f fs b w s h hx ha
    rcases reads_next hE hC h hx ha with ⟨_, s', h1⟩ | ⟨_, _, _, _, _, _, h1, _⟩
    · exact ⟨[], .done s s' h1, .nil, by simp⟩
    · cases h1
  | cons l ls ih =>
    intro start f fs b w s h hx ha
    rcases reads_next hE hC h hx ha with ⟨h1, _⟩ | ⟨l', ls', f', fs', b', w', h1, h2⟩
    · cases h1
    · injection h1 with h3 h4
      subst h3 h4
      obtain ⟨x, s', h5, h6, h7⟩ := h2.found
      have hw := h2.shorter
      obtain ⟨xs, g1, g2, g3⟩ := ih h2.reads (fun c hc => hx c (h2.suffix.subset hc)) h6
      refine ⟨x :: xs, .next s s' x xs (fun lhs hl => h7 lhs fun hm => hl ?_) g1, .cons _ _ _ _ h5 g2, by simp; omega⟩
      rcases hm with rfl | rfl <;> cases h5 <;> exact ⟨_, rfl⟩

/-! ### The loop of `tokenise` -/

/-- One round of the loop. -/
inductive Step (macros : List (List Nat × List Tok)) :
    List Tok → List Nat → Option Nat → Lexeme → List Tok → List Nat → Option Nat → Prop
  | tok (ts l mac d) : prec l.type d.type ≠ .err → d.type ≠ .macro_ → d.type ≠ .end_ →
      Step macros (ts ++ [l]) mac none (.tok d) (ts ++ [l] ++ [d]) [] none
  | mac (ts l mac name m body) : prec l.type .macro_ ≠ .err → find name macros = some m →
      (∀ a b, expandMacro m a b = .ok body) → (∃ us t, body = us ++ [t] ∧ t.type ≠ .end_) →
      Step macros (ts ++ [l]) mac none (.tok ⟨.macro_, name, []⟩) (ts ++ [l] ++ body) name none
  | diff (ts l mac c) : l.type = .charset → ¬ (mac ≠ [] ∧ ((find mac macros).map List.length).getD 0 > 3) →
      Step macros (ts ++ [l]) mac none (.diff c) (ts ++ [l]) [] (some c)
  | diffTok (ts l l' mac c d) : prec l.type d.type ≠ .err → d.type ≠ .macro_ → checkDiff c l d = .ok l' → l'.type ≠ .end_ →
      Step macros (ts ++ [l]) mac (some c) (.tok d) (ts ++ [l']) mac none
  | diffMac (ts l l' mac c name m first) : prec l.type .macro_ ≠ .err → find name macros = some m → m[1]? = some first →
      m.length ≤ 3 → checkDiff c l first = .ok l' → l'.type ≠ .end_ →
      Step macros (ts ++ [l]) mac (some c) (.tok ⟨.macro_, name, []⟩) (ts ++ [l']) name none

inductive Steps (macros : List (List Nat × List Tok)) :
    List Tok → List Nat → Option Nat → List Lexeme → List Tok → List Nat → Option Nat → Prop
  | nil (toks mac diff) : Steps macros toks mac diff [] toks mac diff
  | cons (toks mac diff x xs toks' mac' diff' toks'' mac'' diff'') : Step macros toks mac diff x toks' mac' diff' →
      Steps macros toks' mac' diff' xs toks'' mac'' diff'' → Steps macros toks mac diff (x :: xs) toks'' mac'' diff''

theorem Steps.append {macros : List (List Nat × List Tok)} {a b c : List Tok} {m1 m2 m3 : List Nat} {d1 d2 d3 : Option Nat}
    {xs ys : List Lexeme} (h : Steps macros a m1 d1 xs b m2 d2) (h' : Steps macros b m2 d2 ys c m3 d3) :
    Steps macros a m1 d1 (xs ++ ys) c m3 d3 := by
  induction h with
  | nil => exact h'
  | cons _ _ _ _ _ _ _ _ _ _ _ h1 _ ih => exact .cons _ _ _ _ _ _ _ _ _ _ _ h1 (ih h')

theorem Steps.single {macros : List (List Nat × List Tok)} {a b : List Tok} {m1 m2 : List Nat} {d1 d2 : Option Nat}
    {x : Lexeme} (h : Step macros a m1 d1 x b m2 d2) : Steps macros a m1 d1 [x] b m2 d2 :=
  .cons _ _ _ _ _ _ _ _ _ _ _ h (.nil _ _ _)

theorem getLast_snoc (ts : List Tok) (l : Tok) : (ts ++ [l]).getLast? = some l := by simp

theorem tokLoop_step {E : TokEnv} {macros : List (List Nat × List Tok)} {toks toks' : List Tok} {mac mac' : List Nat}
    {diff diff' : Option Nat} {x : Lexeme} {s s' : TkState} {n : Nat} (h : Step macros toks mac diff x toks' mac' diff')
    (hs : ∀ lhs, ((∃ c, x = .diff c) → lhs = .charset) → s.next E lhs = .ok (x, s')) :
    tokLoop E macros (n + 1) toks mac diff s = tokLoop E macros n toks' mac' diff' s' := by
  conv => lhs; unfold tokLoop
  cases h with
  | tok ts l mac d h1 h2 h3 =>
    rw [getLast_snoc]
    simp only
    rw [hs _ (by rintro ⟨c, hc⟩; cases hc)]
    simp only [bind, Except.bind]
    rw [if_neg h1, if_neg h2]
    simp only [getLast_snoc, Option.map_some, Option.some.injEq]
    rw [if_neg h3]
  | mac ts l mac name m body h1 h2 h3 h4 =>
    obtain ⟨us, t, rfl, ht⟩ := h4
    rw [getLast_snoc]
    simp only
    rw [hs _ (by rintro ⟨c, hc⟩; cases hc)]
    simp only [bind, Except.bind]
    rw [if_neg h1, if_pos trivial, h2]
    simp only [h3]
    simp only [← List.append_assoc, getLast_snoc, Option.map_some, Option.some.injEq]
    rw [if_neg ht]
  | diff ts l mac c h1 h2 =>
    rw [getLast_snoc]
    simp only
    rw [hs _ (fun _ => h1)]
    simp only [bind, Except.bind]
    rw [if_neg h2]
  | diffTok ts l l' mac c d h1 h2 h3 h4 =>
    rw [getLast_snoc]
    simp only
    rw [hs _ (by rintro ⟨c, hc⟩; cases hc)]
    simp only [bind, Except.bind]
    rw [if_neg h1, if_neg h2, h3]
    simp only [List.dropLast_concat, getLast_snoc, Option.map_some, Option.some.injEq]
    rw [if_neg h4]
  | diffMac ts l l' mac c name m first h1 h2 h3 h4 h5 h6 =>
    rw [getLast_snoc]
    simp only
    rw [hs _ (by rintro ⟨c, hc⟩; cases hc)]
    simp only [bind, Except.bind]
    rw [if_neg h1, if_pos trivial, h2]
    simp only [h3]
    rw [if_neg (by omega)]
    simp only [h5, pure, Except.pure, List.dropLast_concat, getLast_snoc, Option.map_some, Option.some.injEq]
    rw [if_neg h6]

theorem tokLoop_steps {E : TokEnv} {macros : List (List Nat × List Tok)} {ts' : List Tok} {l : Tok} {mac' : List Nat}
    (hl : prec l.type .end_ ≠ .err) : ∀ {xs : List Lexeme} {toks : List Tok} {mac : List Nat} {diff : Option Nat} {s : TkState} {n : Nat},
    Trace E s xs → Steps macros toks mac diff xs (ts' ++ [l]) mac' none → xs.length < n →
    tokLoop E macros n toks mac diff s = .ok (ts' ++ [l] ++ [endTok]) := by
  intro xs
  induction xs with
  | nil =>
    intro toks mac diff s n ht hs hn
    obtain ⟨n, rfl⟩ : ∃ k, n = k + 1 := ⟨n - 1, by simp at hn; omega⟩
    cases hs
    cases ht with
    | done _ s' h =>
      unfold tokLoop
      rw [getLast_snoc]
      simp only
      rw [h]
      simp only [bind, Except.bind]
      rw [if_neg hl, if_neg (by decide)]
      simp only [getLast_snoc, Option.map_some, if_true]
      rfl
  | cons x xs ih =>
    intro toks mac diff s n ht hs hn
    obtain ⟨n, rfl⟩ : ∃ k, n = k + 1 := ⟨n - 1, by simp at hn; omega⟩
    cases ht with
    | next _ s' _ _ h1 h2 =>
      cases hs with
      | cons _ _ _ _ _ toks' mac' diff' _ _ _ g1 g2 =>
        rw [tokLoop_step g1 h1]
        exact ih h2 g2 (by simp at hn; omega)

/-! ### Facts about derivations -/

/-- The types of tokens a phrase may end with. -/
def EndTy (l : Level) (t : TT) : Prop :=
  t = .charset ∨ t = .bol ∨ t = .eol ∨ t = .closeparen ∨ (l ≠ .atom ∧ isPostfix t = true)

theorem postfix_isPostfix {d : Tok} {r q : Re} (h : Postfix d r q) : isPostfix d.type = true := by
  cases h <;> rfl

theorem EndTy.mono {l l' : Level} {t : TT} (h : EndTy l t) (hl : l' ≠ .atom) : EndTy l' t := by
  rcases h with h | h | h | h | ⟨_, h⟩
  · exact .inl h
  · exact .inr (.inl h)
  · exact .inr (.inr (.inl h))
  · exact .inr (.inr (.inr (.inl h)))
  · exact .inr (.inr (.inr (.inr ⟨hl, h⟩)))

theorem derives_last {l : Level} {ts : List Tok} {r : Re} (h : Derives l ts r) : ∃ us t, ts = us ++ [t] ∧ EndTy l t.type := by
  induction h with
  | charset e s => exact ⟨[], _, rfl, .inl rfl⟩
  | bol e s => exact ⟨[], _, rfl, .inr (.inl rfl)⟩
  | eol e s => exact ⟨[], _, rfl, .inr (.inr (.inl rfl))⟩
  | paren o c ts r ho hc h => exact ⟨o :: ts, c, rfl, .inr (.inr (.inr (.inl hc)))⟩
  | item ts r _ ih => obtain ⟨us, t, e, h⟩ := ih; exact ⟨us, t, e, h.mono (by decide)⟩
  | postfix_ ts r d q _ hp => exact ⟨ts, d, rfl, .inr (.inr (.inr (.inr ⟨by decide, postfix_isPostfix hp⟩)))⟩
  | seq1 ts r _ ih => obtain ⟨us, t, e, h⟩ := ih; exact ⟨us, t, e, h.mono (by decide)⟩
  | seq ts us l r _ _ _ ih => obtain ⟨vs, t, e, h⟩ := ih; exact ⟨ts ++ vs, t, by rw [e, List.append_assoc], h.mono (by decide)⟩
  | alt1 ts r _ ih => obtain ⟨us, t, e, h⟩ := ih; exact ⟨us, t, e, h.mono (by decide)⟩
  | alt ts us o l r _ _ _ _ ih =>
    obtain ⟨vs, t, e, h⟩ := ih
    exact ⟨ts ++ o :: vs, t, by rw [e]; simp, h.mono (by decide)⟩

/-- A phrase may follow a token of this type. -/
def Pre (t : TT) : Prop :=
  prec t .charset ≠ .err ∧ prec t .bol ≠ .err ∧ prec t .eol ≠ .err ∧ prec t .macro_ ≠ .err ∧ prec t .openparen ≠ .err

theorem EndTy.pre {l : Level} {t : TT} (h : EndTy l t) : Pre t ∧ prec t .or_ ≠ .err ∧ prec t .closeparen ≠ .err ∧ prec t .end_ ≠ .err ∧
    t ≠ .end_ := by
  unfold Pre
  rcases h with rfl | rfl | rfl | rfl | ⟨_, h⟩
  · decide
  · decide
  · decide
  · decide
  · cases t <;> first | (simp [isPostfix] at h; done) | decide

theorem EndTy.atom_post {t u : TT} (h : EndTy .atom t) (hu : isPostfix u = true) : prec t u ≠ .err := by
  rcases h with rfl | rfl | rfl | rfl | ⟨h, _⟩
  · cases u <;> first | (simp [isPostfix] at hu; done) | decide
  · cases u <;> first | (simp [isPostfix] at hu; done) | decide
  · cases u <;> first | (simp [isPostfix] at hu; done) | decide
  · cases u <;> first | (simp [isPostfix] at hu; done) | decide
  · exact absurd rfl h

theorem pre_open : Pre .openparen ∧ Pre .or_ ∧ Pre .begin := by unfold Pre; decide

theorem derives_pdepth {l : Level} {ts : List Tok} {r : Re} (h : Derives l ts r) : ∀ n, pdepth n ts = some n := by
  have one : ∀ (t : Tok) (n : Nat), t.type ≠ .openparen → t.type ≠ .closeparen → pdepth n [t] = some n := by
    intro t n h1 h2
    simp only [pdepth]
  induction h with
  | charset | bol | eol => intro n; rfl
  | paren o c ts r ho hc _ ih =>
    intro n
    rw [List.cons_append, pdepth]
    simp only [ho]
    rw [pdepth_append, ih]
    simp only [Option.bind_some, pdepth, hc, Nat.add_one_ne_zero, if_false, Nat.add_sub_cancel]
  | item _ _ _ ih => exact ih
  | postfix_ ts r d q _ hp ih =>
    intro n
    rw [pdepth_append, ih, Option.bind_some]
    have := postfix_type hp
    exact one d n this.1 this.2.1
  | seq1 _ _ _ ih => exact ih
  | seq ts us l r _ _ ih1 ih2 =>
    intro n
    rw [pdepth_append, ih1, Option.bind_some, ih2]
  | alt1 _ _ _ ih => exact ih
  | alt ts us o l r ho _ _ ih1 ih2 =>
    intro n
    rw [pdepth_append, ih1, Option.bind_some, show o :: us = [o] ++ us from rfl, pdepth_append,
      one o n (by simp [ho]) (by simp [ho]), Option.bind_some, ih2]

theorem pdepth_depth : ∀ (n m : Nat) (ts : List Tok), pdepth n ts = some m → depth ts = (m : Int) - n
  | n, m, [], h => by
    simp only [pdepth, Option.some.injEq] at h
    simp [depth, h]
  | n, m, t :: ts, h => by
    unfold pdepth at h
    unfold depth
    split at h
    · rename_i ht
      have := pdepth_depth _ _ _ h
      simp only [ht, if_true, this]
      omega
    · rename_i ht
      split at h
      · cases h
      · have := pdepth_depth _ _ _ h
        simp only [ht, this, reduceCtorEq, if_false, if_true]
        omega
    · rename_i h1 h2
      have := pdepth_depth _ _ _ h
      rw [if_neg h1, if_neg h2, this]
      omega

/-- Outer parentheses. -/
theorem derives_unparen {l : Level} {o c : Tok} {vs ts : List Tok} {r : Re} (h : Derives l ts r) (he : ts = o :: vs ++ [c])
    (ho : o.type = .openparen) (hc : c.type = .closeparen) (hv : pdepth 0 vs = some 0) : Derives .alt vs r := by
  have pos : ∀ u v : List Tok, u ++ v = o :: vs ++ [c] → u ≠ [] → v ≠ [] → depth u ≠ 0 := by
    intro u v huv hu hv'
    obtain ⟨u', rfl⟩ : ∃ u', u = o :: u' := by
      cases u with
      | nil => exact absurd rfl hu
      | cons a u' => simp at huv; exact ⟨u', by rw [huv.1]⟩
    rcases nil_or_snoc v with rfl | ⟨v', z, rfl⟩
    · exact absurd rfl hv'
    have h1 : u' ++ v' = vs := by
      have : (o :: u' ++ v') ++ [z] = (o :: vs) ++ [c] := by simpa using huv
      have := (List.append_inj' this rfl).1
      simpa using this
    rw [← h1, pdepth_append] at hv
    cases hp : pdepth 0 u' with
    | none => rw [hp] at hv; cases hv
    | some k =>
      have := pdepth_depth 0 k u' hp
      simp only [depth, ho, if_true, this]
      omega
  induction h with
  | charset | bol | eol => exact absurd (congrArg List.length he) (by simp)
  | paren o' c' ts r _ _ h _ =>
    have h1 := (List.append_inj' he rfl).1
    injection h1 with _ h1
    rw [← h1]
    exact h
  | item _ _ _ ih => exact ih he
  | postfix_ ts r d q _ hp =>
    have h1 := (List.append_inj' he rfl).2
    injection h1 with h1 _
    exact absurd (h1 ▸ hc) (postfix_type hp).2.1
  | seq1 _ _ _ ih => exact ih he
  | seq ts us l r h1 h2 => exact absurd (derives_depth h1).1 (pos _ _ he (derives_nonempty h1) (derives_nonempty h2))
  | alt1 _ _ _ ih => exact ih he
  | alt ts us o' l r _ h1 _ => exact absurd (derives_depth h1).1 (pos _ _ he (derives_nonempty h1) (by simp))

/-- What stands for a charset. -/
theorem derives_chars {l : Level} {ts : List Tok} {r : Re} (h : Derives l ts r) {t : Token} (hr : r = .chars t) :
    (∃ e, ts = [⟨.charset, e, t⟩]) ∨ ∃ o vs c, ts = o :: vs ++ [c] ∧ o.type = .openparen ∧ c.type = .closeparen ∧ Derives .alt vs r := by
  induction h with
  | charset e s => injection hr with hr; exact .inl ⟨e, by rw [hr]⟩
  | bol | eol => cases hr
  | paren o c ts r h1 h2 h => exact .inr ⟨o, ts, c, rfl, h1, h2, h⟩
  | item _ _ _ ih => exact ih hr
  | postfix_ ts r d q _ hp => subst hr; cases hp
  | seq1 _ _ _ ih => exact ih hr
  | seq => cases hr
  | alt1 _ _ _ ih => exact ih hr
  | alt => cases hr

theorem derives_one {l : Level} {ts : List Tok} {r : Re} (h : Derives l ts r) {t : Tok} (hr : ts = [t]) : Derives .atom ts r := by
  induction h with
  | charset e s => exact .charset e s
  | bol e s => exact .bol e s
  | eol e s => exact .eol e s
  | paren o c ts r h1 h2 h => exact .paren o c ts r h1 h2 h
  | item _ _ _ ih => exact ih hr
  | postfix_ ts r d q h =>
    have hl := congrArg List.length hr
    simp only [List.length_append, List.length_cons, List.length_nil] at hl
    have := List.length_pos_iff.2 (derives_nonempty h)
    omega
  | seq1 _ _ _ ih => exact ih hr
  | seq ts us l r h1 h2 =>
    have hl := congrArg List.length hr
    simp only [List.length_append, List.length_cons, List.length_nil] at hl
    have := List.length_pos_iff.2 (derives_nonempty h1)
    have := List.length_pos_iff.2 (derives_nonempty h2)
    omega
  | alt1 _ _ _ ih => exact ih hr
  | alt ts us o l r _ h1 _ =>
    have hl := congrArg List.length hr
    simp only [List.length_append, List.length_cons, List.length_nil] at hl
    have := List.length_pos_iff.2 (derives_nonempty h1)
    omega

/-- `strip_parens` keeps the expression, and leaves no parentheses around a charset. -/
theorem stripParens_derives {r : Re} : ∀ (n : Nat) (ts : List Tok), Derives .alt ts r →
    ∃ us, stripParens n (beginTok :: ts ++ [endTok]) = beginTok :: us ++ [endTok] ∧ Derives .alt us r ∧
      (ts.length ≤ n → ∀ t, r = .chars t → ∃ e, us = [⟨.charset, e, t⟩])
  | 0, ts, h => ⟨ts, rfl, h, fun hn => absurd (List.length_pos_iff.2 (derives_nonempty h)) (by omega)⟩
  | n + 1, ts, h => by
    unfold stripParens
    dsimp only
    have hlen : (beginTok :: ts ++ [endTok]).length - 2 = ts.length := by simp
    rw [hlen]
    have key : ∀ o vs c, ts = o :: (vs ++ [c]) →
        ((beginTok :: ts ++ [endTok]).eraseIdx ts.length).eraseIdx 1 = beginTok :: vs ++ [endTok] ∧
        List.drop 2 (List.take ts.length (beginTok :: ts ++ [endTok])) = vs ∧
        (beginTok :: ts ++ [endTok])[1]? = some o ∧ (beginTok :: ts ++ [endTok])[ts.length]? = some c := by
      rintro o vs c rfl
      have h0 : (o :: (vs ++ [c])).length = (beginTok :: o :: vs).length := by simp
      have h1 : beginTok :: (o :: (vs ++ [c])) ++ [endTok] = (beginTok :: o :: vs) ++ (c :: [endTok]) := by simp
      refine ⟨?_, ?_, by simp, ?_⟩
      · rw [h0, h1, List.eraseIdx_append_of_length_le (Nat.le_refl _)]
        simp
      · rw [h0, h1, List.take_left]
        rfl
      · rw [h0, h1, List.getElem?_append_right (Nat.le_refl _)]
        simp
    split
    · rename_i hc
      obtain ⟨h1, h2, h3, h4⟩ := hc
      obtain ⟨o, vs, c, rfl⟩ : ∃ o vs c, ts = o :: (vs ++ [c]) := by
        cases ts with
        | nil => simp at h1
        | cons o us =>
          rcases nil_or_snoc us with rfl | ⟨vs, c, rfl⟩
          · simp at h1
          · exact ⟨o, vs, c, rfl⟩
      obtain ⟨k1, k2, k3, k4⟩ := key o vs c rfl
      rw [k3, Option.map_some, Option.some.injEq] at h2
      rw [k4, Option.map_some, Option.some.injEq] at h3
      rw [k2, balanced_iff] at h4
      obtain ⟨us, g1, g2, g3⟩ := stripParens_derives n vs (derives_unparen h (by simp) h2 h3 h4)
      refine ⟨us, by rw [k1, g1], g2, fun hn => g3 ?_⟩
      simp at hn
      omega
    · rename_i hc
      refine ⟨ts, rfl, h, fun _ t ht => ?_⟩
      rcases derives_chars h ht with h1 | ⟨o, vs, c, rfl, h2, h3, h4⟩
      · exact h1
      · refine absurd ?_ hc
        obtain ⟨k1, k2, k3, k4⟩ := key o vs c (by simp)
        refine ⟨by simp, by rw [k3, Option.map_some, h2], by rw [k4, Option.map_some, h3], ?_⟩
        rw [k2, balanced_iff]
        exact derives_pdepth h4 0

/-! ### Macros -/

theorem r_derives_eol {l : Level} {ts : List Tok} {r : Re} (h : Derives l ts r) (hp : r.noEol = true) : NoType .eol ts := by
  induction h with
  | charset e s => exact noType_single (by simp)
  | bol => exact noType_single (by simp)
  | eol e s => simp [Re.noEol] at hp
  | paren o c ts r ho hc _ ih =>
    exact NoType.append (NoType.cons (by rw [ho]; simp) (ih hp)) (noType_single (by rw [hc]; simp))
  | item ts r _ ih => exact ih hp
  | postfix_ ts r d q _ hd ih =>
    refine NoType.append (ih (by cases hd <;> exact hp)) (noType_single ?_)
    cases hd <;> simp
  | seq1 ts r _ ih => exact ih hp
  | seq ts us l r _ _ ih1 ih2 =>
    simp [Re.noEol] at hp
    exact (ih1 hp.1).append (ih2 hp.2)
  | alt1 ts r _ ih => exact ih hp
  | alt ts us o l r ho _ _ ih1 ih2 =>
    simp [Re.noEol] at hp
    exact (ih1 hp.1).append (NoType.cons (by rw [ho]; simp) (ih2 hp.2))

theorem expandMacro_derives {r : Re} {m : List Tok} (h : Denotes m (some r)) (hb : r.noBol = true) (he : r.noEol = true) :
    ∃ body, (∀ a b, expandMacro m a b = .ok body) ∧ Derives .atom body r ∧ (∀ first, m.length = 3 → m[1]? = some first → body = [first]) := by
  cases h with
  | re b e ts r _ _ hd =>
    have h1 := r_derives_bol hd hb
    have h2 : NoType .eol ts := r_derives_eol hd he
    obtain ⟨t, us, rfl⟩ := List.exists_cons_of_ne_nil (derives_nonempty hd)
    obtain ⟨vs, z, hz, hend⟩ := derives_last hd
    have e1 : (b :: (t :: us) ++ [e])[1]? = some t := by simp
    have e2 : (b :: (t :: us) ++ [e])[(b :: (t :: us) ++ [e]).length - 2]? = some z := by
      rw [hz]
      have : (b :: (vs ++ [z]) ++ [e]).length - 2 = (b :: vs).length := by simp
      rw [this, show b :: (vs ++ [z]) ++ [e] = (b :: vs) ++ (z :: [e]) by simp, List.getElem?_append_right (Nat.le_refl _)]
      simp
    have ht : (t.type == TT.bol) = false := by simpa using h1 t (by simp)
    have hz' : (z.type == TT.eol) = false := by simpa using h2 z (by rw [hz]; simp)
    have e3 : ∀ a b', expandMacro (b :: (t :: us) ++ [e]) a b' =
        .ok (if us.length > 0 then openTok :: (t :: us) ++ [closeTok] else t :: us) := by
      intro a b'
      unfold expandMacro
      rw [e1, e2]
      simp only [ht, hz', Bool.and_false, Bool.not_false, Bool.false_eq_true, if_false, List.nil_append,
        List.append_nil, Bool.or_false, Bool.and_true]
      have hl : (b :: (t :: us) ++ [e]).length - 1 = (b :: t :: us).length := by simp
      have hm : ((b :: (t :: us) ++ [e]).length > 3) ↔ us.length > 0 := by simp
      rw [hl, show b :: (t :: us) ++ [e] = (b :: t :: us) ++ [e] by simp, List.take_left]
      simp only [List.drop_succ_cons, List.drop_zero, decide_eq_true_eq]
      by_cases hu : us.length > 0
      · rw [if_pos (by simpa using hu), if_pos hu]
      · rw [if_neg (by simpa using hu), if_neg hu]
    refine ⟨_, e3, ?_, ?_⟩
    · split
      · exact .paren openTok closeTok _ _ rfl rfl hd
      · rename_i hu
        obtain rfl : us = [] := List.length_eq_zero_iff.1 (by omega)
        exact derives_one hd rfl
    · intro first hl hf
      have : us.length = 0 := by simpa using hl
      obtain rfl : us = [] := List.length_eq_zero_iff.1 this
      simp at hf
      simp [hf]

theorem atom_chars_one {body : List Tok} {t : Token} (h : Derives .atom body (.chars t)) {first : Tok} (hb : body = [first]) :
    ∃ e, first = ⟨.charset, e, t⟩ := by
  rcases derives_chars h rfl with ⟨e, h1⟩ | ⟨o, vs, c, h1, _⟩
  · rw [hb] at h1
    injection h1 with h1
    exact ⟨e, h1⟩
  · rw [hb] at h1
    exact absurd (congrArg List.length h1) (by simp)

/-! ### Charsets -/

def ChNormal (max : Nat) (ls : List Lx) : Prop := ∀ u, .chars u ∈ ls → SetOk max u

theorem ChNormal.left {max : Nat} {a b : List Lx} (h : ChNormal max (a ++ b)) : ChNormal max a := fun u hu => h u (by simp [hu])
theorem ChNormal.right {max : Nat} {a b : List Lx} (h : ChNormal max (a ++ b)) : ChNormal max b := fun u hu => h u (by simp [hu])

/-- `mac` does not forbid a following `{-}`. -/
def MacFine (macros : List (List Nat × List Tok)) (mac : List Nat) : Prop :=
  ¬ (mac ≠ [] ∧ ((find mac macros).map List.length).getD 0 > 3)

theorem checkDiff_minus {e e' : List Nat} {t u v : Token} (ht : Normal t) (hu : Normal u)
    (hv : IsSet v (fun c => Mem c t ∧ ¬ Mem c u)) (hne : v ≠ []) :
    checkDiff 45 ⟨.charset, e, t⟩ ⟨.charset, e', u⟩ = .ok ⟨.charset, e, v⟩ := by
  obtain ⟨v', h1, h2, h3⟩ := Token.remove_spec t u ht hu
  obtain rfl : v' = v := Token.normal_ext _ _ h2 hv.1 fun c => (h3 c).trans (hv.2 c).symm
  unfold checkDiff
  simp [h1, hne]

theorem checkDiff_plus {e e' : List Nat} {t u v : Token} (ht : Normal t) (hu : Normal u)
    (hv : IsSet v (fun c => Mem c t ∨ Mem c u)) :
    checkDiff 43 ⟨.charset, e, t⟩ ⟨.charset, e', u⟩ = .ok ⟨.charset, e, v⟩ := by
  obtain ⟨h2, h3⟩ := Token.insertToken_spec t u ht hu.1
  obtain rfl : t.insertToken u = v := Token.normal_ext _ _ h2 hv.1 fun c => (h3 c).trans (hv.2 c).symm
  unfold checkDiff
  simp

theorem setOf_single {M : List (List Nat × Re)} {ls : List Lx} {l : Lx} {u : Token} (h : SetOf M ls u) (hl : ls = [l]) :
    l = .chars u ∨ ∃ name, l = .mac name ∧ find name M = some (.chars u) := by
  have ne : ∀ {ls : List Lx} {t : Token}, SetOf M ls t → ls ≠ [] := by
    intro ls t h
    cases h <;> simp
  cases h with
  | chars => injection hl with hl; exact .inl hl.symm
  | mac name _ h => injection hl with hl; exact .inr ⟨name, hl.symm, h⟩
  | minus ls => exact absurd (congrArg List.length hl) (by simp)
  | union ls => exact absurd (congrArg List.length hl) (by simp)

theorem setOf_normal {E : TokEnv} {macros : List (List Nat × List Tok)} {M : List (List Nat × Re)} (hM : MacrosMean E macros M) {ls : List Lx} {t : Token}
    (h : SetOf M ls t) : ChNormal E.max ls → SetOk E.max t := by
  induction h with
  | chars t => exact fun hn => hn t (by simp)
  | mac name t h => exact fun _ => (hM name _ h).2.2.1
  | minus ls l t u v _ _ h hne ih _ =>
    intro hn
    obtain ⟨h1, h2, h3⟩ := ih hn.left
    refine ⟨h.1, hne, (Token.within_iff _ _ h.1.1).2 fun c hc => ?_⟩
    exact (Token.within_iff _ _ h1.1).1 h3 c ((h.2 c).1 hc).1
  | union ls l t u v _ _ h ih1 ih2 =>
    intro hn
    obtain ⟨h1, h2, h3⟩ := ih1 hn.left
    obtain ⟨g1, g2, g3⟩ := ih2 (fun w hw => hn w (by simp at hw; simp [hw]))
    refine ⟨h.1, ?_, (Token.within_iff _ _ h.1.1).2 fun c hc => ?_⟩
    · rintro rfl
      obtain ⟨x, xs, rfl⟩ := List.exists_cons_of_ne_nil h2
      exact Token.mem_nil x.1 ((h.2 x.1).2 (.inl ⟨x, by simp, Nat.le_refl _, h1.1 x (by simp)⟩))
    · rcases (h.2 c).1 hc with hc | hc
      · exact (Token.within_iff _ _ h1.1).1 h3 c hc
      · exact (Token.within_iff _ _ g1.1).1 g3 c hc

/-- The second operand of `{-}` or `{+}`. -/
theorem diff_step {E : TokEnv} {macros : List (List Nat × List Tok)} {M : List (List Nat × Re)} (hM : MacrosMean E macros M) {l : Lx} {u v : Token}
    (h : SetOf M [l] u) {x : Lexeme} (hx : LexTok E.max l x) {ts : List Tok} {e : List Nat} {t : Token} {c : Nat}
    (hc : ∀ e', checkDiff c ⟨.charset, e, t⟩ ⟨.charset, e', u⟩ = .ok ⟨.charset, e, v⟩) :
    ∃ mac', Step macros (ts ++ [⟨.charset, e, t⟩]) [] (some c) x (ts ++ [⟨.charset, e, v⟩]) mac' none ∧ MacFine macros mac' := by
  rcases setOf_single h rfl with rfl | ⟨name, rfl, h1⟩
  · cases hx
    exact ⟨[], .diffTok _ _ _ _ _ _ (by simp [prec]) (by simp) (hc _) (by simp), by simp [MacFine]⟩
  · cases hx
    obtain ⟨g1, g2, g3, m, g4, g5, g6⟩ := hM name _ h1
    obtain ⟨body, k1, k2, k3⟩ := expandMacro_derives g5 g1 g2
    have hl := g6 u rfl
    obtain ⟨first, hf⟩ : ∃ first, m[1]? = some first := ⟨m[1], by rw [List.getElem?_eq_getElem]⟩
    obtain ⟨e', rfl⟩ := atom_chars_one k2 (k3 first hl hf)
    exact ⟨name, .diffMac _ _ _ _ _ _ m _ (by simp [prec]) g4 hf (by omega) (hc _) (by simp), by simp [MacFine, g4, hl]⟩

theorem setOf_steps {E : TokEnv} {macros : List (List Nat × List Tok)} {M : List (List Nat × Re)} (hM : MacrosMean E macros M) {ls : List Lx} {t : Token}
    (h : SetOf M ls t) : ∀ {xs : List Lexeme}, ChNormal E.max ls → Lexed E.max ls xs → ∀ (ts : List Tok) (l : Tok) (mac : List Nat), Pre l.type →
    ∃ e mac', Steps macros (ts ++ [l]) mac none xs (ts ++ [l] ++ [⟨.charset, e, t⟩]) mac' none ∧ MacFine macros mac' := by
  induction h with
  | chars t =>
    intro xs hn hx ts l mac hp
    obtain ⟨x, rfl, hx1⟩ := hx.one
    cases hx1
    exact ⟨[], [], .single (.tok _ _ _ _ hp.1 (by simp) (by simp)), by simp [MacFine]⟩
  | mac name t h =>
    intro xs hn hx ts l mac hp
    obtain ⟨x, rfl, hx1⟩ := hx.one
    cases hx1
    obtain ⟨g1, g2, g3, m, g4, g5, g6⟩ := hM name _ h
    obtain ⟨body, k1, k2, k3⟩ := expandMacro_derives g5 g1 g2
    have hl := g6 t rfl
    obtain ⟨first, hf⟩ : ∃ first, m[1]? = some first := ⟨m[1], by rw [List.getElem?_eq_getElem]⟩
    have hbody := k3 first hl hf
    obtain ⟨e', rfl⟩ := atom_chars_one k2 hbody
    subst hbody
    exact ⟨e', name, .single (.mac _ _ _ _ _ _ hp.2.2.2.1 g4 k1 ⟨[], _, rfl, by simp⟩), by simp [MacFine, g4, hl]⟩
  | minus ls l' t u v h1 h2 h3 h4 ih _ =>
    intro xs hn hx ts l mac hp
    obtain ⟨ys, zs, rfl, hy, hz⟩ := hx.split
    obtain ⟨e, mac1, s1, f1⟩ := ih hn.left hy ts l mac hp
    cases hz with
    | cons _ x1 _ xs2 hx1 hz =>
      cases hx1
      obtain ⟨x2, rfl, hx2⟩ := hz.one
      have n1 := setOf_normal hM h1 hn.left
      have n2 := setOf_normal hM h2 (fun w hw => hn w (by simp at hw; simp [hw]))
      obtain ⟨mac2, s2, f2⟩ := diff_step hM h2 hx2 (ts := ts ++ [l]) (e := e) fun e' => checkDiff_minus (e' := e') n1.1 n2.1 h3 h4
      exact ⟨e, mac2, s1.append (.cons _ _ _ _ _ _ _ _ _ _ _ (.diff _ _ _ _ rfl f1) (.single s2)), f2⟩
  | union ls l' t u v h1 h2 h3 ih _ =>
    intro xs hn hx ts l mac hp
    obtain ⟨ys, zs, rfl, hy, hz⟩ := hx.split
    obtain ⟨e, mac1, s1, f1⟩ := ih hn.left hy ts l mac hp
    cases hz with
    | cons _ x1 _ xs2 hx1 hz =>
      cases hx1
      obtain ⟨x2, rfl, hx2⟩ := hz.one
      have n1 := setOf_normal hM h1 hn.left
      have n2 := setOf_normal hM h2 (fun w hw => hn w (by simp at hw; simp [hw]))
      obtain ⟨mac2, s2, f2⟩ := diff_step hM h2 hx2 (ts := ts ++ [l]) (e := e) fun e' => checkDiff_plus (e' := e') n1.1 n2.1 h3
      exact ⟨e, mac2, s1.append (.cons _ _ _ _ _ _ _ _ _ _ _ (.diff _ _ _ _ rfl f1) (.single s2)), f2⟩

/-! ### Expressions -/

theorem setOf_ne {M : List (List Nat × Re)} {ls : List Lx} {t : Token} (h : SetOf M ls t) : ls ≠ [] := by
  cases h <;> simp

theorem setOf_head {M : List (List Nat × Re)} {ls : List Lx} {t : Token} (h : SetOf M ls t) : ls.head? ≠ some .bol := by
  induction h with
  | chars | mac => simp
  | minus ls l t u v h _ _ _ ih _ =>
    obtain ⟨x, xs, rfl⟩ := List.exists_cons_of_ne_nil (setOf_ne h)
    exact ih
  | union ls l t u v h _ _ ih _ =>
    obtain ⟨x, xs, rfl⟩ := List.exists_cons_of_ne_nil (setOf_ne h)
    exact ih

theorem parses_ne {M : List (List Nat × Re)} {lv : Level} {ls : List Lx} {r : Re} (h : Spec.Parses M lv ls r) : ls ≠ [] := by
  induction h with
  | set ls t h => exact setOf_ne h
  | _ => simp_all

theorem head_append {as : List Lx} {us : List Tok} (h1 : as ≠ []) (h2 : us ≠ [])
    (h : as.head? = some .bol → us.head?.map (·.type) = some .bol) {bs : List Lx} {vs : List Tok} :
    (as ++ bs).head? = some .bol → (us ++ vs).head?.map (·.type) = some .bol := by
  obtain ⟨x, xs, rfl⟩ := List.exists_cons_of_ne_nil h1
  obtain ⟨y, ys, rfl⟩ := List.exists_cons_of_ne_nil h2
  exact h

theorem parses_steps {E : TokEnv} {macros : List (List Nat × List Tok)} {M : List (List Nat × Re)} (hM : MacrosMean E macros M) {lv : Level} {ls : List Lx}
    {r : Re} (h : Spec.Parses M lv ls r) : ∀ {xs : List Lexeme}, ChNormal E.max ls → Lexed E.max ls xs → ∀ (ts : List Tok) (l : Tok) (mac : List Nat),
    Pre l.type → ∃ us mac', Steps macros (ts ++ [l]) mac none xs (ts ++ [l] ++ us) mac' none ∧ Derives lv us r ∧
      (ls.head? = some .bol → us.head?.map (·.type) = some .bol) := by
  have more : ∀ {lv lv' : Level} {ms : List Lx} {q : Re} {us : List Tok} {p : Re} {ys zs : List Lexeme} {ts : List Tok} {l : Tok} {mac mac1 : List Nat},
      Derives lv us p → Steps macros (ts ++ [l]) mac none ys (ts ++ [l] ++ us) mac1 none →
      (∀ (ts : List Tok) (l : Tok) (mac : List Nat), Pre l.type →
        ∃ us mac', Steps macros (ts ++ [l]) mac none zs (ts ++ [l] ++ us) mac' none ∧ Derives lv' us q ∧
          (ms.head? = some .bol → us.head?.map (·.type) = some .bol)) →
      ∃ vs mac', Steps macros (ts ++ [l]) mac none (ys ++ zs) (ts ++ [l] ++ (us ++ vs)) mac' none ∧ Derives lv' vs q := by
    intro lv lv' ms q us p ys zs ts l mac mac1 hd s1 hk
    obtain ⟨us', z, rfl, hz⟩ := derives_last hd
    obtain ⟨vs, mac2, s2, d2, _⟩ := hk (ts ++ [l] ++ us') z mac1 hz.pre.1
    refine ⟨vs, mac2, s1.append ?_, d2⟩
    simpa [List.append_assoc] using s2
  induction h with
  | set ls t h =>
    intro xs hn hx ts l mac hp
    obtain ⟨e, mac', h1, _⟩ := setOf_steps hM h hn hx ts l mac hp
    exact ⟨_, mac', h1, .charset e t, fun hb => absurd hb (setOf_head h)⟩
  | bol =>
    intro xs hn hx ts l mac hp
    obtain ⟨x, rfl, hx1⟩ := hx.one
    cases hx1
    exact ⟨_, [], .single (.tok _ _ _ _ hp.2.1 (by simp) (by simp)), .bol _ _, fun _ => rfl⟩
  | eol =>
    intro xs hn hx ts l mac hp
    obtain ⟨x, rfl, hx1⟩ := hx.one
    cases hx1
    exact ⟨_, [], .single (.tok _ _ _ _ hp.2.2.1 (by simp) (by simp)), .eol _ _, fun h => by cases h⟩
  | paren ls r h ih =>
    intro xs hn hx ts l mac hp
    rw [List.cons_append] at hx
    cases hx with
    | cons _ x _ xs' h1 hx =>
      cases h1
      obtain ⟨ys, zs, rfl, hy, hz⟩ := hx.split
      obtain ⟨y, rfl, hz1⟩ := hz.one
      cases hz1
      have hn' : ChNormal E.max ls := fun u hu => hn u (by simp [hu])
      obtain ⟨us, mac1, s1, d1, _⟩ := ih hn' hy (ts ++ [l]) ⟨.openparen, [], []⟩ [] pre_open.1
      obtain ⟨us', z, rfl, hz⟩ := derives_last d1
      have s2 : Steps macros (ts ++ [l] ++ [⟨.openparen, [], []⟩] ++ (us' ++ [z])) mac1 none [.tok ⟨.closeparen, [], []⟩]
          (ts ++ [l] ++ [⟨.openparen, [], []⟩] ++ (us' ++ [z]) ++ [⟨.closeparen, [], []⟩]) [] none := by
        rw [← List.append_assoc]
        exact .single (.tok _ _ _ _ hz.pre.2.2.1 (by simp) (by simp))
      refine ⟨⟨.openparen, [], []⟩ :: (us' ++ [z]) ++ [⟨.closeparen, [], []⟩], [], ?_, .paren _ _ _ _ rfl rfl d1, fun h => by simp at h⟩
      have := Steps.append (.single (.tok ts l mac ⟨.openparen, [], []⟩ hp.2.2.2.2 (by simp) (by simp))) (s1.append s2)
      simpa [List.append_assoc] using this
  | mac name r h =>
    intro xs hn hx ts l mac hp
    obtain ⟨x, rfl, hx1⟩ := hx.one
    cases hx1
    obtain ⟨g1, g2, g3, m, g4, g5, g6⟩ := hM name _ h
    obtain ⟨body, k1, k2, k3⟩ := expandMacro_derives g5 g1 g2
    obtain ⟨us', z, rfl, hz⟩ := derives_last k2
    exact ⟨_, name, .single (.mac _ _ _ _ _ _ hp.2.2.2.1 g4 k1 ⟨_, _, rfl, hz.pre.2.2.2.2⟩), k2, fun h => by simp at h⟩
  | item ls r _ ih =>
    intro xs hn hx ts l mac hp
    obtain ⟨us, mac', h1, h2, h3⟩ := ih hn hx ts l mac hp
    exact ⟨us, mac', h1, .item _ _ h2, h3⟩
  | rep ls r lo hi lz h ih =>
    intro xs hn hx ts l mac hp
    obtain ⟨ys, zs, rfl, hy, hz⟩ := hx.split
    obtain ⟨y, rfl, hz1⟩ := hz.one
    cases hz1 with
    | rep _ _ _ d hd =>
      obtain ⟨us, mac1, s1, d1, b1⟩ := ih hn.left hy ts l mac hp
      obtain ⟨us', z, rfl, hz⟩ := derives_last d1
      have hpost := postfix_isPostfix (hd r)
      refine ⟨us' ++ [z] ++ [d], [], s1.append ?_, .postfix_ _ _ _ _ d1 (hd r), head_append (parses_ne h) (by simp) b1⟩
      have e1 : ts ++ [l] ++ (us' ++ [z]) = ts ++ [l] ++ us' ++ [z] := by simp [List.append_assoc]
      rw [← List.append_assoc (ts ++ [l]) (us' ++ [z]) [d], e1]
      refine .single (.tok _ _ _ _ (hz.atom_post hpost) ?_ ?_) <;> (intro h; rw [h] at hpost; simp [isPostfix] at hpost)
  | seq1 ls r _ ih =>
    intro xs hn hx ts l mac hp
    obtain ⟨us, mac', h1, h2, h3⟩ := ih hn hx ts l mac hp
    exact ⟨us, mac', h1, .seq1 _ _ h2, h3⟩
  | seq ls ms p q hp1 _ ih1 ih2 =>
    intro xs hn hx ts l mac hp
    obtain ⟨ys, zs, rfl, hy, hz⟩ := hx.split
    obtain ⟨us, mac1, s1, d1, b1⟩ := ih1 hn.left hy ts l mac hp
    obtain ⟨vs, mac2, s2, d2⟩ := more (ms := ms) d1 s1 (ih2 hn.right hz)
    exact ⟨us ++ vs, mac2, s2, .seq _ _ _ _ d1 d2, head_append (parses_ne hp1) (derives_nonempty d1) b1⟩
  | alt1 ls r _ ih =>
    intro xs hn hx ts l mac hp
    obtain ⟨us, mac', h1, h2, h3⟩ := ih hn hx ts l mac hp
    exact ⟨us, mac', h1, .alt1 _ _ h2, h3⟩
  | alt ls ms p q hp1 _ ih1 ih2 =>
    intro xs hn hx ts l mac hp
    obtain ⟨ys, zs, rfl, hy, hz⟩ := hx.split
    obtain ⟨us, mac1, s1, d1, b1⟩ := ih1 hn.left hy ts l mac hp
    cases hz with
    | cons _ x _ zs hb hz =>
      cases hb
      have hn' : ChNormal E.max ms := fun u hu => hn u (by simp [hu])
      obtain ⟨us', z, rfl, hzt⟩ := derives_last d1
      obtain ⟨vs, mac2, s2, d2, _⟩ := ih2 hn' hz (ts ++ [l] ++ us' ++ [z]) ⟨.or_, [], []⟩ [] pre_open.2.1
      refine ⟨us' ++ [z] ++ ⟨.or_, [], []⟩ :: vs, mac2, s1.append (.cons _ _ _ _ _
        (ts ++ [l] ++ us' ++ [z] ++ [⟨.or_, [], []⟩]) [] none _ _ _ ?_ ?_), .alt _ _ _ _ _ rfl d1 d2, head_append (parses_ne hp1) (by simp) b1⟩
      · rw [← List.append_assoc]
        exact .tok _ _ _ _ hzt.pre.2.1 (by simp) (by simp)
      · simpa [List.append_assoc] using s2

/-! ### `tokenise` -/

theorem reads_bol {E : TokEnv} {start : Bool} {f : ReFlags} {fs : List ReFlags} {b : Bool} {w : List Nat} {ls : List Lx}
    (h : Reads E start f fs b w ls) : (start = false → .bol ∉ ls) ∧ (.bol ∈ ls → ls.head? = some .bol) := by
  induction h with
  | done => simp
  | quote _ _ _ _ _ _ _ ih => exact ⟨fun _ => ih.1 rfl, ih.2⟩
  | comment _ _ _ _ _ _ _ _ ih => exact ⟨fun _ => ih.1 rfl, ih.2⟩
  | space _ _ _ _ _ _ _ _ _ ih => exact ⟨fun _ => ih.1 rfl, ih.2⟩
  | ccomment _ _ _ _ _ _ _ _ _ ih => exact ⟨fun _ => ih.1 rfl, ih.2⟩
  | bol => simp
  | _ =>
    rename_i ih
    have := ih.1 rfl
    simp [this]

theorem setOf_bol {M : List (List Nat × Re)} {ls : List Lx} {t : Token} (h : SetOf M ls t) : .bol ∉ ls := by
  induction h with
  | chars | mac => simp
  | minus ls l t u v _ _ _ _ ih1 ih2 => simp_all
  | union ls l t u v _ _ _ ih1 ih2 => simp_all

theorem repeated_noBol {r : Re} {lo : Nat} {hi : Option Nat} {lz : Bool} : (repeated r lo hi lz).noBol = r.noBol := by
  unfold repeated
  split
  · rfl
  split
  · rfl
  split <;> rfl

theorem parses_bol {E : TokEnv} {macros : List (List Nat × List Tok)} {M : List (List Nat × Re)} (hM : MacrosMean E macros M) {lv : Level} {ls : List Lx}
    {r : Re} (h : Spec.Parses M lv ls r) : .bol ∉ ls → r.noBol = true := by
  induction h with
  | set | eol => exact fun _ => rfl
  | bol => simp
  | paren ls r _ ih => exact fun h => ih (by simp_all)
  | mac name r h => exact fun _ => (hM name r h).1
  | item _ _ _ ih => exact ih
  | rep _ _ _ _ _ _ ih => exact fun h => by rw [repeated_noBol]; exact ih (by simp_all)
  | seq1 _ _ _ ih => exact ih
  | seq _ _ _ _ _ _ ih1 ih2 => exact fun h => by simp [Re.noBol, ih1 (by simp_all), ih2 (by simp_all)]
  | alt1 _ _ _ ih => exact ih
  | alt _ _ _ _ _ _ ih1 ih2 => exact fun h => by simp [Re.noBol, ih1 (by simp_all), ih2 (by simp_all)]

theorem stripParens_bol {us : List Tok} (h : us.head?.map (·.type) = some .bol) : ∀ n, stripParens n (beginTok :: us ++ [endTok]) = beginTok :: us ++ [endTok]
  | 0 => rfl
  | n + 1 => by
    unfold stripParens
    cases us with
    | nil => cases h
    | cons u us =>
      have h : u.type = .bol := by simpa using h
      simp [h]

theorem lexed_sets {max : Nat} {ls : List Lx} {xs : List Lexeme} (h : Lexed max ls xs) : ChNormal max ls := by
  induction h with
  | nil => intro u hu; cases hu
  | cons l x ls xs h1 _ ih =>
    intro u hu
    rcases List.mem_cons.1 hu with hu | hu
    · subst hu
      cases h1 with
      | chars _ h => exact h
    · exact ih u hu

theorem repeated_chars {r : Re} {lo : Nat} {hi : Option Nat} {lz : Bool} {P : List (Nat × Nat) → Prop} (h : r.AllChars P) :
    (repeated r lo hi lz).AllChars P := by
  unfold repeated
  split
  · exact h
  split
  · exact h
  split <;> exact h

theorem parses_normal {E : TokEnv} {macros : List (List Nat × List Tok)} {M : List (List Nat × Re)} (hM : MacrosMean E macros M) {lv : Level} {ls : List Lx}
    {r : Re} (h : Spec.Parses M lv ls r) (hn : ChNormal E.max ls) : r.AllChars (SetOk E.max) := by
  induction h with
  | set ls t h => exact setOf_normal hM h hn
  | bol | eol => trivial
  | paren ls r _ ih => exact ih fun u hu => hn u (by simp [hu])
  | mac name r h => exact (hM name r h).2.2.1
  | item _ _ _ ih => exact ih hn
  | rep _ _ _ _ _ _ ih => exact repeated_chars (ih hn.left)
  | seq1 _ _ _ ih => exact ih hn
  | seq _ _ _ _ _ _ ih1 ih2 => exact ⟨ih1 hn.left, ih2 hn.right⟩
  | alt1 _ _ _ ih => exact ih hn
  | alt _ _ _ _ _ _ ih1 ih2 => exact ⟨ih1 hn.left, ih2 fun u hu => hn u (by simp [hu])⟩

theorem derives_lazy {l : Level} {ts : List Tok} {r : Re} (h : Derives l ts r) : r.greedy = true → ∀ t ∈ ts, isLazy t.type = false := by
  induction h with
  | charset | bol | eol => intro _ t ht; simp at ht; rw [ht]; rfl
  | paren o c ts r ho hc _ ih =>
    intro hg t ht
    simp only [List.cons_append, List.mem_cons, List.mem_append, List.not_mem_nil, or_false] at ht
    rcases ht with rfl | ht | rfl
    · rw [ho]; rfl
    · exact ih hg t ht
    · rw [hc]; rfl
  | item _ _ _ ih => exact ih
  | postfix_ ts r d q _ hd ih =>
    intro hg t ht
    rcases List.mem_append.1 ht with ht | ht
    · exact ih (by cases hd <;> simp_all [Re.greedy]) t ht
    · simp at ht
      subst ht
      cases hd <;> first | rfl | simp [Re.greedy] at hg
  | seq1 _ _ _ ih => exact ih
  | seq ts us l r _ _ ih1 ih2 =>
    intro hg t ht
    simp [Re.greedy] at hg
    rcases List.mem_append.1 ht with ht | ht
    · exact ih1 hg.1 t ht
    · exact ih2 hg.2 t ht
  | alt1 _ _ _ ih => exact ih
  | alt ts us o l r ho _ _ ih1 ih2 =>
    intro hg t ht
    simp [Re.greedy] at hg
    simp only [List.mem_append, List.mem_cons] at ht
    rcases ht with ht | rfl | ht
    · exact ih1 hg.1 t ht
    · rw [ho]; rfl
    · exact ih2 hg.2 t ht

theorem lazyIndexes_nil {toks : List Tok} (h : ∀ t ∈ toks, isLazy t.type = false) : lazyIndexes toks = [] := by
  unfold lazyIndexes
  rw [List.filter_eq_nil_iff]
  intro i _
  cases hi : toks[i]? with
  | none => simp
  | some t => simp [h t (List.mem_of_getElem? hi)]

/-- The tokens of a text that means `r`. -/
theorem tokLoop_means {E : TokEnv} (hE : TokEnvOk E) (hC : CharsOk E) {macros : List (List Nat × List Tok)} {M : List (List Nat × Re)}
    (hM : MacrosMean E macros M) {f : ReFlags} {w : List Nat} {r : Re} (h : Means E M f w r) (hx : TextOk E w) :
    ∃ us, tokLoop E macros (w.length + 2) [beginTok] [] none { len := w.length, rest := w, flags := f } =
      .ok (beginTok :: us ++ [endTok]) ∧ Derives .alt us r ∧ r.AllChars (SetOk E.max) ∧
      (r.noBol = false → us.head?.map (·.type) = some .bol) := by
  obtain ⟨ls, h1, h2⟩ := h
  obtain ⟨xs, g1, g2, g3⟩ := reads_trace hE hC (s := { len := w.length, rest := w, flags := f }) h1 hx
    ⟨rfl, rfl, rfl, rfl, rfl, [], rfl, by simp⟩
  obtain ⟨us, mac', k1, k2, k3⟩ := parses_steps hM h2 (lexed_sets g2) g2 [] beginTok [] pre_open.2.2
  obtain ⟨vs, z, rfl, hz⟩ := derives_last k2
  rw [← List.append_assoc] at k1
  have := tokLoop_steps hz.pre.2.2.2.1 g1 k1 (n := w.length + 2) (by omega)
  refine ⟨vs ++ [z], by simpa using this, k2, parses_normal hM h2 (lexed_sets g2), fun hb => k3 ((reads_bol h1).2 ?_)⟩
  refine Classical.byContradiction fun hn => ?_
  rw [parses_bol hM h2 hn] at hb
  cases hb

theorem tokenise_macro {E : TokEnv} (hE : TokEnvOk E) (hC : CharsOk E) {macros : List (List Nat × List Tok)} {M : List (List Nat × Re)}
    (hM : MacrosMean E macros M) {f : ReFlags} {w : List Nat} {r : Re} (h : Means E M f w r) (hx : TextOk E w) :
    ∃ us, tokenise E f macros true w = .ok [beginTok :: us ++ [endTok]] ∧ Derives .alt us r ∧
      r.AllChars (SetOk E.max) ∧ ∀ t, r = .chars t → us.length = 1 := by
  obtain ⟨us, h1, h2, h3, h4⟩ := tokLoop_means hE hC hM h hx
  obtain ⟨vs, g1, g2, g3⟩ := stripParens_derives (beginTok :: us ++ [endTok]).length us h2
  refine ⟨vs, ?_, g2, h3, fun t ht => ?_⟩
  · unfold tokenise
    rw [h1]
    simp only [bind, Except.bind, g1, if_true]
    have := List.length_pos_iff.2 (derives_nonempty g2)
    rw [if_neg (by simp only [List.length_append, List.length_cons, List.length_nil]; omega)]
    simp
  · obtain ⟨e, rfl⟩ := g3 (by simp; omega) t ht
    rfl

theorem tokenise_rule {E : TokEnv} (hE : TokEnvOk E) (hC : CharsOk E) {macros : List (List Nat × List Tok)} {M : List (List Nat × Re)}
    (hM : MacrosMean E macros M) {f : ReFlags} {w : List Nat} {r : Re} (h : Means E M f w r) (hx : TextOk E w) (hg : r.greedy = true) :
    ∃ us, tokenise E f macros false w = .ok [beginTok :: us ++ [endTok]] ∧ Derives .alt us r ∧ r.AllChars (SetOk E.max) ∧
      (r.noBol = false → us.head?.map (·.type) = some .bol) := by
  obtain ⟨us, h1, h2, h3, h4⟩ := tokLoop_means hE hC hM h hx
  obtain ⟨vs, g1, g2, g3⟩ := stripParens_derives (beginTok :: us ++ [endTok]).length us h2
  have h5 : r.noBol = false → vs.head?.map (·.type) = some .bol := by
    intro hb
    rw [stripParens_bol (h4 hb), List.cons_append, List.cons_append, List.cons.injEq] at g1
    rw [← (List.append_inj' g1.2 rfl).1]
    exact h4 hb
  refine ⟨vs, ?_, g2, h3, h5⟩
  have hlz : lazyIndexes (beginTok :: vs ++ [endTok]) = [] := by
    refine lazyIndexes_nil fun t ht => ?_
    simp only [List.cons_append, List.mem_cons, List.mem_append, List.not_mem_nil, or_false] at ht
    rcases ht with rfl | ht | rfl
    · rfl
    · exact derives_lazy g2 hg t ht
    · rfl
  unfold tokenise
  rw [h1]
  simp only [bind, Except.bind, g1, hlz, List.reverse_nil, pruneLoop, Bool.false_eq_true, if_false]
  have := List.length_pos_iff.2 (derives_nonempty g2)
  rw [if_neg (by simp only [List.length_append, List.length_cons, List.length_nil]; omega)]
  simp

end Lexertl.Reading
