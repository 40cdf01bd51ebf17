import Verif.Proofs.Next

/-
The tokeniser on any text: the tokens of a regex.
-/
namespace Lexertl
open Spec

theorem nil_or_snoc {α : Type} (l : List α) : l = [] ∨ ∃ us t, l = us ++ [t] := by
  rcases List.eq_nil_or_concat l with h | ⟨us, t, h⟩
  · exact .inl h
  · exact .inr ⟨us, t, by rw [h, List.concat_eq_append]⟩

/-- Open parentheses after the tokens, starting with `n`. -/
def pdepth : Nat → List Tok → Option Nat
  | n, [] => some n
  | n, t :: ts =>
    match t.type with
    | .openparen => pdepth (n + 1) ts
    | .closeparen => if n = 0 then none else pdepth (n - 1) ts
    | _ => pdepth n ts

theorem pdepth_append : ∀ (n : Nat) (a b : List Tok), pdepth n (a ++ b) = (pdepth n a).bind (fun m => pdepth m b)
  | n, [], b => rfl
  | n, t :: a, b => by
    simp only [List.cons_append, pdepth]
    split
    · exact pdepth_append _ a b
    · split
      · rfl
      · exact pdepth_append _ a b
    · exact pdepth_append _ a b

theorem pdepth_add : ∀ (k n m : Nat) (a : List Tok), pdepth n a = some m → pdepth (n + k) a = some (m + k)
  | k, n, m, [], h => by simp only [pdepth, Option.some.injEq] at h ⊢; omega
  | k, n, m, t :: a, h => by
    unfold pdepth at h ⊢
    split
    · rename_i ht
      simp only [ht] at h
      have := pdepth_add k _ m a h
      rwa [Nat.add_right_comm] at this
    · rename_i ht
      simp only [ht] at h
      split at h
      · contradiction
      · rw [if_neg (by omega)]
        have := pdepth_add k _ m a h
        rwa [show n - 1 + k = n + k - 1 by omega] at this
    · rename_i h1 h2
      split at h
      · contradiction
      · contradiction
      · exact pdepth_add k n m a h

theorem balanced_iff : ∀ (n : Nat) (ts : List Tok), balanced n ts = true ↔ pdepth n ts = some 0
  | n, [] => by simp [balanced, pdepth]
  | n, t :: ts => by
    cases h : t.type
    all_goals
      simp only [balanced, pdepth, h]
      first
      | exact balanced_iff _ ts
      | (split
         · simp
         · exact balanced_iff _ ts)

theorem pdepth_single (n : Nat) (t : Tok) : pdepth n [t] =
    match t.type with
    | .openparen => some (n + 1)
    | .closeparen => if n = 0 then none else some (n - 1)
    | _ => some n := by
  simp only [pdepth]

def isPostfix : TT → Bool
  | .opt | .aopt | .zeroormore | .azeroormore | .oneormore | .aoneormore | .repeatn | .arepeatn => true
  | _ => false

def opens : TT → Bool
  | .begin | .or_ | .openparen => true
  | _ => false

/-- No postfix operator stands at the start, after `|` or after `(`; `l` is the type of the
token before. -/
def Adj : TT → List Tok → Prop
  | _, [] => True
  | l, t :: ts => (isPostfix t.type = true → opens l = false) ∧ Adj t.type ts

/-- The type of the last token, `l` if there is none. -/
def lastType (l : TT) (ts : List Tok) : TT := (ts.getLast?.map (·.type)).getD l

theorem lastType_cons (l : TT) (t : Tok) (ts : List Tok) : lastType l (t :: ts) = lastType t.type ts := by
  cases ts with
  | nil => rfl
  | cons u us => simp [lastType, List.getLast?_cons]

theorem lastType_append_single (l : TT) (ts : List Tok) (t : Tok) : lastType l (ts ++ [t]) = t.type := by
  simp [lastType]

theorem adj_append : ∀ (l : TT) (a b : List Tok), Adj l (a ++ b) ↔ Adj l a ∧ Adj (lastType l a) b
  | l, [], b => by simp [Adj, lastType]
  | l, t :: a, b => by
    simp only [List.cons_append, Adj, lastType_cons, adj_append t.type a b, and_assoc]

theorem adj_any {l : TT} {ts : List Tok} (h : Adj .begin ts) : Adj l ts := by
  cases ts with
  | nil => trivial
  | cons t ts =>
    refine ⟨fun hp => ?_, h.2⟩
    have := h.1 hp
    simp [opens] at this

/-- The tokens between `BEGIN` and `END`. -/
structure Body (max : Nat) (ts : List Tok) (n : Nat) : Prop where
  tok : ∀ t ∈ ts, TokOk max t
  pdepth : pdepth 0 ts = some n
  adj : Adj .begin ts

/-- A whole regex. -/
def WholeOk (max : Nat) (toks : List Tok) : Prop := ∃ ts, toks = beginTok :: ts ++ [endTok] ∧ Body max ts 0

/-- All macros have been read successfully. -/
def MacrosOk (max : Nat) (macros : List (List Nat × List Tok)) : Prop :=
  ∀ name m, find name macros = some m → WholeOk max m

theorem Body.snoc {max n m : Nat} {ts : List Tok} {t : Tok} (h : Body max ts n) (ht : TokOk max t)
    (hm : m + (if t.type = .closeparen then 1 else 0) = n + (if t.type = .openparen then 1 else 0))
    (hp : isPostfix t.type = true → opens (lastType .begin ts) = false) : Body max (ts ++ [t]) m := by
  refine ⟨?_, ?_, ?_⟩
  · intro u hu
    rcases List.mem_append.1 hu with hu | hu
    · exact h.tok u hu
    · rw [List.mem_singleton.1 hu]; exact ht
  · rw [pdepth_append, h.pdepth, Option.bind_some, pdepth_single]
    split
    · rename_i h1
      simp only [h1, reduceCtorEq, if_true, if_false] at hm
      simp; omega
    · rename_i h1
      simp only [h1, reduceCtorEq, if_true, if_false] at hm
      rw [if_neg (by omega)]
      simp; omega
    · rename_i h1 h2
      rw [if_neg h1, if_neg h2] at hm
      simp; omega
  · rw [adj_append]
    exact ⟨h.adj, hp, trivial⟩

theorem Body.append {max n : Nat} {a b : List Tok} (h : Body max a n) (hb : Body max b 0) : Body max (a ++ b) n := by
  refine ⟨?_, ?_, ?_⟩
  · intro u hu
    rcases List.mem_append.1 hu with hu | hu
    · exact h.tok u hu
    · exact hb.tok u hu
  · rw [pdepth_append, h.pdepth, Option.bind_some]
    have := pdepth_add n 0 0 b hb.pdepth
    simpa using this
  · rw [adj_append]
    exact ⟨h.adj, adj_any hb.adj⟩

theorem Body.set_last {max n : Nat} {ts : List Tok} {t u : Tok} (h : Body max (ts ++ [t]) n) (ht : t.type = .charset)
    (hu : u.type = .charset) (hok : TokOk max u) : Body max (ts ++ [u]) n := by
  have h1 : Body max ts n := by
    refine ⟨fun v hv => h.tok v (by simp [hv]), ?_, ((adj_append ..).1 h.adj).1⟩
    have := h.pdepth
    rw [pdepth_append] at this
    cases hd : Lexertl.pdepth 0 ts with
    | none => rw [hd] at this; simp at this
    | some k =>
      rw [hd] at this
      simpa [pdepth_single, ht] using this
  exact h1.snoc hok (by simp [hu]) (by simp [hu, isPostfix])

theorem TokOk.of_charset {max : Nat} {t : Tok} (h : TokOk max t) (ht : t.type = .charset) :
    t.extra = [] ∧ CharsetOk max t.str := by
  rcases h with h | h | ⟨⟨_, _, h⟩, _⟩
  · exact h.2
  · rw [ht] at h; simp at h
  · cases h <;> simp at ht

theorem prec_postfix {l r : TT} (h : prec l r ≠ .err) (hr : isPostfix r = true) : opens l = false := by
  cases l <;> cases r <;> revert h hr <;> decide

theorem checkDiff_total {max d : Nat} {lhs rhs : Tok} (hl : TokOk max lhs) (ht : lhs.type = .charset)
    (hr : rhs.type = .charset → TokOk max rhs) :
    Total (fun t => t.type = .charset ∧ TokOk max t) (checkDiff d lhs rhs) := by
  unfold checkDiff
  split
  · trivial
  · rename_i hc
    have hc : rhs.type = .charset := by simpa using hc
    obtain ⟨e1, c1⟩ := hl.of_charset ht
    obtain ⟨e2, c2⟩ := (hr hc).of_charset hc
    have k1 : Cs max lhs.str := ⟨c1.normal, c1.within⟩
    have k2 : Cs max rhs.str := ⟨c2.normal, c2.within⟩
    split
    · obtain ⟨t', h1, h2⟩ := k1.remove k2
      rw [h1]
      dsimp only
      split
      · trivial
      · exact ⟨ht, .inl ⟨ht, e1, h2.normal, h2.within, by assumption⟩⟩
    split
    · have h2 := k1.insertToken k2
      refine ⟨ht, .inl ⟨ht, e1, h2.normal, h2.within, ?_⟩⟩
      obtain ⟨r, hr⟩ : ∃ r, r ∈ lhs.str := by
        cases h : lhs.str with
        | nil => exact (c1.ne h).elim
        | cons r _ => exact ⟨r, by simp⟩
      exact Cs.ne_of_mem (((Token.insertToken_spec _ _ k1.normal k2.normal.1).2 r.1).2
        (.inl ⟨r, hr, Nat.le_refl _, k1.normal.1 r hr⟩))
    · exact ⟨ht, hl⟩

theorem body_parens {max : Nat} {ts : List Tok} (h : Body max ts 0) : Body max (openTok :: ts ++ [closeTok]) 0 := by
  have h1 : Body max [openTok] 1 :=
    ⟨by simp [TokOk, openTok], by simp [pdepth, openTok], by simp [Adj, openTok, isPostfix]⟩
  have h2 := h1.append h
  exact h2.snoc (.inr (.inl (by simp [closeTok]))) (by simp [closeTok]) (by simp [closeTok, isPostfix])

theorem tokOk_single {max c : Nat} (h : c ≤ max) : TokOk max ⟨.charset, [], [(c, c)]⟩ :=
  .inl ⟨rfl, rfl, ⟨by simp [Normal], by intro r hr; simp at hr; subst hr; exact h, by simp⟩⟩

theorem expandMacro_total {max : Nat} (hb : 127 ≤ max) {m : List Tok} (hm : WholeOk max m) (a b : Bool) :
    Total (fun ts => Body max ts 0) (expandMacro m a b) := by
  obtain ⟨ts, rfl, h⟩ := hm
  have h94 : TokOk max ⟨.charset, [], [(94, 94)]⟩ := tokOk_single (by omega)
  have h36 : TokOk max ⟨.charset, [], [(36, 36)]⟩ := tokOk_single (by omega)
  unfold expandMacro
  have e1 : ∃ f, (beginTok :: ts ++ [endTok])[1]? = some f ∧ (f.type = .bol → ∃ us, ts = f :: us) := by
    cases ts with
    | nil => exact ⟨endTok, rfl, by simp [endTok]⟩
    | cons t us => exact ⟨t, rfl, fun _ => ⟨us, rfl⟩⟩
  have e2 : ∃ f, (beginTok :: ts ++ [endTok])[(beginTok :: ts ++ [endTok]).length - 2]? = some f ∧
      (f.type = .eol → ∃ us, ts = us ++ [f]) := by
    rcases nil_or_snoc ts with rfl | ⟨us, t, rfl⟩
    · exact ⟨beginTok, rfl, by simp [beginTok]⟩
    · refine ⟨t, ?_, fun _ => ⟨us, rfl⟩⟩
      simp
  obtain ⟨f, e1, hf⟩ := e1
  obtain ⟨s, e2, hs⟩ := e2
  rw [e1, e2]
  dsimp only
  have fin : ∀ (p : Bool) (body : List Tok), Body max body 0 →
      Total (fun ts => Body max ts 0) (.ok (if p then openTok :: body ++ [closeTok] else body)) := by
    intro p body hbody
    cases p
    · exact hbody
    · exact body_parens hbody
  refine fin _ _ ?_
  generalize hcar : (!(a && f.type == TT.bol) && f.type == TT.bol) = caret
  generalize hdol : (!(b && s.type == TT.eol) && s.type == TT.eol) = dollar
  have hcar' : caret = true → f.type = .bol := by
    intro hc; rw [hc] at hcar; simp at hcar; exact hcar.2
  have hdol' : dollar = true → s.type = .eol := by
    intro hc; rw [hc] at hdol; simp at hdol; exact hdol.2
  -- the tokens taken over from the macro
  have hlen : (beginTok :: ts ++ [endTok]).length = ts.length + 2 := by simp
  rw [hlen]
  have tail : ∀ {us : List Tok} {u : Tok} , u.type = .bol → Body max (u :: us) 0 →
      Body max (⟨.charset, [], [(94, 94)]⟩ :: us) 0 := by
    intro us u hu hB
    refine ⟨?_, ?_, ?_⟩
    · intro v hv
      rcases List.mem_cons.1 hv with rfl | hv
      · exact h94
      · exact hB.tok v (by simp [hv])
    · have := hB.pdepth
      simpa [pdepth, hu] using this
    · have := hB.adj
      refine ⟨by simp [isPostfix], ?_⟩
      have h2 := this.2
      cases us with
      | nil => trivial
      | cons v vs => exact ⟨fun _ => rfl, h2.2⟩
  have init : ∀ {us : List Tok} {u : Tok}, u.type = .eol → Body max (us ++ [u]) 0 →
      Body max (us ++ [⟨.charset, [], [(36, 36)]⟩]) 0 := by
    intro us u hu hB
    refine ⟨?_, ?_, ?_⟩
    · intro v hv
      rcases List.mem_append.1 hv with hv | hv
      · exact hB.tok v (by simp [hv])
      · rw [List.mem_singleton.1 hv]; exact h36
    · have := hB.pdepth
      rw [pdepth_append] at this ⊢
      cases hd : pdepth 0 us with
      | none => rw [hd] at this; simp at this
      | some k => rw [hd] at this; simpa [pdepth_single, hu] using this
    · rw [adj_append]
      exact ⟨((adj_append ..).1 hB.adj).1, by simp [isPostfix], trivial⟩
  have hts : (if caret then [(⟨.charset, [], [(94, 94)]⟩ : Tok)] else []) ++ ts.drop (if caret then 1 else 0) = ts ∧ caret = false ∨
      caret = true := by cases caret <;> simp
  have key : Body max ((if caret = true then [(⟨.charset, [], [(94, 94)]⟩ : Tok)] else []) ++
      List.drop (if caret = true then 2 else 1) (List.take (ts.length + 2 - if dollar = true then 2 else 1) (beginTok :: ts ++ [endTok])) ++
      if dollar = true then [(⟨.charset, [], [(36, 36)]⟩ : Tok)] else []) 0 := by
    cases caret with
    | false =>
      cases dollar with
      | false =>
        have : List.drop 1 (List.take (ts.length + 2 - 1) (beginTok :: ts ++ [endTok])) = ts := by
          simp
        simpa [this] using h
      | true =>
        obtain ⟨us, rfl⟩ := hs (hdol' rfl)
        have := init (hdol' rfl) h
        simpa using this
    | true =>
      obtain ⟨us, rfl⟩ := hf (hcar' rfl)
      have h1 := tail (hcar' rfl) h
      cases dollar with
      | false => simpa using h1
      | true =>
        obtain ⟨vs, hv⟩ := hs (hdol' rfl)
        have hft := hcar' rfl
        have hst := hdol' rfl
        rcases nil_or_snoc us with rfl | ⟨ws, w, rfl⟩
        · cases vs with
          | nil => simp at hv; rw [hv] at hft; rw [hft] at hst; contradiction
          | cons v vs => simp at hv
        · have : w = s := by
            have h3 := congrArg List.getLast? hv
            rw [← List.cons_append, List.getLast?_append, List.getLast?_append] at h3
            simpa using h3
          subst this
          have := init (us := ⟨.charset, [], [(94, 94)]⟩ :: ws) hst (by simpa using h1)
          simpa using this
  exact key

theorem tokLoop_total {E : TokEnv} (hE : TokEnvOk E) {macros : List (List Nat × List Tok)} (hm : MacrosOk E.max macros) :
    ∀ (n : Nat) (ts : List Tok) (mac : List Nat) (diff : Option Nat) (st : TkState),
    TextOk E st.rest → PlainCounts st.rest → Body E.max ts st.parens → st.rest.length + 1 < n →
    (diff.isSome = true → lastType .begin ts = .charset) →
    Total (WholeOk E.max) (tokLoop E macros n (beginTok :: ts) mac diff st)
  | 0, ts, mac, diff, st, _, _, _, h, _ => by omega
  | n + 1, ts, mac, diff, st, hx, hsm, hB, hn, hd => by
    unfold tokLoop
    have hlast : ∃ lhs, (beginTok :: ts).getLast? = some lhs ∧ lhs.type = lastType .begin ts ∧
        (lastType .begin ts = .charset → ∃ us, ts = us ++ [lhs]) := by
      rcases nil_or_snoc ts with rfl | ⟨us, t, rfl⟩
      · exact ⟨beginTok, rfl, rfl, by simp [lastType]⟩
      · refine ⟨t, by simp [List.getLast?_cons], by simp [lastType], fun _ => ⟨us, rfl⟩⟩
    obtain ⟨lhs, hl1, hl2, hl3⟩ := hlast
    rw [hl1]
    dsimp only
    refine (next_total hE lhs.type st hx hsm).bind fun x hN => ?_
    obtain ⟨rhs, st'⟩ := x
    have hx' := textOk_suffix hx hN.suffix
    have hsm' := plainCounts_infix hsm hN.suffix.isInfix
    cases rhs with
    | diff c =>
      obtain ⟨d1, d2, d3⟩ := hN.diff c rfl
      have := (hN.adv (by simp)).length
      dsimp only at this d3 hx' hsm' ⊢
      split
      · trivial
      · exact tokLoop_total hE hm n ts [] (some c) st' hx' hsm' (d3 ▸ hB) (by omega) (fun _ => hl2 ▸ d1)
    | tok rhs =>
      dsimp only
      split
      · trivial
      · rename_i hprec
        have loop : ∀ (us : List Tok) (mac : List Nat), Body E.max us st'.parens → rhs ≠ endTok →
            Total (WholeOk E.max) (if ((beginTok :: us).getLast?).map (·.type) = some .end_ then .ok (beginTok :: us)
              else tokLoop E macros n (beginTok :: us) mac none st') := by
          intro us mac hU hne
          have hlt := (hN.adv (by simpa using hne)).length
          rw [if_neg]
          · exact tokLoop_total hE hm n us mac none st' hx' hsm' hU (by dsimp only at hlt; omega) (by simp)
          · rcases nil_or_snoc us with rfl | ⟨vs, t, rfl⟩
            · simp [beginTok]
            · simp only [List.getLast?_cons, List.getLast?_append, List.getLast?_nil]
              have := hU.tok t (by simp)
              rcases this with h | h | ⟨⟨_, _, h⟩, _⟩
              · simp [h.1]
              · simp only [List.mem_cons, List.not_mem_nil, or_false] at h
                rcases h with h | h | h | h | h <;> simp [h]
              · cases h <;> simp
        have hdiff : ∀ (d : Nat) (r : Tok), (diff = some d) → (r.type = .charset → TokOk E.max r) → st'.parens = st.parens → rhs ≠ endTok → ∀ mac,
            Total (WholeOk E.max) (do
              let lhs ← checkDiff d lhs r
              if (((beginTok :: ts).dropLast ++ [lhs]).getLast?).map (·.type) = some .end_ then .ok ((beginTok :: ts).dropLast ++ [lhs])
              else tokLoop E macros n ((beginTok :: ts).dropLast ++ [lhs]) mac none st') := by
          intro d r hd' hr hpar hne mac
          have hch := hd (by simp [hd'])
          obtain ⟨us, rfl⟩ := hl3 hch
          have hlt : lhs.type = .charset := by rw [hl2]; exact hch
          refine (checkDiff_total (hB.tok lhs (by simp)) hlt hr).bind fun u hu => ?_
          have := loop (us ++ [u]) mac (hpar ▸ hB.set_last hlt hu.1 hu.2) hne
          rw [show (beginTok :: (us ++ [lhs])).dropLast ++ [u] = beginTok :: (us ++ [u]) by
            rw [← List.cons_append, List.dropLast_concat, List.cons_append]]
          exact this
        split
        · rename_i hmac
          have hne : rhs ≠ endTok := by rintro rfl; simp [endTok] at hmac
          have hpar : st'.parens = st.parens := by
            rcases hN.tok rhs rfl with h | h | h
            · exact (hne h.1).elim
            · exact h.2
            · have := h.2
              rcases h.1 with h | h | ⟨⟨_, _, h⟩, _⟩
              · rw [h.1] at hmac; contradiction
              · rw [hmac] at h; simp at h
              · cases h <;> simp at hmac
          split
          · trivial
          · rename_i m hfind
            have hM := hm _ _ hfind
            split
            · rename_i d
              split
              · rename_i h1
                obtain ⟨us, rfl, _⟩ := hM
                cases us <;> simp at h1
              · rename_i first h1
                split
                · trivial
                · refine hdiff d first rfl ?_ hpar hne rhs.extra
                  intro hc
                  obtain ⟨us, rfl, hU⟩ := hM
                  cases us with
                  | nil => simp at h1; subst h1; simp [endTok] at hc
                  | cons u us => simp at h1; subst h1; exact hU.tok u (by simp)
            · refine (expandMacro_total hE.big hM _ _).bind fun body hbody => ?_
              exact loop (ts ++ body) rhs.extra (hpar ▸ hB.append hbody) hne
        · rename_i hmac
          split
          · rename_i d
            by_cases hc : rhs.type = .charset
            · have hne : rhs ≠ endTok := by rintro rfl; simp [endTok] at hc
              rcases hN.tok rhs rfl with h | h | h
              · exact (hne h.1).elim
              · exact (hmac h.1).elim
              · have hp := h.2
                simp only [hc, reduceCtorEq, if_false, Nat.add_zero] at hp
                exact hdiff d rhs rfl (fun _ => h.1) hp hne mac
            · unfold checkDiff
              rw [if_pos hc]
              trivial
          · rcases hN.tok rhs rfl with h | h | h
            · obtain ⟨rfl, h1, h2⟩ := h
              change Total _ (if _ then Except.ok (beginTok :: ts ++ [endTok]) else _)
              rw [if_pos (by rw [List.getLast?_append]; simp [endTok])]
              exact ⟨ts, rfl, h1 ▸ hB⟩
            · exact (hmac h.1).elim
            · have hne : rhs ≠ endTok := by
                rintro rfl
                rcases h.1 with h | h | ⟨⟨_, _, h⟩, _⟩
                · simp [endTok] at h
                · simp [endTok] at h
                · cases h
              exact loop (ts ++ [rhs]) [] (hB.snoc h.1 h.2 fun hp => hl2 ▸ prec_postfix hprec hp) hne

/-! ### `strip_parens` -/

theorem stripParens_ok {max : Nat} : ∀ (n : Nat) (toks : List Tok), WholeOk max toks → WholeOk max (stripParens n toks)
  | 0, _, h => h
  | n + 1, toks, h => by
    unfold stripParens
    dsimp only
    split
    · rename_i hc
      obtain ⟨h1, h2, h3, h4⟩ := hc
      refine stripParens_ok n _ ?_
      obtain ⟨ts, rfl, hB⟩ := h
      have hlen : (beginTok :: ts ++ [endTok]).length - 2 = ts.length := by simp
      rw [hlen] at h1 h3 h4 ⊢
      cases ts with
      | nil => simp at h1
      | cons o us =>
        rcases nil_or_snoc us with rfl | ⟨vs, c, rfl⟩
        · simp at h1
        · have ho : o.type = .openparen := by simpa using h2
          have hcl : c.type = .closeparen := by simpa using h3
          have e1 : ((beginTok :: (o :: (vs ++ [c])) ++ [endTok]).eraseIdx (o :: (vs ++ [c])).length).eraseIdx 1 =
              beginTok :: vs ++ [endTok] := by
            have : (o :: (vs ++ [c])).length = (beginTok :: o :: vs).length := by simp
            rw [this, show beginTok :: (o :: (vs ++ [c])) ++ [endTok] = (beginTok :: o :: vs) ++ (c :: [endTok]) by simp,
              List.eraseIdx_append_of_length_le (Nat.le_refl _)]
            simp
          have e2 : List.drop 2 (List.take (o :: (vs ++ [c])).length (beginTok :: (o :: (vs ++ [c])) ++ [endTok])) = vs := by
            have : (o :: (vs ++ [c])).length = (beginTok :: o :: vs).length := by simp
            rw [this, show beginTok :: (o :: (vs ++ [c])) ++ [endTok] = (beginTok :: o :: vs) ++ (c :: [endTok]) by simp,
              List.take_left]
            rfl
          rw [e1]
          rw [e2, balanced_iff] at h4
          refine ⟨vs, rfl, fun t ht => hB.tok t (by simp [ht]), h4, ?_⟩
          have := hB.adj.2
          have := ((adj_append ..).1 this).1
          cases vs with
          | nil => trivial
          | cons v vs =>
            refine ⟨fun hp => ?_, this.2⟩
            have h5 := this.1 hp
            rw [ho] at h5
            simp [opens] at h5
    · exact h

end Lexertl
