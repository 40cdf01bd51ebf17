import Verif.Proofs.CalcLoop

/-
A text is written by at most one expression.
-/
namespace Lexertl.Calc
open Spec Spec.Calc

/-- As many parentheses are opened as closed. -/
def Even (p : List Tk) : Prop := p.count .opn = p.count .cls

/-- The last token ends an operand. -/
def Ender (p : List Tk) : Prop := ∃ p0 t, p = p0 ++ [t] ∧ ∀ c, t ≠ .op c

theorem tokens_even : ∀ e : Expr, Even e.tokens
  | .num _ => rfl
  | .paren e => by
    have := tokens_even e
    unfold Even at this ⊢
    simp [Expr.tokens, this]
  | .neg e => by
    have := tokens_even e
    unfold Even at this ⊢
    simp [Expr.tokens, this]
  | .bin _ l r => by
    have h1 := tokens_even l
    have h2 := tokens_even r
    unfold Even at h1 h2 ⊢
    simp [Expr.tokens, h1, h2]

theorem tokens_ender : ∀ e : Expr, Ender e.tokens
  | .num ds => ⟨[], _, rfl, fun _ h => by cases h⟩
  | .paren e => ⟨.opn :: e.tokens, _, rfl, fun _ h => by cases h⟩
  | .neg e => by
    obtain ⟨p, t, h, h'⟩ := tokens_ender e
    exact ⟨.op 45 :: p, t, by rw [Expr.tokens, h]; rfl, h'⟩
  | .bin c l r => by
    obtain ⟨p, t, h, h'⟩ := tokens_ender r
    exact ⟨l.tokens ++ .op c :: p, t, by rw [Expr.tokens, h]; simp, h'⟩

theorem Ender.after {c : Nat} {a b : List Tk} (h : Ender (a ++ .op c :: b)) : Ender b := by
  obtain ⟨p, t, h, h'⟩ := h
  rcases List.eq_nil_or_concat b with rfl | ⟨b0, x, rfl⟩
  · rw [show a ++ [Tk.op c] = a ++ [Tk.op c] from rfl] at h
    have := (List.append_inj' h rfl).2
    simp only [List.cons.injEq, and_true] at this
    exact absurd this.symm (h' c)
  · refine ⟨b0, x, by simp, ?_⟩
    have h : (a ++ .op c :: b0) ++ [x] = p ++ [t] := by rw [← h]; simp
    have := (List.append_inj' h rfl).2
    simp only [List.cons.injEq, and_true] at this
    rw [this]
    exact h'

/-- Splitting at a token. -/
theorem split_at {l r p q : List Tk} {x y : Tk} (h : l ++ x :: r = p ++ y :: q) :
    (∃ m, l = p ++ y :: m ∧ q = m ++ x :: r) ∨ (l = p ∧ x = y ∧ r = q) ∨ ∃ m, p = l ++ x :: m ∧ r = m ++ y :: q := by
  rcases List.append_eq_append_iff.1 h with ⟨m, h1, h2⟩ | ⟨m, h1, h2⟩
  · cases m with
    | nil =>
      simp only [List.append_nil, List.nil_append, List.cons.injEq] at h1 h2
      exact .inr (.inl ⟨h1.symm, h2.1, h2.2⟩)
    | cons a m =>
      simp only [List.cons_append, List.cons.injEq] at h2
      obtain ⟨rfl, h2⟩ := h2
      exact .inr (.inr ⟨m, h1, h2⟩)
  · cases m with
    | nil =>
      simp only [List.append_nil, List.nil_append, List.cons.injEq] at h1 h2
      exact .inr (.inl ⟨h1, h2.1.symm, h2.2.symm⟩)
    | cons a m =>
      simp only [List.cons_append, List.cons.injEq] at h2
      obtain ⟨rfl, h2⟩ := h2
      exact .inl ⟨m, h1, h2⟩

theorem prefix_open : ∀ (e : Expr) (p q : List Tk), e.tokens = p ++ q → p.count .cls ≤ p.count .opn
  | .num ds, p, q, h => by
    cases p with
    | nil => simp
    | cons a p =>
      simp only [Expr.tokens, List.cons_append, List.cons.injEq] at h
      obtain ⟨rfl, h⟩ := h
      obtain ⟨rfl, rfl⟩ := List.append_eq_nil_iff.1 h.symm
      simp
  | .paren e, p, q, h => by
    cases p with
    | nil => simp
    | cons a p =>
      simp only [Expr.tokens, List.cons_append, List.cons.injEq] at h
      obtain ⟨rfl, h⟩ := h
      have key : p.count .cls ≤ p.count .opn + 1 := by
        rcases List.append_eq_append_iff.1 h with ⟨m, h1, h2⟩ | ⟨m, h1, h2⟩
        · have h3 := tokens_even e
          unfold Even at h3
          have h4 : m.count .cls ≤ 1 := by
            have := congrArg (List.count Tk.cls) h2
            simp only [List.count_append, List.count_cons_self, List.count_nil] at this
            omega
          rw [h1, List.count_append, List.count_append]
          omega
        · have := prefix_open e p m h1
          omega
      simp only [List.count_cons]
      simp
      exact key
  | .neg e, p, q, h => by
    cases p with
    | nil => simp
    | cons a p =>
      simp only [Expr.tokens, List.cons_append, List.cons.injEq] at h
      obtain ⟨rfl, h⟩ := h
      have := prefix_open e p q h
      simpa [List.count_cons] using this
  | .bin c l r, p, q, h => by
    rw [Expr.tokens] at h
    rcases List.append_eq_append_iff.1 h with ⟨m, h1, h2⟩ | ⟨m, h1, h2⟩
    · have h3 := tokens_even l
      unfold Even at h3
      cases m with
      | nil => rw [h1, List.append_nil, h3]; exact Nat.le_refl _
      | cons a m =>
        simp only [List.cons_append, List.cons.injEq] at h2
        obtain ⟨rfl, h2⟩ := h2
        have := prefix_open r m q h2
        rw [h1, List.count_append, List.count_append, h3]
        simp only [List.count_cons]
        simpa using this
    · exact prefix_open l p m h1

/-- An operator between operands, outside parentheses: only sums have a `+` or `-` there, and
only products and sums any. -/
theorem inner_op : ∀ (e : Expr) (n : Nat), e.Level n → ∀ (p q : List Tk) (c : Nat), e.tokens = p ++ .op c :: q → Even p → Ender p →
    2 ≤ n ∧ (c ∉ [42, 47, 37] → 3 ≤ n)
  | .num ds, n, _, p, q, c, h, _, _ => by
    cases p with
    | nil => cases h
    | cons a p =>
      simp only [Expr.tokens, List.cons_append, List.cons.injEq] at h
      have := h.2
      simp at this
  | .neg e, n, hl, p, q, c, h, he, hp => by
    cases p with
    | nil => obtain ⟨p0, t, h, _⟩ := hp; simp at h
    | cons a p =>
      simp only [Expr.tokens, List.cons_append, List.cons.injEq] at h
      obtain ⟨rfl, h⟩ := h
      have := inner_op e 0 hl.2 p q c h (by simpa [Even, List.count_cons] using he) (Ender.after (a := []) hp)
      omega
  | .paren e, n, hl, p, q, c, h, he, hp => by
    cases p with
    | nil => obtain ⟨p0, t, h, _⟩ := hp; simp at h
    | cons a p =>
      simp only [Expr.tokens, List.cons_append, List.cons.injEq] at h
      obtain ⟨rfl, h⟩ := h
      unfold Even at he
      simp only [List.count_cons] at he
      simp at he
      rcases split_at h with ⟨m, h1, h2⟩ | ⟨h1, h2, _⟩ | ⟨m, h1, h2⟩
      · have := prefix_open e p _ h1
        omega
      · cases h2
      · simp at h2
  | .bin d l r, n, hl, p, q, c, h, he, hp => by
    rw [Expr.tokens] at h
    rcases split_at h with ⟨m, h1, h2⟩ | ⟨h1, h2, _⟩ | ⟨m, h1, h2⟩
    · rcases hl with ⟨_, hn, hl, _⟩ | ⟨_, hn, hl, _⟩
      · have := inner_op l 2 hl p m c h1 he hp
        exact ⟨hn, fun h => by have := this.2 h; omega⟩
      · exact ⟨by omega, fun _ => hn⟩
    · cases h2
      rcases hl with ⟨h, hn, _⟩ | ⟨_, hn, _⟩
      · exact ⟨hn, fun h' => absurd h h'⟩
      · exact ⟨by omega, fun _ => hn⟩
    · have hm : Even m := by
        have := tokens_even l
        unfold Even at this he ⊢
        rw [h1, List.count_append, List.count_append, this] at he
        simp only [List.count_cons] at he
        simpa using he
      rw [h1] at hp
      rcases hl with ⟨_, hn, _, hr⟩ | ⟨_, hn, _, hr⟩
      · have := inner_op r 1 hr m q c h2 hm hp.after
        omega
      · exact ⟨by omega, fun _ => hn⟩

theorem mul_or_add {c : Nat} : c ∈ [43, 45] → c ∉ [42, 47, 37] := by
  simp only [List.mem_cons, List.not_mem_nil, or_false]
  omega

/-- The operators at the front of a shorter and a longer left operand. -/
theorem no_shift {c c' : Nat} {l r l' r' : Expr} {n : Nat} (h : (Expr.bin c l r).Level n) (h' : (Expr.bin c' l' r').Level n) {m : List Tk}
    (h1 : l'.tokens = l.tokens ++ .op c :: m) (h2 : r.tokens = m ++ .op c' :: r'.tokens) : False := by
  have hl := tokens_even l
  have hend := tokens_ender l'
  rw [h1] at hend
  have hm : Even m := by
    have := tokens_even l'
    rw [h1] at this
    unfold Even at this hl ⊢
    rw [List.count_append, List.count_append, hl] at this
    simp only [List.count_cons] at this
    simpa using this
  rcases h with ⟨_, _, _, hr⟩ | ⟨hc, _, _, hr⟩
  · have := inner_op r 1 hr m _ c' h2 hm hend.after
    omega
  · have h3 := inner_op r 2 hr m _ c' h2 hm hend.after
    rcases h' with ⟨_, _, hl', _⟩ | ⟨hc', _, _, _⟩
    · have := (inner_op l' 2 hl' _ m c h1 hl (tokens_ender l)).2 (mul_or_add hc)
      omega
    · have := h3.2 (mul_or_add hc')
      omega

/-- An expression is determined by its tokens. -/
theorem tokens_inj : ∀ (e e' : Expr) (n : Nat), e.Level n → e'.Level n → e.tokens = e'.tokens → e = e'
  | .num ds, .num ds', _, _, _, h => by
    simp only [Expr.tokens, List.cons.injEq, Tk.num.injEq, and_true] at h
    rw [h]
  | .num ds, .paren e', _, _, _, h => by simp [Expr.tokens] at h
  | .num ds, .neg e', _, _, _, h => by simp [Expr.tokens] at h
  | .num ds, .bin c l r, _, _, _, h => by
    have := inner_op (.num ds) 0 ‹_› _ _ c h (tokens_even l) (tokens_ender l)
    omega
  | .paren e, .num ds, _, _, _, h => by simp [Expr.tokens] at h
  | .paren e, .paren e', _, hl, hl', h => by
    simp only [Expr.tokens, List.cons_append, List.cons.injEq, true_and, List.append_cancel_right_eq] at h
    rw [tokens_inj e e' 3 hl hl' h]
  | .paren e, .neg e', _, _, _, h => by simp [Expr.tokens] at h
  | .paren e, .bin c l r, _, hl, _, h => by
    have := inner_op (.paren e) 0 hl _ _ c h (tokens_even l) (tokens_ender l)
    omega
  | .neg e, .num ds, _, _, _, h => by simp [Expr.tokens] at h
  | .neg e, .paren e', _, _, _, h => by simp [Expr.tokens] at h
  | .neg e, .neg e', _, hl, hl', h => by
    simp only [Expr.tokens, List.cons.injEq, true_and] at h
    rw [tokens_inj e e' 0 hl.2 hl'.2 h]
  | .neg e, .bin c l r, _, hl, _, h => by
    have := inner_op (.neg e) 1 ⟨Nat.le_refl _, hl.2⟩ _ _ c h (tokens_even l) (tokens_ender l)
    omega
  | .bin c l r, .num ds, _, _, hl, h => by
    have := inner_op (.num ds) 0 hl _ _ c h.symm (tokens_even l) (tokens_ender l)
    omega
  | .bin c l r, .paren e, _, _, hl, h => by
    have := inner_op (.paren e) 0 hl _ _ c h.symm (tokens_even l) (tokens_ender l)
    omega
  | .bin c l r, .neg e, _, _, hl, h => by
    have := inner_op (.neg e) 1 ⟨Nat.le_refl _, hl.2⟩ _ _ c h.symm (tokens_even l) (tokens_ender l)
    omega
  | .bin c l r, .bin c' l' r', n, hl, hl', h => by
    rw [Expr.tokens, Expr.tokens] at h
    rcases split_at h with ⟨m, h1, h2⟩ | ⟨h1, h2, h3⟩ | ⟨m, h1, h2⟩
    · exact (no_shift hl' hl h1 h2).elim
    · cases h2
      rcases hl with ⟨hc, _, a, b⟩ | ⟨hc, _, a, b⟩
      · rcases hl' with ⟨_, _, a', b'⟩ | ⟨hc', _⟩
        · rw [tokens_inj l l' 2 a a' h1, tokens_inj r r' 1 b b' h3]
        · exact absurd hc (mul_or_add hc')
      · rcases hl' with ⟨hc', _⟩ | ⟨_, _, a', b'⟩
        · exact absurd hc' (mul_or_add hc)
        · rw [tokens_inj l l' 3 a a' h1, tokens_inj r r' 2 b b' h3]
    · exact (no_shift hl hl' h1 h2).elim

theorem spells_inj {w : List Nat} {ts ts' : List Tk} (h : Spells w ts) (h' : Spells w ts') : ts = ts' := by
  have := (scan_spells h _ (Nat.lt_succ_self _)).symm.trans (scan_spells h' _ (Nat.lt_succ_self _))
  exact (List.map_inj_right (fun _ _ h => Option.some.inj h)).1 this

end Lexertl.Calc
