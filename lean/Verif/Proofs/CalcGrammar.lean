import Verif.Proofs.CalcEval

/-
The calculator on tokens: which token sequences it takes, and its stacks.
-/
namespace Lexertl.Calc
open Spec Spec.Calc

/-! ### Which tokens are taken -/

/-- A token of a text. -/
def Valid : Option Tk → Prop
  | some (.num ds) => IsDec ds
  | some (.op c) => c ∈ opChars
  | _ => True

/-- Lexer state and stack after all tokens. -/
def moves : List (Option Tk) → Nat → List (Nat × Nat) → Option (Nat × List (Nat × Nat))
  | [], st, k => some (st, k)
  | t :: ts, st, k => (move t st k).bind fun x => moves ts x.1 x.2

theorem moves_cons {t : Option Tk} {st st' : Nat} {k k' : List (Nat × Nat)} (h : move t st k = some (st', k')) (ts : List (Option Tk)) :
    moves (t :: ts) st k = moves ts st' k' := by
  rw [moves, h]
  rfl

/-- Expressions are taken. -/
theorem moves_expr : ∀ (e : Expr) (n : Nat), e.Level n → ∀ (ts : List (Option Tk)) (st : Nat) (k : List (Nat × Nat)),
    (st = 0 ∨ st = 3 ∨ (n = 0 ∧ (st = 1 ∨ st = 4))) → moves (e.tokens.map some ++ ts) st k = moves ts (aft st) k
  | .num ds, n, hl, ts, st, k, hst => moves_cons (by rw [move, if_neg (by omega)]) _
  | .paren e, n, hl, ts, st, k, hst => by
    have h1 : move (some .opn) st k = some (3, (aft st, 4) :: k) := by rw [move, if_neg (by omega)]
    rw [Expr.tokens, List.cons_append, List.map_cons, List.map_append, List.cons_append, moves_cons h1, List.append_assoc,
      moves_expr e 3 hl _ 3 _ (.inr (.inl rfl))]
    exact moves_cons rfl _
  | .neg e, n, hl, ts, st, k, hst => by
    obtain ⟨hn, hl⟩ := hl
    obtain ⟨st', h1, h2, h3⟩ : ∃ st', move (some (.op 45)) st k = some (st', k) ∧ (st' = 1 ∨ st' = 4) ∧ aft st' = aft st := by
      rcases hst with rfl | rfl | ⟨rfl, _⟩
      · exact ⟨1, rfl, .inl rfl, rfl⟩
      · exact ⟨4, rfl, .inr rfl, rfl⟩
      · omega
    rw [Expr.tokens, List.map_cons, List.cons_append, moves_cons h1, moves_expr e 0 hl ts st' k (.inr (.inr ⟨rfl, h2⟩)), h3]
  | .bin c l r, n, hl, ts, st, k, hst => by
    have hst' : st = 0 ∨ st = 3 := by
      rcases hst with h | h | ⟨rfl, _⟩
      · exact .inl h
      · exact .inr h
      · rcases hl with ⟨_, h, _⟩ | ⟨_, h, _⟩ <;> omega
    have hst2 : ∀ n, st = 0 ∨ st = 3 ∨ (n = 0 ∧ (st = 1 ∨ st = 4)) := fun n => by omega
    obtain ⟨m, m', h1, h2⟩ : ∃ m m', l.Level m ∧ r.Level m' := by
      rcases hl with ⟨_, _, h⟩ | ⟨_, _, h⟩
      · exact ⟨_, _, h⟩
      · exact ⟨_, _, h⟩
    rw [Expr.tokens, List.map_append, List.append_assoc, List.map_cons, List.cons_append, moves_expr l m h1 _ st k (hst2 _),
      moves_cons (op_move hst' k).1, moves_expr r m' h2 ts st k (hst2 _)]

theorem level_mono : ∀ (e : Expr) (n m : Nat), n ≤ m → e.Level n → e.Level m
  | .num _, _, _, _, h => h
  | .paren _, _, _, _, h => h
  | .neg _, _, _, hnm, h => ⟨Nat.le_trans h.1 hnm, h.2⟩
  | .bin _ _ _, _, _, hnm, h => h.imp (fun ⟨a, b, c⟩ => ⟨a, Nat.le_trans b hnm, c⟩) (fun ⟨a, b, c⟩ => ⟨a, Nat.le_trans b hnm, c⟩)

/-- An expression is continued by an operator and an operand. -/
theorem extend {c : Nat} (hc : c ∈ opChars) {r : Expr} (hr : r.Level 1) (e : Expr) (he : e.Level 3) :
    ∃ e' : Expr, e'.Level 3 ∧ e'.tokens = e.tokens ++ .op c :: r.tokens := by
  by_cases hadd : c ∈ [43, 45]
  · exact ⟨.bin c e r, .inr ⟨hadd, Nat.le_refl _, he, level_mono _ _ _ (by decide) hr⟩, rfl⟩
  have hmul : c ∈ [42, 47, 37] := by
    simp only [opChars, List.mem_cons, List.not_mem_nil, or_false] at hc hadd ⊢
    omega
  have simple : e.Level 2 → ∃ e' : Expr, e'.Level 3 ∧ e'.tokens = e.tokens ++ .op c :: r.tokens :=
    fun h => ⟨.bin c e r, .inl ⟨hmul, by decide, h, hr⟩, rfl⟩
  cases e with
  | num ds => exact simple he
  | paren e => exact simple he
  | neg e => exact simple ⟨by decide, he.2⟩
  | bin d l t =>
    rcases he with ⟨h1, h2, h3⟩ | ⟨h1, h2, h3, h4⟩
    · exact simple (.inl ⟨h1, by decide, h3⟩)
    · exact ⟨.bin d l (.bin c t r), .inr ⟨h1, Nat.le_refl _, h3, .inl ⟨hmul, Nat.le_refl _, h4, hr⟩⟩, by simp [Expr.tokens]⟩

/-- The tokens are taken, ending after an operand on the outermost level. -/
def Accepted (ts : List (Option Tk)) (st : Nat) (k : List (Nat × Nat)) : Prop := ∃ k', moves ts st k = some (2, k')

/-- Entries of the stack of lexer states. -/
def KOk (k : List (Nat × Nat)) : Prop := ∀ e ∈ k, e.1 = 2 ∨ e.1 = 5

theorem accepted_cons {t : Option Tk} {ts : List (Option Tk)} {st : Nat} {k : List (Nat × Nat)} (h : Accepted (t :: ts) st k) :
    ∃ st' k', move t st k = some (st', k') ∧ Accepted ts st' k' := by
  obtain ⟨k', h⟩ := h
  rw [moves, Option.bind_eq_some_iff] at h
  obtain ⟨⟨st1, k1⟩, h1, h2⟩ := h
  exact ⟨st1, k1, h1, k', h2⟩

/-- A level is read up to the parenthesis that ends it, or to the end. -/
def ReadsLevel (n : Nat) : Prop :=
  ∀ (ts : List (Option Tk)) (st : Nat) (k : List (Nat × Nat)), ts.length ≤ n → (st = 0 ∨ st = 3) → (∀ t ∈ ts, Valid t) → Accepted ts st k →
    ∃ (e : Expr) (us : List (Option Tk)), e.Level 3 ∧ ts = e.tokens.map some ++ us ∧ Accepted us (aft st) k ∧
      ∀ c, us.head? ≠ some (some (.op c))

/-- A number, or an expression in parentheses. -/
theorem reads_atom {n : Nat} (ih : ReadsLevel n) {ts : List (Option Tk)} {st : Nat} {k : List (Nat × Nat)} (hn : ts.length ≤ n + 1)
    (hst : st = 0 ∨ st = 1 ∨ st = 3 ∨ st = 4) (hv : ∀ t ∈ ts, Valid t) (h : Accepted ts st k)
    (hop : ∀ c, ts.head? ≠ some (some (.op c))) :
    ∃ (e : Expr) (us : List (Option Tk)), e.Level 0 ∧ ts = e.tokens.map some ++ us ∧ Accepted us (aft st) k ∧ us.length < ts.length := by
  cases ts with
  | nil =>
    obtain ⟨k', h⟩ := h
    simp only [moves, Option.some.injEq, Prod.mk.injEq] at h
    omega
  | cons t ts =>
    obtain ⟨st', k', h1, h2⟩ := accepted_cons h
    match t, h1, hv, hop with
    | some (.num ds), h1, hv, _ =>
      rw [move, if_neg (by omega)] at h1
      cases h1
      exact ⟨.num ds, ts, hv _ List.mem_cons_self, rfl, h2, Nat.lt_succ_self _⟩
    | some (.op c), _, _, hop => exact absurd rfl (hop c)
    | some .opn, h1, hv, _ =>
      rw [move, if_neg (by omega)] at h1
      cases h1
      obtain ⟨e, us, g1, g2, g3, g4⟩ := ih ts 3 _ (by simp only [List.length_cons] at hn; omega) (.inr rfl)
        (fun t ht => hv t (List.mem_cons_of_mem _ ht)) h2
      cases us with
      | nil =>
        obtain ⟨k', g3⟩ := g3
        simp [moves, aft] at g3
      | cons u us =>
        obtain ⟨st', k', f1, f2⟩ := accepted_cons g3
        match u, f1, g4 with
        | some (.num _), f1, _ => simp [move, aft] at f1
        | some (.op c), _, g4 => exact absurd rfl (g4 c)
        | some .opn, f1, _ => simp [move, aft] at f1
        | none, f1, _ => simp [move] at f1
        | some .cls, f1, _ =>
          simp only [move, aft, Nat.reduceLeDiff, if_false, if_true, Option.some.injEq, Prod.mk.injEq] at f1
          obtain ⟨rfl, rfl⟩ := f1
          refine ⟨.paren e, us, g1, ?_, f2, ?_⟩
          · rw [g2]; simp [Expr.tokens]
          · rw [g2]; simp only [List.length_cons, List.length_append]; omega
    | some .cls, h1, _, _ =>
      simp [move] at h1
      omega
    | none, h1, _, _ => simp [move] at h1

theorem reads_operand {n : Nat} (ih : ReadsLevel n) {ts : List (Option Tk)} {st : Nat} {k : List (Nat × Nat)} (hn : ts.length ≤ n + 1)
    (hst : st = 0 ∨ st = 3) (hv : ∀ t ∈ ts, Valid t) (h : Accepted ts st k) :
    ∃ (e : Expr) (us : List (Option Tk)), e.Level 1 ∧ ts = e.tokens.map some ++ us ∧ Accepted us (aft st) k ∧ us.length < ts.length := by
  by_cases hop : ∃ c, ts.head? = some (some (.op c))
  · obtain ⟨c, hc⟩ := hop
    cases ts with
    | nil => cases hc
    | cons t ts =>
      simp only [List.head?_cons, Option.some.injEq] at hc
      subst hc
      obtain ⟨st', k', h1, h2⟩ := accepted_cons h
      have key : c = 45 ∧ k' = k ∧ (st' = 1 ∨ st' = 4) ∧ aft st' = aft st := by
        rcases hst with rfl | rfl
        · simp [move] at h1
          obtain ⟨h1, rfl, rfl⟩ := h1
          exact ⟨h1, rfl, .inl rfl, rfl⟩
        · simp [move] at h1
          obtain ⟨h1, rfl, rfl⟩ := h1
          exact ⟨h1, rfl, .inr rfl, rfl⟩
      obtain ⟨rfl, rfl, g1, g2⟩ := key
      obtain ⟨e, us, f1, f2, f3, f4⟩ := reads_atom ih (ts := ts) (by simp only [List.length_cons] at hn; omega) (by omega)
        (fun t ht => hv t (List.mem_cons_of_mem _ ht)) h2 (by
          intro d hd
          cases ts with
          | nil => cases hd
          | cons t ts =>
            simp only [List.head?_cons, Option.some.injEq] at hd
            subst hd
            obtain ⟨st2, k2, e1, _⟩ := accepted_cons h2
            rcases g1 with rfl | rfl <;> simp [move] at e1)
      refine ⟨.neg e, us, ⟨Nat.le_refl _, f1⟩, by rw [f2]; rfl, by rw [← g2]; exact f3, by simp only [List.length_cons]; omega⟩
  · obtain ⟨e, us, f1, f2, f3, f4⟩ := reads_atom ih hn (by omega) hv h (fun c hc => hop ⟨c, hc⟩)
    exact ⟨e, us, level_mono _ _ _ (by decide) f1, f2, f3, f4⟩

theorem reads_more {n : Nat} (ih : ReadsLevel n) {st : Nat} {k : List (Nat × Nat)} (hst : st = 0 ∨ st = 3) :
    ∀ (m : Nat) (ts : List (Option Tk)) (e : Expr), ts.length ≤ m → ts.length ≤ n + 1 → (∀ t ∈ ts, Valid t) → Accepted ts (aft st) k → e.Level 3 →
      ∃ (e' : Expr) (us : List (Option Tk)), e'.Level 3 ∧ e.tokens.map some ++ ts = e'.tokens.map some ++ us ∧ Accepted us (aft st) k ∧
        ∀ c, us.head? ≠ some (some (.op c))
  | 0, ts, e, hm, hn, hv, h, he => by
    refine ⟨e, ts, he, rfl, h, fun c hc => ?_⟩
    cases ts with
    | nil => cases hc
    | cons t ts => simp at hm
  | m + 1, ts, e, hm, hn, hv, h, he => by
    by_cases hop : ∃ c, ts.head? = some (some (.op c))
    · obtain ⟨c, hc⟩ := hop
      cases ts with
      | nil => cases hc
      | cons t ts =>
        simp only [List.head?_cons, Option.some.injEq] at hc
        subst hc
        obtain ⟨st', k', h1, h2⟩ := accepted_cons h
        rw [(op_move hst k).1] at h1
        cases h1
        simp only [List.length_cons] at hm hn
        obtain ⟨r, us, f1, f2, f3, f4⟩ := reads_operand ih (ts := ts) (by omega) hst (fun t ht => hv t (List.mem_cons_of_mem _ ht)) h2
        obtain ⟨e1, g1, g2⟩ := extend (hv _ List.mem_cons_self) f1 e he
        obtain ⟨e2, vs, d1, d2, d3, d4⟩ := reads_more ih hst m us e1 (by omega) (by omega)
          (fun t ht => hv t (List.mem_cons_of_mem _ (by rw [f2]; exact List.mem_append_right _ ht))) f3 g1
        refine ⟨e2, vs, d1, ?_, d3, d4⟩
        rw [← d2, g2, f2]
        simp
    · exact ⟨e, ts, he, rfl, h, fun c hc => hop ⟨c, hc⟩⟩

theorem readsLevel : ∀ n, ReadsLevel n
  | 0 => by
    intro ts st k hn hst hv h
    have : ts = [] := List.length_eq_zero_iff.1 (by omega)
    subst this
    obtain ⟨k', h⟩ := h
    simp only [moves, Option.some.injEq, Prod.mk.injEq] at h
    omega
  | n + 1 => by
    intro ts st k hn hst hv h
    obtain ⟨e, us, f1, f2, f3, f4⟩ := reads_operand (readsLevel n) hn hst hv h
    obtain ⟨e2, vs, d1, d2, d3, d4⟩ := reads_more (readsLevel n) hst us.length us e (Nat.le_refl _) (by omega)
      (fun t ht => hv t (by rw [f2]; exact List.mem_append_right _ ht)) f3 (level_mono _ _ _ (by decide) f1)
    exact ⟨e2, vs, d1, by rw [f2, d2], d3, d4⟩

/-- Exactly the expressions are taken. -/
theorem accepted_iff {ts : List (Option Tk)} (hv : ∀ t ∈ ts, Valid t) :
    Accepted ts 0 [] ↔ ∃ e : Expr, e.Level 3 ∧ ts = e.tokens.map some := by
  constructor
  · intro h
    obtain ⟨e, us, h1, h2, h3, h4⟩ := readsLevel ts.length ts 0 [] (Nat.le_refl _) (.inl rfl) hv h
    cases us with
    | nil => exact ⟨e, h1, by rw [h2, List.append_nil]⟩
    | cons u us =>
      obtain ⟨st', k', f1, f2⟩ := accepted_cons h3
      match u, f1, h4 with
      | some (.num _), f1, _ => simp [move, aft] at f1
      | some (.op c), _, h4 => exact absurd rfl (h4 c)
      | some .opn, f1, _ => simp [move, aft] at f1
      | none, f1, _ => simp [move] at f1
      | some .cls, f1, _ => simp [move, aft] at f1
  · rintro ⟨e, h1, rfl⟩
    have := moves_expr e 3 h1 [] 0 [] (.inl rfl)
    rw [List.append_nil] at this
    exact ⟨[], this⟩

/-! ### The stacks -/

/-- The number of operators between operands. -/
def bin (ops : List Nat) : Nat := ops.countP (· ∈ opChars)

def OpsOk (ops : List Nat) : Prop := ∀ c ∈ ops, c ∈ opChars ∨ c = 126 ∨ c = 40

/-- `ub "int arithmetic"`, or the property. -/
def Arith {α : Type} (Q : α → Prop) (x : M α) : Prop := x = .error (.ub "int arithmetic") ∨ ∃ a, x = .ok a ∧ Q a

theorem Arith.bind {α β : Type} {Q : α → Prop} {R : β → Prop} {x : M α} (h : Arith Q x) {f : α → M β} (g : ∀ a, Q a → Arith R (f a)) :
    Arith R (x >>= f) := by
  rcases h with rfl | ⟨a, rfl, h⟩
  · exact .inl rfl
  · exact g a h

theorem int32_arith (x : Int) : Arith (fun _ => True) (int32 x) := by
  unfold int32
  split
  · exact .inr ⟨_, rfl, trivial⟩
  · exact .inl rfl

theorem apply_arith (c : Nat) (x y : Int) : Arith (fun _ => True) (apply c x y) := by
  unfold apply
  repeat' split
  all_goals first
    | exact int32_arith _
    | exact .inl rfl
    | exact (int32_arith _).bind fun a _ => .inr ⟨_, rfl, trivial⟩

/-- One operator is removed, or a parenthesis or the bottom is met. -/
theorem reduce_arith {xs : List Int} {ops : List Nat} (h : xs.length = bin ops + 1) (ho : OpsOk ops) (n : Nat) :
    Arith (fun s => s.operands.length = bin s.ops + 1 ∧
      ((∃ c, ops = c :: s.ops ∧ c ≠ 40) ∨ (s = ⟨xs, ops⟩ ∧ ∀ c ∈ ops.head?, c = 40))) (reduceFuel (n + 1) ⟨xs, ops⟩) := by
  cases ops with
  | nil => exact .inr ⟨_, reduceFuel_empty n xs, h, .inr ⟨rfl, fun c hc => by cases hc⟩⟩
  | cons c ops =>
    rcases ho c List.mem_cons_self with hc | rfl | rfl
    · have hb : bin (c :: ops) = bin ops + 1 := by rw [bin, List.countP_cons_of_pos (by simpa using hc)]; rfl
      rw [hb] at h
      match xs, h with
      | x :: y :: xs, h =>
        rw [reduceFuel_bin n hc]
        refine Arith.bind (apply_arith _ _ _) fun v _ => .inr ⟨_, rfl, ?_, .inl ⟨c, rfl, ?_⟩⟩
        · simp only [List.length_cons] at h ⊢
          omega
        · simp only [opChars, List.mem_cons, List.not_mem_nil, or_false] at hc
          omega
    · have hb : bin (126 :: ops) = bin ops := by rw [bin, List.countP_cons_of_neg (by decide)]; rfl
      rw [hb] at h
      match xs, h with
      | x :: xs, h =>
        rw [reduceFuel_neg]
        exact Arith.bind (int32_arith _) fun v _ => .inr ⟨_, rfl, by simpa using h, .inl ⟨126, rfl, by decide⟩⟩
    · exact .inr ⟨_, reduceFuel_paren n xs ops, h, .inr ⟨rfl, fun c hc => by cases hc; rfl⟩⟩

/-- What is below the topmost parenthesis. -/
def below : List Nat → List Nat
  | [] => []
  | c :: ops => if c = 40 then ops else below ops

theorem closeLoop_arith (n : Nat) : ∀ (m op : Nat) (s : Stacks), op ≠ 40 → 40 ∈ s.ops → s.operands.length = bin s.ops + 1 → OpsOk s.ops →
    s.ops.length + 1 ≤ m →
    Arith (fun r => r.1 = 40 ∧ r.2.ops = 40 :: below s.ops ∧ r.2.operands.length = bin r.2.ops + 1) (closeLoop (reduceFuel (n + 1)) m op s)
  | 0, _, _, _, _, _, _, hm => absurd hm (Nat.not_succ_le_zero _)
  | m + 1, op, s, hop, h40, hl, ho, hm => by
    rw [closeLoop]
    cases hs : s.ops with
    | nil => rw [hs] at h40; cases h40
    | cons top rest =>
      dsimp only
      rw [if_neg hop]
      refine Arith.bind (reduce_arith hl ho n) fun s' hs' => ?_
      obtain ⟨h1, ⟨c, h2, h3⟩ | ⟨h2, h3⟩⟩ := hs'
      · rw [hs] at h2 h40 hm
        injection h2 with h2 h4
        subst h2
        simp only [List.length_cons] at hm
        have h40' : 40 ∈ rest := by
          rcases List.mem_cons.1 h40 with h | h
          · exact absurd h.symm h3
          · exact h
        have := closeLoop_arith n m top s' h3 (by rw [← h4]; exact h40') h1
          (by rw [← h4]; exact fun d hd => ho d (by rw [hs]; exact List.mem_cons_of_mem _ hd)) (by rw [← h4]; omega)
        rw [below, if_neg h3, h4]
        exact this
      · rw [hs] at h3
        have := h3 top rfl
        subst this
        rw [show s' = s from h2]
        have : 1 ≤ m := by rw [hs] at hm; simp only [List.length_cons] at hm; omega
        obtain ⟨m, rfl⟩ : ∃ l, m = l + 1 := ⟨m - 1, by omega⟩
        rw [closeLoop, hs]
        dsimp only
        rw [if_pos rfl, below, if_pos rfl]
        exact .inr ⟨_, rfl, rfl, hs, hl⟩

theorem bin_paren (ops : List Nat) : bin (40 :: ops) = bin ops := by rw [bin, List.countP_cons_of_neg (by decide)]; rfl

theorem close_arith {s : Stacks} (h40 : 40 ∈ s.ops) (hl : s.operands.length = bin s.ops + 1) (ho : OpsOk s.ops) :
    Arith (fun r => r.ops = below s.ops ∧ r.operands.length = bin r.ops + 1) (reduce ⟨s.operands, 41 :: s.ops⟩) := by
  unfold reduce
  rw [reduceFuel]
  dsimp only
  cases hs : s.operands with
  | nil => rw [hs] at hl; simp at hl
  | cons y ys =>
    dsimp only
    rw [if_neg (by decide), if_neg (by decide), if_pos rfl, ← hs, List.length_cons]
    refine Arith.bind (closeLoop_arith _ _ 41 s (by decide) h40 hl ho (Nat.le_refl _)) fun r hr => ?_
    obtain ⟨h1, h2, h3⟩ := hr
    rw [if_pos h1, h2]
    rw [h2, bin_paren] at h3
    exact .inr ⟨_, rfl, rfl, h3⟩

theorem drain_arith : ∀ (m : Nat) (s : Stacks), 40 ∉ s.ops → s.operands.length = bin s.ops + 1 → OpsOk s.ops → s.ops.length < m →
    Arith (fun r => r.operands.length = 1) (drain m s)
  | 0, _, _, _, _, hm => absurd hm (Nat.not_lt_zero _)
  | m + 1, s, h40, hl, ho, hm => by
    rw [drain]
    split
    · rename_i h
      rw [h] at hl
      exact .inr ⟨_, rfl, hl⟩
    · rename_i h
      refine Arith.bind (reduce_arith hl ho _) fun s' hs' => ?_
      obtain ⟨h1, ⟨c, h2, h3⟩ | ⟨h2, h3⟩⟩ := hs'
      · rw [h2] at hm h40 ho
        exact drain_arith m s' (fun h => h40 (List.mem_cons_of_mem _ h)) h1 (fun d hd => ho d (List.mem_cons_of_mem _ hd))
          (by simp only [List.length_cons] at hm; omega)
      · cases hs : s.ops with
        | nil => exact absurd hs h
        | cons c o =>
          rw [hs] at h3
          have := h3 c rfl
          subst this
          rw [hs] at h40
          exact absurd List.mem_cons_self h40

/-- The stack of lexer states: one entry for each open parenthesis. -/
inductive KInv : List (Nat × Nat) → Prop
  | nil : KInv []
  | one : KInv [(2, 4)]
  | more (k) : KInv k → k ≠ [] → KInv ((5, 4) :: k)

/-- Lexer state, its stack, and the stacks of the calculator belong together. -/
structure Inv (st : Nat) (k : List (Nat × Nat)) (s : Stacks) : Prop where
  states : KInv k
  range : st ≤ 5
  outer : st ≤ 2 ↔ k = []
  parens : s.ops.count 40 = k.length
  ops : OpsOk s.ops
  before : st ≠ 2 → st ≠ 5 → s.operands.length = bin s.ops
  after : st = 2 ∨ st = 5 → s.operands.length = bin s.ops + 1

theorem below_count : ∀ ops : List Nat, (below ops).count 40 = ops.count 40 - 1
  | [] => rfl
  | c :: ops => by
    rw [below]
    split
    · rename_i h; subst h; simp
    · rename_i h
      rw [below_count ops, List.count_cons_of_ne h]

theorem below_mem : ∀ (ops : List Nat) (c : Nat), c ∈ below ops → c ∈ ops
  | [], _, h => h
  | d :: ops, c, h => by
    rw [below] at h
    split at h
    · exact List.mem_cons_of_mem _ h
    · exact List.mem_cons_of_mem _ (below_mem ops c h)

theorem binary_arith {c : Nat} (hc : c ∈ opChars) {s : Stacks} (hl : s.operands.length = bin s.ops + 1) (ho : OpsOk s.ops) :
    Arith (fun r => r.operands.length = bin r.ops ∧ OpsOk r.ops ∧ r.ops.count 40 = s.ops.count 40) (binary c s) := by
  have c40 : c ≠ 40 ∧ c ≠ 126 := by
    simp only [opChars, List.mem_cons, List.not_mem_nil, or_false] at hc
    omega
  have push : ∀ s' : Stacks, s'.operands.length = bin s'.ops + 1 ∧ OpsOk s'.ops ∧ s'.ops.count 40 = s.ops.count 40 →
      Arith (fun r : Stacks => r.operands.length = bin r.ops ∧ OpsOk r.ops ∧ r.ops.count 40 = s.ops.count 40)
        (Except.ok ⟨s'.operands, c :: s'.ops⟩) := by
    intro s' ⟨h1, h2, h3⟩
    refine .inr ⟨_, rfl, ?_, ?_, ?_⟩
    · rw [bin, List.countP_cons_of_pos (by simpa using hc)]; exact h1
    · intro d hd
      rcases List.mem_cons.1 hd with rfl | hd
      · exact .inl hc
      · exact h2 d hd
    · rw [List.count_cons_of_ne c40.1]; exact h3
  have red : Arith (fun s' : Stacks => s'.operands.length = bin s'.ops + 1 ∧ OpsOk s'.ops ∧ s'.ops.count 40 = s.ops.count 40) (reduce s) := by
    rcases reduce_arith hl ho s.ops.length with h | ⟨s', h, h1, ⟨d, h2, h3⟩ | ⟨h2, _⟩⟩
    · exact .inl h
    · refine .inr ⟨s', h, h1, fun e he => ho e (by rw [h2]; exact List.mem_cons_of_mem _ he), ?_⟩
      rw [h2, List.count_cons_of_ne h3]
    · subst h2
      exact .inr ⟨_, h, h1, ho, rfl⟩
  unfold binary
  dsimp only
  repeat' split
  all_goals first | exact Arith.bind red push | exact push s ⟨hl, ho, rfl⟩

theorem act_arith {st st' : Nat} {k k' : List (Nat × Nat)} {s : Stacks} (I : Inv st k s) {t : Option Tk} (hv : Valid t)
    (hm : move t st k = some (st', k')) : Arith (Inv st' k') (act st t s) := by
  match t, hv, hm with
  | none, _, hm => simp [move] at hm
  | some (.num ds), hv, hm =>
    rw [move] at hm
    split at hm
    · cases hm
    rename_i hst
    cases hm
    refine Arith.bind (int32_arith _) fun v _ => .inr ⟨_, rfl, I.states, by unfold aft; split <;> omega, ?_, I.parens, I.ops, ?_, ?_⟩
    · rw [← I.outer]; unfold aft; split <;> omega
    · unfold aft; split <;> omega
    · intro _
      have := I.before (by omega) (by omega)
      simp only [List.length_cons]
      omega
  | some (.op c), hv, hm =>
    rw [act]
    rw [move] at hm
    by_cases hst : st = 2 ∨ st = 5
    · rw [if_pos hst]
      have hb := binary_arith hv (I.after hst) I.ops
      have : k' = k ∧ (st' = 0 ∧ st = 2 ∨ st' = 3 ∧ st = 5) := by
        rcases hst with rfl | rfl
        · simp at hm; exact ⟨hm.2.symm, .inl ⟨hm.1.symm, rfl⟩⟩
        · simp at hm; exact ⟨hm.2.symm, .inr ⟨hm.1.symm, rfl⟩⟩
      obtain ⟨rfl, h⟩ := this
      rcases hb with hb | ⟨s', hb, h1, h2, h3⟩
      · exact .inl hb
      · refine .inr ⟨s', hb, I.states, by omega, ?_, by rw [h3]; exact I.parens, h2, fun _ _ => h1, fun g => by omega⟩
        rw [← I.outer]; omega
    · rw [if_neg hst]
      have : k' = k ∧ (st' = 1 ∧ st = 0 ∨ st' = 4 ∧ st = 3) := by
        rw [if_neg (by omega), if_neg (by omega)] at hm
        split at hm
        · cases hm; exact ⟨rfl, .inl ⟨rfl, by omega⟩⟩
        · split at hm
          · cases hm; exact ⟨rfl, .inr ⟨rfl, by omega⟩⟩
          · cases hm
      obtain ⟨rfl, h⟩ := this
      refine .inr ⟨_, rfl, I.states, by omega, ?_, by simpa using I.parens, ?_, fun _ _ => ?_, fun g => by omega⟩
      · rw [← I.outer]; omega
      · intro d hd
        rcases List.mem_cons.1 hd with rfl | hd
        · exact .inr (.inl rfl)
        · exact I.ops d hd
      · rw [I.before (by omega) (by omega)]
        simp only
        rw [bin, bin, List.countP_cons_of_neg (by decide)]
  | some .opn, _, hm =>
    rw [move] at hm
    split at hm
    · cases hm
    rename_i hst
    cases hm
    refine .inr ⟨_, rfl, ?_, by omega, by simp, by simp [I.parens], ?_, fun _ _ => ?_, fun g => by omega⟩
    · by_cases hk : k = []
      · have := I.outer.2 hk
        subst hk
        rw [aft, if_pos (by omega)]
        exact .one
      · have : ¬ st ≤ 2 := fun h => hk (I.outer.1 h)
        rw [aft, if_neg (by omega)]
        exact .more k I.states hk
    · intro d hd
      rcases List.mem_cons.1 hd with rfl | hd
      · exact .inr (.inr rfl)
      · exact I.ops d hd
    · simp only
      rw [bin_paren]
      exact I.before (by omega) (by omega)
  | some .cls, _, hm =>
    cases k with
    | nil => simp [move] at hm
    | cons e k =>
      simp only [move] at hm
      split at hm
      case isFalse => cases hm
      rename_i hst
      cases hm
      have h40 : 40 ∈ s.ops := by
        rw [← List.one_le_count_iff, I.parens]
        simp
      rcases close_arith h40 (I.after (.inr hst)) I.ops with h | ⟨s', h, h1, h2⟩
      · exact .inl h
      · have hk : KInv k' ∧ (e.1 = 2 ∧ k' = [] ∨ e.1 = 5 ∧ k' ≠ []) := by
          cases I.states with
          | one => exact ⟨.nil, .inl ⟨rfl, rfl⟩⟩
          | more _ h h' => exact ⟨h, .inr ⟨rfl, h'⟩⟩
        refine .inr ⟨s', h, hk.1, ?_, ?_, ?_, ?_, ?_, fun _ => h2⟩
        · rcases hk.2 with ⟨h, _⟩ | ⟨h, _⟩ <;> omega
        · rcases hk.2 with ⟨h, h'⟩ | ⟨h, h'⟩
          · exact ⟨fun _ => h', fun _ => by omega⟩
          · exact ⟨fun g => by omega, fun g => absurd g h'⟩
        · rw [h1, below_count, I.parens]
          simp
        · intro d hd
          rw [h1] at hd
          exact I.ops d (below_mem _ _ hd)
        · intro g1 g2
          rcases hk.2 with ⟨h, _⟩ | ⟨h, _⟩ <;> omega

/-- The loop on tokens: it ends in the state the lexer is in, with matching stacks, or stops at
the first token that the lexer does not take, or at undefined arithmetic. -/
theorem exec_arith : ∀ (ts : List (Option Tk)) (st : Nat) (k : List (Nat × Nat)) (s : Stacks), (∀ t ∈ ts, Valid t) → Inv st k s →
    exec ts st k s = .error (.ub "int arithmetic") ∨
    (exec ts st k s = .error (.throw "Syntax error") ∧ moves ts st k = none) ∨
    ∃ st' k' s', exec ts st k s = .ok (st', s') ∧ moves ts st k = some (st', k') ∧ Inv st' k' s'
  | [], st, k, s, _, I => .inr (.inr ⟨st, k, s, rfl, rfl, I⟩)
  | t :: ts, st, k, s, hv, I => by
    rw [exec, moves]
    cases hm : move t st k with
    | none => exact .inr (.inl ⟨rfl, rfl⟩)
    | some x =>
      dsimp only
      rcases act_arith I (hv t List.mem_cons_self) hm with h | ⟨s', h, I'⟩
      · rw [h]; exact .inl rfl
      · rw [h]
        exact exec_arith ts x.1 x.2 s' (fun t ht => hv t (List.mem_cons_of_mem _ ht)) I'

/-- The outcome: a value, for expressions only; an exception, for other texts only; or undefined
arithmetic. -/
theorem outcome (ts : List (Option Tk)) (hv : ∀ t ∈ ts, Valid t) :
    (exec ts 0 [] ⟨[], []⟩).bind finish = .error (.ub "int arithmetic") ∨
    ((∃ v, (exec ts 0 [] ⟨[], []⟩).bind finish = .ok v) ∧ ∃ e : Expr, e.Level 3 ∧ ts = e.tokens.map some) ∨
    (((exec ts 0 [] ⟨[], []⟩).bind finish = .error (.throw "Syntax error") ∨
      (exec ts 0 [] ⟨[], []⟩).bind finish = .error (.throw "Unterminated expression!")) ∧
      ¬ ∃ e : Expr, e.Level 3 ∧ ts = e.tokens.map some) := by
  have I0 : Inv 0 [] ⟨[], []⟩ := ⟨.nil, by decide, by simp, rfl, fun c hc => by simp at hc, fun _ _ => rfl, fun h => by omega⟩
  rw [← accepted_iff hv]
  rcases exec_arith ts 0 [] _ hv I0 with h | ⟨h, h'⟩ | ⟨st', k', s', h, h', I⟩
  · rw [h]; exact .inl rfl
  · rw [h]
    refine .inr (.inr ⟨.inl rfl, ?_⟩)
    rintro ⟨k, hk⟩
    rw [h'] at hk
    cases hk
  · rw [h]
    show finish (st', s') = _ ∨ (∃ v, finish (st', s') = _) ∧ _ ∨ (finish (st', s') = _ ∨ finish (st', s') = _) ∧ _
    rw [finish]
    dsimp only
    by_cases hst : st' = 2
    · subst hst
      rw [if_neg (by decide)]
      have hk : k' = [] := I.outer.1 (by decide)
      have h40 : 40 ∉ s'.ops := by
        rw [← List.count_eq_zero, I.parens, hk]
        rfl
      rcases drain_arith (s'.ops.length + 1) s' h40 (I.after (.inl rfl)) I.ops (Nat.lt_succ_self _) with h | ⟨r, h, hr⟩
      · rw [h]; exact .inl rfl
      · rw [h]
        obtain ⟨v, hv⟩ := List.length_eq_one_iff.1 hr
        refine .inr (.inl ⟨⟨v, ?_⟩, ⟨_, h'⟩⟩)
        simp only [bind, Except.bind]
        rw [hv]
    · rw [if_pos hst]
      refine .inr (.inr ⟨.inr rfl, ?_⟩)
      rintro ⟨k, hk⟩
      rw [h'] at hk
      cases hk
      exact hst rfl

end Lexertl.Calc
