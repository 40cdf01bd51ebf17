import Verif.Model.Calc
import Verif.Spec.Calc

/-
The calculator on a list of tokens.
-/
namespace Lexertl.Calc
open Spec Spec.Calc

/-! ### The machine on tokens -/

/-- The lexer state after an operand. -/
def aft (st : Nat) : Nat := if st ≤ 1 then 2 else 5

/-- Lexer state and stack after a token, `none`: there is no rule for it. -/
def move : Option Tk → Nat → List (Nat × Nat) → Option (Nat × List (Nat × Nat))
  | some (.num _), st, k => if st = 2 ∨ st = 5 then none else some (aft st, k)
  | some (.op c), st, k =>
    if st = 2 then some (0, k) else if st = 5 then some (3, k)
    else if c = 45 ∧ st = 0 then some (1, k) else if c = 45 ∧ st = 3 then some (4, k) else none
  | some .opn, st, k => if st = 2 ∨ st = 5 then none else some (3, (aft st, 4) :: k)
  | some .cls, st, k => if st = 5 then match k with | [] => none | e :: k => some (e.1, k) else none
  | none, _, _ => none

/-- An operator between operands. -/
def binary (c : Nat) (s : Stacks) : M Stacks := do
  let s ←
    if c = 126 ∨ c = 40 then .ok s
    else if c = 43 ∨ c = 45 then reduce s
    else match s.ops with
      | [] => .ok s
      | op :: _ => if op ≠ 126 ∧ op ≠ 43 ∧ op ≠ 45 ∧ op ≠ 40 then reduce s else .ok s
  .ok ⟨s.operands, c :: s.ops⟩

/-- What is done with a token read in lexer state `st`. -/
def act (st : Nat) : Option Tk → Stacks → M Stacks
  | some (.num ds), s => do .ok ⟨(← int32 (decVal ds)) :: s.operands, s.ops⟩
  | some (.op c), s => if st = 2 ∨ st = 5 then binary c s else .ok ⟨s.operands, 126 :: s.ops⟩
  | some .opn, s => .ok ⟨s.operands, 40 :: s.ops⟩
  | some .cls, s => reduce ⟨s.operands, 41 :: s.ops⟩
  | none, s => .ok s

/-- The loop on tokens. -/
def exec : List (Option Tk) → Nat → List (Nat × Nat) → Stacks → M (Nat × Stacks)
  | [], st, _, s => .ok (st, s)
  | t :: ts, st, k, s =>
    match move t st k with
    | none => .error (.throw "Syntax error")
    | some (st', k') => do exec ts st' k' (← act st t s)

/-! ### Reducing -/

theorem reduceFuel_neg (n : Nat) (x : Int) (xs : List Int) (ops : List Nat) :
    reduceFuel (n + 1) ⟨x :: xs, 126 :: ops⟩ = (int32 (-x)).bind fun v => .ok ⟨v :: xs, ops⟩ := by
  simp [reduceFuel, bind]

theorem reduceFuel_bin (n : Nat) {c : Nat} (hc : c ∈ opChars) (x y : Int) (xs : List Int) (ops : List Nat) :
    reduceFuel (n + 1) ⟨x :: y :: xs, c :: ops⟩ = (apply c y x).bind fun v => .ok ⟨v :: xs, ops⟩ := by
  simp only [opChars, List.mem_cons, List.not_mem_nil, or_false] at hc
  rw [reduceFuel]
  dsimp only
  rw [if_neg (by omega), if_pos hc]
  rfl

theorem reduceFuel_paren (n : Nat) (xs : List Int) (ops : List Nat) :
    reduceFuel (n + 1) ⟨xs, 40 :: ops⟩ = .ok ⟨xs, 40 :: ops⟩ := by
  cases xs <;> simp [reduceFuel]

theorem reduceFuel_empty (n : Nat) (xs : List Int) : reduceFuel (n + 1) ⟨xs, []⟩ = .ok ⟨xs, []⟩ := by
  cases xs <;> simp [reduceFuel]

/-- Reducing until only `ops` remain gives the value `v` above `xs`. -/
inductive Drains (xs : List Int) (ops : List Nat) : Stacks → Int → Prop
  | done (v) : Drains xs ops ⟨v :: xs, ops⟩ v
  | step (ys zs c o v) : c ≠ 40 → c ≠ 41 → (∀ n, reduceFuel (n + 1) ⟨ys, c :: o⟩ = .ok ⟨zs, o⟩) → Drains xs ops ⟨zs, o⟩ v →
      Drains xs ops ⟨ys, c :: o⟩ v

theorem Drains.trans {xs ys : List Int} {ops o : List Nat} {s : Stacks} {v w : Int} (h : Drains xs ops s v)
    (h' : Drains ys o ⟨v :: xs, ops⟩ w) : Drains ys o s w := by
  induction h with
  | done => exact h'
  | step ys zs c o v h1 h2 h3 _ ih => exact .step _ _ _ _ _ h1 h2 h3 (ih h')

theorem Drains.length {xs : List Int} {ops : List Nat} {s : Stacks} {v : Int} (h : Drains xs ops s v) : ops.length ≤ s.ops.length := by
  induction h with
  | done => exact Nat.le_refl _
  | step ys zs c o v h1 h2 h3 _ ih => simp only [List.length_cons] at ih ⊢; omega

theorem closeLoop_drains {xs : List Int} {ops : List Nat} {s : Stacks} {v : Int} (h : Drains xs (40 :: ops) s v) (n : Nat) :
    ∀ (m op : Nat), op ≠ 40 → s.ops.length + 1 ≤ m → closeLoop (reduceFuel (n + 1)) m op s = .ok (40, ⟨v :: xs, 40 :: ops⟩) := by
  induction h with
  | done v =>
    intro m op hop hm
    simp only [List.length_cons] at hm
    obtain ⟨m, rfl⟩ : ∃ l, m = l + 2 := ⟨m - 2, by omega⟩
    rw [closeLoop]
    dsimp only
    rw [if_neg hop, reduceFuel_paren]
    simp [bind, Except.bind, closeLoop]
  | step ys zs c o v h1 h2 h3 _ ih =>
    intro m op hop hm
    simp only [List.length_cons] at hm
    obtain ⟨m, rfl⟩ : ∃ l, m = l + 1 := ⟨m - 1, by omega⟩
    rw [closeLoop]
    dsimp only
    rw [if_neg hop, h3 n]
    simp only [bind, Except.bind]
    exact ih m c h1 (by simp only; omega)

theorem Drains.operands {xs : List Int} {ops : List Nat} {s : Stacks} {v : Int} (h : Drains xs ops s v) : s.operands ≠ [] := by
  cases h with
  | done => simp
  | step ys zs c o v h1 h2 h3 h4 =>
    rintro rfl
    have := h3 0
    simp [reduceFuel] at this

theorem reduce_close {xs : List Int} {ops : List Nat} {s : Stacks} {v : Int} (h : Drains xs (40 :: ops) s v) :
    reduce ⟨s.operands, 41 :: s.ops⟩ = .ok ⟨v :: xs, ops⟩ := by
  have ho := h.operands
  unfold reduce
  rw [reduceFuel]
  dsimp only
  cases hs : s.operands with
  | nil => exact absurd hs ho
  | cons y ys =>
    dsimp only
    rw [if_neg (by decide), if_neg (by decide), if_pos rfl, ← hs, List.length_cons,
      closeLoop_drains h _ _ 41 (by decide) (Nat.le_refl _)]
    rfl

theorem drain_drains {xs : List Int} {s : Stacks} {v : Int} (h : Drains xs [] s v) :
    ∀ m, s.ops.length < m → drain m s = .ok ⟨v :: xs, []⟩ := by
  induction h with
  | done v =>
    intro m hm
    obtain ⟨m, rfl⟩ : ∃ l, m = l + 1 := ⟨m - 1, by omega⟩
    simp [drain]
  | step ys zs c o v h1 h2 h3 _ ih =>
    intro m hm
    obtain ⟨m, rfl⟩ : ∃ l, m = l + 1 := ⟨m - 1, by omega⟩
    rw [drain, if_neg (by simp), reduce, h3]
    simp only [bind, Except.bind]
    rw [ih m (by simp only [List.length_cons] at hm ⊢; omega)]

/-! ### Values -/

theorem small_some {x v : Int} (h : small x = some v) : v = x ∧ x.natAbs < 2 ^ 31 := by
  unfold small at h
  split at h
  · cases h; exact ⟨rfl, ‹_›⟩
  · cases h

theorem int32_small {x : Int} (h : x.natAbs < 2 ^ 31) : int32 x = .ok x := by
  unfold int32
  rw [if_pos (by omega)]

theorem opValue_small {c : Nat} {x y v : Int} (h : opValue c x y = some v) : v.natAbs < 2 ^ 31 := by
  unfold opValue at h
  repeat' split at h
  all_goals first | (obtain ⟨rfl, g⟩ := small_some h; exact g) | cases h

theorem value_small : ∀ (e : Expr) (v : Int), e.value = some v → v.natAbs < 2 ^ 31
  | .num ds, v, h => by obtain ⟨rfl, g⟩ := small_some h; exact g
  | .paren e, v, h => value_small e v h
  | .neg e, v, h => by
    obtain ⟨u, h1, rfl⟩ := Option.map_eq_some_iff.1 h
    rw [Int.natAbs_neg]
    exact value_small e u h1
  | .bin c l r, v, h => by
    simp only [Expr.value, bind, Option.bind_eq_some_iff] at h
    obtain ⟨a, _, b, _, h⟩ := h
    exact opValue_small h

theorem apply_value {c : Nat} {x y v : Int} (hx : x.natAbs < 2 ^ 31) (h : opValue c x y = some v) : apply c x y = .ok v := by
  unfold opValue at h
  unfold apply
  split
  · rename_i hc
    rw [if_pos hc] at h
    obtain ⟨rfl, g⟩ := small_some h
    exact int32_small g
  rename_i h1
  rw [if_neg h1] at h
  split
  · rename_i hc
    rw [if_pos hc] at h
    obtain ⟨rfl, g⟩ := small_some h
    exact int32_small g
  rename_i h2
  rw [if_neg h2] at h
  split
  · rename_i hc
    rw [if_pos hc] at h
    obtain ⟨rfl, g⟩ := small_some h
    exact int32_small g
  rename_i h3
  rw [if_neg h3] at h
  split
  · rename_i hc
    rw [if_pos hc] at h
    cases h
  rename_i h4
  rw [if_neg h4] at h
  split
  · rename_i hc
    rw [if_pos hc] at h
    obtain ⟨rfl, g⟩ := small_some h
    exact int32_small g
  rename_i h5
  rw [if_neg h5] at h
  obtain ⟨rfl, h⟩ := small_some h
  have : (x.tdiv y).natAbs < 2 ^ 31 := by
    rw [Int.natAbs_tdiv]
    exact Nat.lt_of_le_of_lt (Nat.div_le_self _ _) hx
  rw [int32_small this]
  rfl

theorem small_neg {x v : Int} (h : small (-x) = some v) : small x = some (-v) := by
  obtain ⟨rfl, g⟩ := small_some h
  rw [Int.natAbs_neg] at g
  unfold small
  rw [if_pos g, Int.neg_neg]

theorem opValue_neg {c : Nat} (hc : c ∈ [42, 47, 37]) {u y v : Int} (h : opValue c (-u) y = some v) : opValue c u y = some (-v) := by
  simp only [List.mem_cons, List.not_mem_nil, or_false] at hc
  unfold opValue at h ⊢
  rcases hc with rfl | rfl | rfl
  · simp only [Nat.reduceEqDiff, if_false, if_true] at h ⊢
    rw [Int.neg_mul] at h
    exact small_neg h
  · simp only [Nat.reduceEqDiff, if_false, if_true] at h ⊢
    split at h
    · cases h
    · rename_i hy
      rw [if_neg hy]
      rw [Int.neg_tdiv] at h
      exact small_neg h
  · simp only [Nat.reduceEqDiff, if_false] at h ⊢
    split at h
    · cases h
    · rename_i hy
      rw [if_neg hy]
      rw [Int.neg_tmod] at h
      exact small_neg h

/-! ### Easy expressions -/

def mulOps : List Nat := [42, 47, 37]

/-- What is on the stacks after a product without signs. -/
def UShape (xs : List Int) (ops : List Nat) (s : Stacks) (v : Int) : Prop :=
  s = ⟨v :: xs, ops⟩ ∨ ∃ a b c, c ∈ mulOps ∧ apply c a b = .ok v ∧ s = ⟨b :: a :: xs, c :: ops⟩

/-- What is on the stacks after an expression. -/
def Shape : Place → List Int → List Nat → Stacks → Int → Prop
  | .atom, xs, ops, s, v => s = ⟨v :: xs, ops⟩
  | .unsigned, xs, ops, s, v => UShape xs ops s v
  | .product, xs, ops, s, v => UShape xs ops s v ∨ UShape xs (126 :: ops) s (-v)
  | .front, xs, ops, s, v => s = ⟨v :: xs, ops⟩ ∨
      (∃ a b c, c ∈ opChars ∧ apply c a b = .ok v ∧ s = ⟨b :: a :: xs, c :: ops⟩) ∨ s = ⟨-v :: xs, 126 :: ops⟩
  | .whole, xs, ops, s, v => Drains xs ops s v

/-- What is below. -/
def Base : Place → List Nat → Prop
  | .atom, _ => True
  | .unsigned, ops => ∀ c ∈ ops.head?, c = 40 ∨ c = 43 ∨ c = 45 ∨ c = 126
  | .product, ops => ∀ c ∈ ops.head?, c = 40 ∨ c = 43 ∨ c = 45 ∨ c = 126
  | .front, ops => ∀ c ∈ ops.head?, c = 40
  | .whole, ops => ∀ c ∈ ops.head?, c = 40

theorem mulOps_mem {c : Nat} (h : c ∈ mulOps) : c ∈ opChars := by
  simp only [mulOps, opChars, List.mem_cons, List.not_mem_nil, or_false] at h ⊢
  omega

theorem bind_ok {α β : Type} {x : M α} {a : α} (h : x = .ok a) (f : α → M β) : x.bind f = f a := by rw [h]; rfl

theorem drains_op {xs : List Int} {ops : List Nat} {a b v : Int} {c : Nat} (hc : c ∈ opChars) (h : apply c a b = .ok v) :
    Drains xs ops ⟨b :: a :: xs, c :: ops⟩ v := by
  have hc' : c ≠ 40 ∧ c ≠ 41 := by
    simp only [opChars, List.mem_cons, List.not_mem_nil, or_false] at hc
    omega
  exact .step _ _ _ _ _ hc'.1 hc'.2 (fun n => by rw [reduceFuel_bin n hc, bind_ok h]) (.done v)

theorem drains_neg {xs : List Int} {ops : List Nat} {v : Int} (hv : v.natAbs < 2 ^ 31) :
    Drains xs ops ⟨-v :: xs, 126 :: ops⟩ v :=
  .step _ _ _ _ _ (by decide) (by decide)
    (fun n => by rw [reduceFuel_neg, Int.neg_neg, bind_ok (int32_small hv)]) (.done v)

theorem UShape.drains {xs : List Int} {ops : List Nat} {s : Stacks} {v : Int} (h : UShape xs ops s v) : Drains xs ops s v := by
  rcases h with rfl | ⟨a, b, c, hc, h, rfl⟩
  · exact .done v
  · exact drains_op (mulOps_mem hc) h

theorem product_drains {xs : List Int} {ops : List Nat} {s : Stacks} {v : Int} (hv : v.natAbs < 2 ^ 31)
    (h : Shape .product xs ops s v) : Drains xs ops s v := by
  rcases h with h | h
  · exact h.drains
  · exact h.drains.trans (drains_neg hv)

theorem atom_shape {xs : List Int} {ops : List Nat} {v : Int} : ∀ p, Shape p xs ops ⟨v :: xs, ops⟩ v
  | .atom => rfl
  | .unsigned => .inl rfl
  | .product => .inl (.inl rfl)
  | .front => .inl rfl
  | .whole => .done v

/-- A multiplication sign after a product. -/
theorem binary_mul {c : Nat} (hc : c ∈ mulOps) {xs : List Int} {ops : List Nat} (hops : Base .unsigned ops) {s : Stacks} {v : Int}
    (h : UShape xs ops s v) : binary c s = .ok ⟨v :: xs, c :: ops⟩ := by
  simp only [mulOps, List.mem_cons, List.not_mem_nil, or_false] at hc
  unfold binary
  rw [if_neg (by omega), if_neg (by omega)]
  rcases h with rfl | ⟨a, b, d, hd, h, rfl⟩
  · cases ops with
    | nil => rfl
    | cons op ops =>
      have := hops op rfl
      dsimp only
      rw [if_neg (by omega)]
      rfl
  · have hd' : d ≠ 126 ∧ d ≠ 43 ∧ d ≠ 45 ∧ d ≠ 40 := by
      simp only [mulOps, List.mem_cons, List.not_mem_nil, or_false] at hd
      omega
    dsimp only
    rw [if_pos hd', reduce, reduceFuel_bin _ (mulOps_mem hd), bind_ok h]
    rfl

/-- An addition sign after a sum. -/
theorem binary_add {c : Nat} (hc : c = 43 ∨ c = 45) {xs : List Int} {ops : List Nat} (hops : Base .front ops) {s : Stacks} {v : Int}
    (hv : v.natAbs < 2 ^ 31) (h : Shape .front xs ops s v) : binary c s = .ok ⟨v :: xs, c :: ops⟩ := by
  unfold binary
  rw [if_neg (by omega), if_pos hc, reduce]
  rcases h with rfl | ⟨a, b, d, hd, h, rfl⟩ | rfl
  · cases ops with
    | nil => rw [reduceFuel_empty]; rfl
    | cons op ops =>
      have := hops op rfl
      subst this
      rw [reduceFuel_paren]
      rfl
  · rw [reduceFuel_bin _ hd, bind_ok h]
    rfl
  · rw [reduceFuel_neg, Int.neg_neg, bind_ok (int32_small hv)]
    rfl

theorem exec_cons {t : Option Tk} {ts : List (Option Tk)} {st st' : Nat} {k k' : List (Nat × Nat)} {s s' : Stacks}
    (h1 : move t st k = some (st', k')) (h2 : act st t s = .ok s') : exec (t :: ts) st k s = exec ts st' k' s' := by
  rw [exec, h1]
  dsimp only
  rw [h2]
  rfl

theorem act_binary {c st : Nat} (h : st = 2 ∨ st = 5) (s : Stacks) : act st (some (.op c)) s = binary c s := by
  rw [act, if_pos h]

/-- Between operands: the state after an operand, and the one an operator leads to. -/
theorem op_move {c st : Nat} (hst : st = 0 ∨ st = 3) (k : List (Nat × Nat)) :
    move (some (.op c)) (aft st) k = some (st, k) ∧ (aft st = 2 ∨ aft st = 5) := by
  rcases hst with rfl | rfl <;> exact ⟨rfl, by decide⟩

theorem exec_easy : ∀ (e : Expr) (n : Nat) (p : Place) (v : Int), e.Level n → e.Easy p → e.value = some v →
    ∀ (ts : List (Option Tk)) (st : Nat) (k : List (Nat × Nat)) (xs : List Int) (ops : List Nat),
      (st = 0 ∨ st = 3 ∨ (p = .atom ∧ (st = 1 ∨ st = 4))) → Base p ops →
      ∃ s, Shape p xs ops s v ∧ exec (e.tokens.map some ++ ts) st k ⟨xs, ops⟩ = exec ts (aft st) k s
  | .num ds, n, p, v, hl, he, hv, ts, st, k, xs, ops, hst, hb => by
    refine ⟨_, atom_shape p, ?_⟩
    refine exec_cons (by rw [move, if_neg (by omega)]) ?_
    obtain ⟨rfl, h⟩ := small_some hv
    rw [act, int32_small h]
    rfl
  | .paren e, n, p, v, hl, he, hv, ts, st, k, xs, ops, hst, hb => by
    refine ⟨_, atom_shape p, ?_⟩
    have h1 : move (some .opn) st k = some (3, (aft st, 4) :: k) := by rw [move, if_neg (by omega)]
    rw [Expr.tokens, List.cons_append, List.map_cons, List.map_append, List.cons_append, exec_cons h1 rfl, List.append_assoc]
    obtain ⟨s, hs, g⟩ := exec_easy e 3 .whole v hl he hv (some .cls :: ts) 3 ((aft st, 4) :: k) xs (40 :: ops) (.inr (.inl rfl))
      (fun c hc => by cases hc; rfl)
    exact g.trans (exec_cons rfl (reduce_close hs))
  | .neg e, n, p, v, hl, he, hv, ts, st, k, xs, ops, hst, hb => by
    obtain ⟨u, hu, rfl⟩ := Option.map_eq_some_iff.1 hv
    have hsm := value_small e u hu
    obtain ⟨hp, he⟩ := he
    have hst' : st = 0 ∨ st = 3 := by
      rcases hst with h | h | ⟨rfl, _⟩
      · exact .inl h
      · exact .inr h
      · simp at hp
    obtain ⟨st', h1, h2, h3⟩ : ∃ st', move (some (.op 45)) st k = some (st', k) ∧ (st' = 1 ∨ st' = 4) ∧ aft st' = aft st := by
      rcases hst' with rfl | rfl
      · exact ⟨1, rfl, .inl rfl, rfl⟩
      · exact ⟨4, rfl, .inr rfl, rfl⟩
    obtain ⟨s, hs, g⟩ := exec_easy e 0 .atom u hl.2 he hu ts st' k xs (126 :: ops) (.inr (.inr ⟨rfl, h2⟩)) trivial
    have hs : s = ⟨u :: xs, 126 :: ops⟩ := hs
    refine ⟨s, ?_, ?_⟩
    · subst hs
      rcases hp with rfl | rfl | rfl
      · exact .inr (.inl (by rw [Int.neg_neg]))
      · exact .inr (.inr (by rw [Int.neg_neg]))
      · have := drains_neg (xs := xs) (ops := ops) (v := -u) (by rw [Int.natAbs_neg]; exact hsm)
        rw [Int.neg_neg] at this
        exact this
    · rw [Expr.tokens, List.map_cons, List.cons_append, exec_cons h1 (by rw [act, if_neg (by omega)]), g, h3]
  | .bin c l r, n, p, v, hl, he, hv, ts, st, k, xs, ops, hst, hb => by
    have hv' := hv
    simp only [Expr.value, bind, Option.bind_eq_some_iff] at hv
    obtain ⟨a, ha, b, hbv, hv⟩ := hv
    have sa := value_small l a ha
    have sb := value_small r b hbv
    have sv := opValue_small hv
    rw [Expr.Easy] at he
    rw [Expr.tokens, List.map_append, List.append_assoc, List.map_cons, List.cons_append]
    by_cases hc : c ∈ [42, 47, 37]
    · rw [if_pos hc] at he
      obtain ⟨he1, he2⟩ := he
      have hst' : st = 0 ∨ st = 3 := by
        rcases hst with h | h | ⟨rfl, _⟩
        · exact .inl h
        · exact .inr h
        · simp at he1
      have hlv : l.Level 2 ∧ r.Level 1 := by
        rcases hl with ⟨_, _, h⟩ | ⟨h, _⟩
        · exact h
        · simp only [List.mem_cons, List.not_mem_nil, or_false] at h hc; omega
      have hbase : Base .unsigned ops := by
        intro d hd
        rcases he1 with ⟨rfl | rfl, _⟩ | ⟨rfl | rfl, _⟩
        · exact hb d hd
        · exact .inl (hb d hd)
        · exact hb d hd
        · exact .inl (hb d hd)
      obtain ⟨h1, h2⟩ := op_move (c := c) hst' k
      -- what follows a product whose value is on the stack
      have key : ∀ (s1 : Stacks) (u : Int) (o : List Nat), UShape xs o s1 u → Base .unsigned o →
          exec (some (.op c) :: (r.tokens.map some ++ ts)) (aft st) k s1 = exec ts (aft st) k ⟨b :: u :: xs, c :: o⟩ := by
        intro s1 u o hs1 ho
        rw [exec_cons h1 (by rw [act_binary h2, binary_mul hc ho hs1])]
        obtain ⟨s2, hs2, g2⟩ := exec_easy r 1 .atom b hlv.2 he2 hbv ts st k (u :: xs) (c :: o)
          (by rcases hst' with h | h; exact .inl h; exact .inr (.inl h)) trivial
        have hs2 : s2 = ⟨b :: u :: xs, c :: o⟩ := hs2
        rw [g2, hs2]
      rcases he1 with ⟨hp, he1⟩ | ⟨hp, he1⟩
      · obtain ⟨s1, hs1, g1⟩ := exec_easy l 2 .unsigned a hlv.1 he1 ha (some (.op c) :: (r.tokens.map some ++ ts)) st k xs ops
          (by rcases hst' with h | h; exact .inl h; exact .inr (.inl h)) hbase
        rw [g1, key s1 a ops hs1 hbase]
        have happ := apply_value sa hv
        refine ⟨_, ?_, rfl⟩
        rcases hp with rfl | rfl
        · exact .inr ⟨a, b, c, hc, happ, rfl⟩
        · exact .inr (.inl ⟨a, b, c, mulOps_mem hc, happ, rfl⟩)
      · obtain ⟨s1, hs1, g1⟩ := exec_easy l 2 .product a hlv.1 he1 ha (some (.op c) :: (r.tokens.map some ++ ts)) st k xs ops
          (by rcases hst' with h | h; exact .inl h; exact .inr (.inl h)) hbase
        rw [g1]
        have : ∃ s, Shape .product xs ops s v ∧
            exec (some (.op c) :: (r.tokens.map some ++ ts)) (aft st) k s1 = exec ts (aft st) k s := by
          rcases hs1 with hs1 | hs1
          · exact ⟨_, .inl (.inr ⟨a, b, c, hc, apply_value sa hv, rfl⟩), key s1 a ops hs1 hbase⟩
          · have hn : opValue c (-a) b = some (-v) := opValue_neg hc (by rw [Int.neg_neg]; exact hv)
            exact ⟨_, .inr (.inr ⟨-a, b, c, hc, apply_value (by rw [Int.natAbs_neg]; exact sa) hn, rfl⟩),
              key s1 (-a) (126 :: ops) hs1 (fun d hd => by cases hd; exact .inr (.inr (.inr rfl)))⟩
        obtain ⟨s, hs, g⟩ := this
        refine ⟨s, ?_, g⟩
        rcases hp with rfl | rfl
        · exact hs
        · exact product_drains sv hs
    · rw [if_neg hc] at he
      obtain ⟨he2, he1⟩ := he
      have hst' : st = 0 ∨ st = 3 := by
        rcases hst with h | h | ⟨rfl, _⟩
        · exact .inl h
        · exact .inr h
        · simp at he2
      have hlv : (c = 43 ∨ c = 45) ∧ l.Level 3 ∧ r.Level 2 := by
        rcases hl with ⟨h, _⟩ | ⟨h, _, h'⟩
        · exact absurd h hc
        · simp only [List.mem_cons, List.not_mem_nil, or_false] at h
          exact ⟨h, h'⟩
      have hop : c ∈ opChars := by
        simp only [opChars, List.mem_cons, List.not_mem_nil, or_false]
        omega
      have hbase : Base .front ops := by
        intro d hd
        rcases he2 with ⟨rfl, _⟩ | ⟨rfl, _⟩ <;> exact hb d hd
      obtain ⟨h1, h2⟩ := op_move (c := c) hst' k
      obtain ⟨s1, hs1, g1⟩ := exec_easy l 3 .front a hlv.2.1 he1 ha (some (.op c) :: (r.tokens.map some ++ ts)) st k xs ops
        (by rcases hst' with h | h; exact .inl h; exact .inr (.inl h)) hbase
      rw [g1, exec_cons h1 (by rw [act_binary h2, binary_add hlv.1 hbase sa hs1])]
      have happ := apply_value sa hv
      rcases he2 with ⟨rfl, he2⟩ | ⟨rfl, he2⟩
      · obtain ⟨s2, hs2, g2⟩ := exec_easy r 2 .atom b hlv.2.2 he2 hbv ts st k (a :: xs) (c :: ops)
          (by rcases hst' with h | h; exact .inl h; exact .inr (.inl h)) trivial
        have hs2 : s2 = ⟨b :: a :: xs, c :: ops⟩ := hs2
        exact ⟨s2, .inr (.inl ⟨a, b, c, hop, happ, hs2⟩), g2⟩
      · obtain ⟨s2, hs2, g2⟩ := exec_easy r 2 .product b hlv.2.2 he2 hbv ts st k (a :: xs) (c :: ops)
          (by rcases hst' with h | h; exact .inl h; exact .inr (.inl h)) (fun d hd => by cases hd; omega)
        exact ⟨s2, (product_drains sb hs2).trans (drains_op hop happ), g2⟩

/-- The value of an easy expression. -/
theorem exec_value {e : Expr} {v : Int} (hl : e.Level 3) (he : e.Easy .whole) (hv : e.value = some v) :
    (exec (e.tokens.map some) 0 [] ⟨[], []⟩).bind finish = .ok v := by
  obtain ⟨s, hs, g⟩ := exec_easy e 3 .whole v hl he hv [] 0 [] [] [] (.inl rfl) (fun c hc => by cases hc)
  rw [List.append_nil] at g
  rw [g, exec, aft, if_pos (by decide)]
  show finish (2, s) = .ok v
  rw [finish]
  simp only [ne_eq, not_true_eq_false, if_false]
  rw [drain_drains (show Drains [] [] s v from hs) _ (Nat.lt_succ_self _)]
  rfl

end Lexertl.Calc
