import Verif.Proofs.Grammar
import Verif.Proofs.Parser

/-
The parser accepts nothing but the grammar: if the parse loop returns on
`BEGIN ts END`, then `ts` is empty or derives an expression.
-/
namespace Lexertl
open Spec

namespace PState

/-- A postfix operator the tokeniser can produce. -/
def IsPost (d : Tok) : Prop := ∀ r, ∃ q, Postfix d r q

/-- Tokens produced by the tokeniser between `BEGIN` and `END`. -/
def Term (t : Tok) : Prop :=
  t.type = .or_ ∨ t.type = .charset ∨ t.type = .bol ∨ t.type = .eol ∨ t.type = .openparen ∨
  t.type = .closeparen ∨ IsPost t

/-- What a symbol on the token stack stands for. -/
def Cov (t : Tok) (c : List Tok) : Prop :=
  match t.type with
  | .orexp => ∃ r, Derives .alt c r
  | .regex => ∃ r, Derives .alt c r
  | .sequence => ∃ r, Derives .seq c r
  | .sub => ∃ r, Derives .seq c r
  | .expression => ∃ r, Derives .item c r
  | .repeat_ => ∃ r, Derives .atom c r
  | .dup => ∃ d, c = [d] ∧ IsPost d
  | .begin => c = [t]
  | _ => c = [t] ∧ Term t

theorem IsPost.dup {d : Tok} (h : IsPost d) : Dup d.type := by
  obtain ⟨q, hq⟩ := h .bol
  exact (postfix_reduce ⟨0, false, false⟩ hq).1

theorem Term.cov {t : Tok} (h : Term t) : Cov t [t] := by
  have : t.type ≠ .orexp ∧ t.type ≠ .regex ∧ t.type ≠ .sequence ∧ t.type ≠ .sub ∧ t.type ≠ .expression ∧
      t.type ≠ .repeat_ ∧ t.type ≠ .dup ∧ t.type ≠ .begin := by
    rcases h with h | h | h | h | h | h | h
    iterate 6 (rw [h]; decide)
    rcases h.dup with h | h | h | h | h | h | h | h <;> rw [h] <;> decide
  obtain ⟨h1, h2, h3, h4, h5, h6, h7, h8⟩ := this
  unfold Cov
  split <;> first | contradiction | exact ⟨rfl, h⟩

theorem Term.not_end {t : Tok} (h : Term t) : t.type ≠ .end_ ∧ t.type ≠ .begin := by
  rcases h with h | h | h | h | h | h | h
  iterate 6 (rw [h]; decide)
  rcases h.dup with h | h | h | h | h | h | h | h <;> rw [h] <;> decide

/-- Tokens covered by a stack (top first). -/
def covered (st : List (Tok × List Tok)) : List Tok := (st.reverse.map (·.2)).flatten

theorem covered_cons (x : Tok × List Tok) (st : List (Tok × List Tok)) :
    covered (x :: st) = covered st ++ x.2 := by
  simp [covered]

theorem covered_append (a st : List (Tok × List Tok)) :
    covered (a ++ st) = covered st ++ covered a := by
  simp [covered]

/-- The stacks that occur, before the lookahead token `t`: `begin` at the bottom only,
and every symbol stands for what it should.  The two other forms last for one step. -/
inductive Inv (b t : Tok) : List (Tok × List Tok) → Prop
  | normal (st) : (∀ x ∈ st, Cov x.1 x.2 ∧ x.1.type ≠ .begin) → Inv b t (st ++ [(b, [b])])
  | repeated (st x) : x.1.type = .repeat_ → (∃ r, Derives .item x.2 r) → FolItem t.type →
      (∀ x ∈ st, Cov x.1 x.2 ∧ x.1.type ≠ .begin) → Inv b t (x :: st ++ [(b, [b])])
  | sliced (st c) : c.type = .charset → prec .closeparen t.type = .gt →
      (∀ x ∈ st, Cov x.1 x.2 ∧ x.1.type ≠ .begin) →
      Inv b t ((newTok .closeparen, []) :: (newTok .regex, [c]) :: (newTok .openparen, []) :: st ++ [(b, [b])])

/-- What `popHandle` returns. -/
theorem popHandle_spec (st : List (Tok × List Tok)) : ∀ (acc handle stack : List Tok),
    popHandle acc (st.map (·.1)) = .ok (handle, stack) →
    ∃ m s, st = m ++ s ∧ handle = (m.map (·.1)).reverse ++ acc ∧ stack = s.map (·.1) ∧ m ≠ [] ∧
      (s = [] ∨ ∃ l s' f m', s = l :: s' ∧ m = m' ++ [f] ∧ prec l.1.type f.1.type = .lt) ∧
      (∀ u v a c, m = u ++ a :: c :: v → prec c.1.type a.1.type = .eq) := by
  induction st with
  | nil => intro acc handle stack h; simp [popHandle] at h
  | cons x st ih =>
    intro acc handle stack h
    have one : ∀ u v (a c : Tok × List Tok), [x] = u ++ a :: c :: v → prec c.1.type a.1.type = .eq := by
      intro u v a c h
      have := congrArg List.length h
      simp at this
      omega
    cases st with
    | nil =>
      simp only [List.map_cons, List.map_nil, popHandle, Except.ok.injEq, Prod.mk.injEq] at h
      obtain ⟨rfl, rfl⟩ := h
      exact ⟨[x], [], rfl, rfl, rfl, by simp, .inl rfl, one⟩
    | cons y st =>
      simp only [List.map_cons, popHandle] at h
      split at h
      · rename_i he
        obtain ⟨m, s, h1, h2, h3, h4, h5, h6⟩ := ih (x.1 :: acc) handle stack h
        obtain ⟨z, m', rfl⟩ := List.exists_cons_of_ne_nil h4
        simp only [List.cons_append, List.cons.injEq] at h1
        obtain ⟨rfl, h1⟩ := h1
        refine ⟨x :: y :: m', s, by simp [h1], by simp [h2], h3, by simp, ?_, ?_⟩
        · rcases h5 with h5 | ⟨l, s', f, m'', e1, e2, e3⟩
          · exact .inl h5
          · exact .inr ⟨l, s', f, x :: m'', e1, by rw [e2]; rfl, e3⟩
        · intro u v a c hu
          cases u with
          | nil =>
            simp only [List.nil_append, List.cons.injEq] at hu
            obtain ⟨rfl, rfl, _⟩ := hu
            exact he
          | cons u0 u =>
            simp only [List.cons_append, List.cons.injEq] at hu
            exact h6 u v a c hu.2
      · rename_i he
        simp only [Except.ok.injEq, Prod.mk.injEq] at h
        obtain ⟨rfl, rfl⟩ := h
        exact ⟨[x], y :: st, rfl, rfl, rfl, by simp, .inr ⟨y, st, x, [], rfl, rfl, he⟩, one⟩
      · cases h

/-- `prec a · = .eq` for few `a` only. -/
theorem prec_eq {a c : TT} (h : prec a c = .eq) :
    (a = .regex ∧ c = .closeparen) ∨ (a = .orexp ∧ c = .or_) ∨ (a = .sub ∧ c = .expression) ∨
    (a = .repeat_ ∧ c = .dup) ∨ (a = .or_ ∧ c = .sequence) ∨ (a = .openparen ∧ c = .regex) := by
  cases a <;> cases c <;> first | (exact absurd h (by decide)) | decide

theorem prec_regex {a : TT} (h : prec a .regex = .lt) : a = .begin := by
  cases a <;> first | (exact absurd h (by decide)) | rfl

theorem prec_end {a : TT} : prec a .end_ ≠ .lt ∧ prec a .end_ ≠ .eq := by
  cases a <;> decide

theorem prec_begin_gt {a : TT} (h : prec .begin a = .gt) : a = .end_ := by
  cases a <;> first | (exact absurd h (by decide)) | rfl

theorem prec_regex_gt {a : TT} (h : prec .regex a = .gt) : a = .end_ := by
  cases a <;> first | (exact absurd h (by decide)) | rfl

theorem prec_dup_gt {a : TT} (h : prec .dup a = .gt) (hm : a ≠ .macro_) : FolItem a := by
  cases a <;> first | (exact absurd h (by decide)) | (exact absurd rfl hm) | (simp [FolItem])

/-- The conclusion: the tokens between `b` and `e` derive an expression, if any. -/
def Accepts (mid : List Tok) : Prop := mid = [] ∨ ∃ r, Derives .alt mid r

/-- The last element of a stack. -/
theorem last_split {α : Type} {m s st : List α} {b : α} (h : st ++ [b] = m ++ s) (hm : s ≠ []) :
    ∃ s', s = s' ++ [b] ∧ st = m ++ s' := by
  rcases List.eq_nil_or_concat s with rfl | ⟨s', x, rfl⟩
  · exact absurd rfl hm
  · rw [List.concat_eq_append, ← List.append_assoc] at h
    have := List.append_inj' h rfl
    simp only [List.cons.injEq, and_true] at this
    exact ⟨s', by rw [List.concat_eq_append, this.2], this.1⟩

/-- Handles have one, two or three symbols. -/
theorem handle_shapes {m : List (Tok × List Tok)} (h0 : m ≠ [])
    (h : ∀ u v a c, m = u ++ a :: c :: v → prec c.1.type a.1.type = .eq) :
    (∃ a, m = [a]) ∨ (∃ a c, m = [a, c] ∧ prec c.1.type a.1.type = .eq) ∨
    (∃ a c d, m = [a, c, d] ∧ prec c.1.type a.1.type = .eq ∧ prec d.1.type c.1.type = .eq) := by
  match m, h0, h with
  | [a], _, _ => exact .inl ⟨a, rfl⟩
  | [a, c], _, h => exact .inr (.inl ⟨a, c, rfl, h [] [] a c rfl⟩)
  | [a, c, d], _, h => exact .inr (.inr ⟨a, c, d, rfl, h [] [d] a c rfl, h [a] [] c d rfl⟩)
  | a :: c :: d :: x :: m, _, h =>
    exfalso
    have h1 := prec_eq (h [] (d :: x :: m) a c rfl)
    have h2 := prec_eq (h [a] (x :: m) c d rfl)
    have h3 := prec_eq (h [a, c] m d x rfl)
    generalize a.1.type = a' at h1
    generalize c.1.type = c' at h1 h2
    generalize d.1.type = d' at h2 h3
    generalize x.1.type = x' at h3
    rcases h3 with ⟨rfl, rfl⟩ | ⟨rfl, rfl⟩ | ⟨rfl, rfl⟩ | ⟨rfl, rfl⟩ | ⟨rfl, rfl⟩ | ⟨rfl, rfl⟩ <;>
      simp at h2 <;> subst h2 <;> simp at h1

/-- Where the lookahead token is. -/
theorem lookahead {b e t : Tok} {mid us : List Tok} {c : List Tok}
    (h : b :: c ++ t :: us = b :: mid ++ [e]) :
    (us = [] ∧ t = e ∧ c = mid) ∨ (t ∈ mid ∧ ∃ v, mid = c ++ t :: v ∧ us = v ++ [e]) := by
  simp only [List.cons_append, List.cons.injEq, true_and] at h
  rcases List.eq_nil_or_concat us with rfl | ⟨v, x, rfl⟩
  · have := List.append_inj' h rfl
    simp only [List.cons.injEq, and_true] at this
    exact .inl ⟨rfl, this.2, this.1⟩
  · rw [List.concat_eq_append, show c ++ t :: (v ++ [x]) = (c ++ t :: v) ++ [x] by simp] at h
    have := List.append_inj' h rfl
    simp only [List.cons.injEq, and_true] at this
    exact .inr ⟨by rw [← this.1]; simp, v, this.1.symm, by rw [List.concat_eq_append, this.2]⟩

theorem covered_bottom (b : Tok) (st : List (Tok × List Tok)) :
    covered (st ++ [(b, [b])]) = b :: covered st := by
  rw [covered_append]; rfl

section
variable (tr : Traits) {b e : Tok} (hb : b.type = .begin) (he : e.type = .end_) {mid : List Tok}
  (hterm : ∀ t ∈ mid, Term t) (hbal : ∀ u v, mid = u ++ v → 0 ≤ depth u)
include hb he hterm hbal

/-- One reduction of a stack in normal form. -/
theorem reduce_sound {k : Nat} (ih : ∀ (p : PState) (st : List (Tok × List Tok)) (t : Tok) (us : List Tok) (p' : PState),
      loop tr k p (st.map (·.1)) (t :: us) = .ok p' →
      Inv b t st → covered st ++ t :: us = b :: mid ++ [e] → Accepts mid)
    (p p' : PState) (st : List (Tok × List Tok)) (t : Tok) (us : List Tok) (x : Tok × List Tok)
    (s : List (Tok × List Tok)) (hst : st ++ [(b, [b])] = x :: s)
    (hcov : ∀ x ∈ st, Cov x.1 x.2 ∧ x.1.type ≠ .begin) (hgt : prec x.1.type t.type = .gt)
    (hall : covered (st ++ [(b, [b])]) ++ t :: us = b :: mid ++ [e])
    (h : (do let r ← p.reduce tr ((st ++ [(b, [b])]).map fun (x : Tok × List Tok) => x.1); loop tr k r.1 r.2 (t :: us)) = .ok p') :
    Accepts mid := by
  have hlook := lookahead (b := b) (e := e) (t := t) (us := us) (mid := mid) (c := covered st) (by rw [← covered_bottom b st]; exact hall)
  have hend : t.type = .end_ → us = [] ∧ covered st = mid := by
    intro ht
    rcases hlook with ⟨h1, _, h3⟩ | ⟨h1, _⟩
    · exact ⟨h1, h3⟩
    · exact absurd ht (hterm t h1).not_end.1
  have hmac : t.type ≠ .macro_ := by
    rcases hlook with ⟨_, rfl, _⟩ | ⟨h1, _⟩
    · rw [he]; decide
    · rcases hterm t h1 with h | h | h | h | h | h | h
      iterate 6 (rw [h]; decide)
      rcases h.dup with h | h | h | h | h | h | h | h <;> rw [h] <;> decide
  simp only [reduce, bind, Except.bind] at h
  cases hpop : popHandle [] ((st ++ [(b, [b])]).map (·.1)) with
  | error e => rw [hpop] at h; cases h
  | ok hs =>
  obtain ⟨handle, stack⟩ := hs
  rw [hpop] at h
  obtain ⟨m, s2, e1, e2, e3, e4, e5, e6⟩ := popHandle_spec _ _ _ _ hpop
  simp only [List.append_nil] at e2
  subst e2 e3
  simp only at h
  -- go on with a new symbol `y` in place of `m`
  have go : ∀ (m' : List (Tok × List Tok)) (y : Tok × List Tok) (q : PState) (st' : List (Tok × List Tok)),
      st = m ++ st' → s2 = st' ++ [(b, [b])] → covered m = y.2 → Cov y.1 y.2 → y.1.type ≠ .begin →
      loop tr k q (y.1 :: s2.map (·.1)) (t :: us) = .ok p' → Accepts mid := by
    intro m' y q st' h1 h2 h3 h4 h5 h6
    refine ih q (y :: st' ++ [(b, [b])]) t us p' ?_ (.normal (y :: st') ?_) ?_
    · rw [List.cons_append, List.map_cons, ← h2]; exact h6
    · intro z hz
      rcases List.mem_cons.1 hz with rfl | hz
      · exact ⟨h4, h5⟩
      · exact hcov z (by rw [h1]; simp [hz])
    · rw [← hall, h1, List.cons_append, covered_cons, ← h3, List.append_assoc m, covered_append m]
  rcases handle_shapes e4 e6 with ⟨a, rfl⟩ | ⟨a, c, rfl, g1⟩ | ⟨a, c, d, rfl, g1, g2⟩
  · -- one symbol
    simp only [List.cons_append, List.nil_append] at e1
    obtain ⟨rfl, rfl⟩ : a = x ∧ s2 = s := by
      rw [e1] at hst; simp only [List.cons.injEq] at hst; exact hst
    simp only [List.map_cons, List.map_nil, List.reverse_cons, List.reverse_nil, List.nil_append] at h
    by_cases hs0 : s2 = []
    · -- only `begin` is left
      subst hs0
      have : st = [] := by
        have := congrArg List.length e1
        simp at this
        exact this
      subst this
      simp only [List.nil_append, List.cons.injEq, and_true] at e1
      subst e1
      rw [hb] at hgt
      have := (hend (prec_begin_gt hgt)).2
      exact .inl this.symm
    · obtain ⟨st', e7, e8⟩ := last_split (m := [a]) e1 hs0
      have hca := hcov a (by rw [e8]; simp)
      have hcm : covered [a] = a.2 := by simp [covered]
      rcases e5 with e5 | ⟨l, s', f, m', e5, e5', e5''⟩
      · exact absurd e5 hs0
      have hf : f = a := by
        cases m' with
        | nil => simp at e5'; exact e5'.symm
        | cons z m' => simp at e5'
      subst hf
      obtain ⟨⟨ty, ex, str⟩, cv⟩ := f
      simp only at hgt e5'' h hca
      have go' := fun y q => go [] y q st' e8 e7
      rw [hcm] at go'
      obtain ⟨hc1, hc2⟩ := hca
      cases ty <;> simp only [Cov] at hc1
      case begin => exact absurd rfl hc2
      case regex =>
        have hl := prec_regex e5''
        have hst' : st' = [] := by
          cases st' with
          | nil => rfl
          | cons z st' =>
            rw [e7] at e5
            simp only [List.cons_append, List.cons.injEq] at e5
            exact absurd (by rw [e5.1]; exact hl) (hcov z (by rw [e8]; simp)).2
        subst hst'
        have := (hend (prec_regex_gt hgt)).2
        rw [e8] at this
        have h9 : cv = mid := by rw [← this]; simp [covered]
        rw [← h9]
        exact .inr hc1
      case orexp =>
        simp only [reduceHandle, List.map_nil] at h
        exact go' (newTok .regex, cv) p rfl hc1 (by simp [newTok]) h
      case sequence =>
        simp only [reduceHandle] at h
        obtain ⟨r, hr⟩ := hc1
        exact go' (newTok .orexp, cv) p rfl ⟨r, .alt1 _ _ hr⟩ (by simp [newTok]) h
      case sub =>
        simp only [reduceHandle, List.map_nil] at h
        exact go' (newTok .sequence, cv) p rfl hc1 (by simp [newTok]) h
      case expression =>
        simp only [reduceHandle] at h
        obtain ⟨r, hr⟩ := hc1
        exact go' (newTok .sub, cv) p rfl ⟨r, .seq1 _ _ hr⟩ (by simp [newTok]) h
      case repeat_ =>
        simp only [reduceHandle, List.map_nil] at h
        obtain ⟨r, hr⟩ := hc1
        exact go' (newTok .expression, cv) p rfl ⟨r, .item _ _ hr⟩ (by simp [newTok]) h
      case bol =>
        simp only [reduceHandle, List.map_nil] at h
        obtain ⟨rfl, _⟩ := hc1
        exact go' (newTok .repeat_, _) _ rfl ⟨_, .bol _ _⟩ (by simp [newTok]) h
      case eol =>
        simp only [reduceHandle, List.map_nil] at h
        obtain ⟨rfl, _⟩ := hc1
        exact go' (newTok .repeat_, _) _ rfl ⟨_, .eol _ _⟩ (by simp [newTok]) h
      case charset =>
        simp only [reduceHandle, List.map_nil] at h
        obtain ⟨rfl, _⟩ := hc1
        by_cases hc : tr.compressed = true
        · simp only [hc, if_true, bind, Except.bind] at h
          cases hp : p.pushRows tr (sliceToken tr.char24 str) with
          | error e => rw [hp] at h; cases h
          | ok q =>
            rw [hp] at h
            simp only at h
            refine ih q ((newTok .closeparen, []) :: (newTok .regex, [⟨.charset, ex, str⟩]) ::
              (newTok .openparen, []) :: st' ++ [(b, [b])]) t us p' ?_ (.sliced st' _ rfl ?_ ?_) ?_
            · rw [e7] at h
              exact h
            · revert hgt
              cases t.type <;> decide
            · intro z hz
              exact hcov z (by rw [e8]; simp [hz])
            · rw [← hall, e8]
              simp only [List.cons_append, covered_cons, List.append_nil, List.nil_append]
        · simp only [hc] at h
          exact go' (newTok .repeat_, _) _ rfl ⟨_, .charset _ _⟩ (by simp [newTok]) h
      case openparen => simp only [reduceHandle, List.map_nil] at h; cases h
      case or_ => simp only [reduceHandle] at h; cases h
      case dup => simp only [reduceHandle] at h; cases h
      case macro_ => simp only [reduceHandle] at h; cases h
      case closeparen => simp only [reduceHandle] at h; cases h
      case end_ => simp only [reduceHandle] at h; cases h
      all_goals
        obtain ⟨rfl, ht⟩ := hc1
        simp only [reduceHandle, bind, Except.bind] at h
        split at h
        · cases h
        rename_i hv
        split at hv
        · cases hv
        rename_i hw
        split at hw
        · cases hw
        cases hw
        cases hv
        refine go' (newTok .dup, _) _ rfl ⟨_, rfl, ?_⟩ (by simp [newTok]) h
        rcases ht with h | h | h | h | h | h | h <;> first | (exact h) | (exact absurd h (by simp))
  · -- two symbols
    have hs0 : s2 ≠ [] := by
      rintro rfl
      rw [List.append_nil] at e1
      have h1 := List.append_inj' (s₁ := st) (t₁ := [(b, [b])]) (s₂ := [a]) (t₂ := [c]) e1 rfl
      simp only [List.cons.injEq, and_true] at h1
      rw [← h1.2] at g1
      simp only [hb] at g1
      revert g1
      cases a.1.type <;> decide
    obtain ⟨st', e7, e8⟩ := last_split e1 hs0
    have hca := hcov a (by rw [e8]; simp)
    have hcc := hcov c (by rw [e8]; simp)
    have hcm : covered [a, c] = c.2 ++ a.2 := by simp [covered]
    rcases e5 with e5 | ⟨l, s', f, m', e5, e5', e5''⟩
    · exact absurd e5 hs0
    obtain rfl : f = c := by
      have := List.append_inj' (s₁ := [a]) (t₁ := [c]) e5' rfl
      simp at this
      exact this.2.symm
    have go' := fun y q => go [] y q st' e8 e7
    rw [hcm] at go'
    have hax : a = x := by
      rw [e1] at hst; simp only [List.cons_append, List.cons.injEq] at hst; exact hst.1
    subst hax
    obtain ⟨⟨ty, ex, str⟩, cv⟩ := a
    obtain ⟨⟨ty', ex', str'⟩, cv'⟩ := f
    simp only [List.map_cons, List.map_nil, List.reverse_cons, List.reverse_nil, List.nil_append,
      List.cons_append] at h
    simp only at g1 e5'' hgt hca hcc
    rcases prec_eq g1 with ⟨rfl, rfl⟩ | ⟨rfl, rfl⟩ | ⟨rfl, rfl⟩ | ⟨rfl, rfl⟩ | ⟨rfl, rfl⟩ | ⟨rfl, rfl⟩
    · -- `regex )` on `begin`: one `)` too many
      exfalso
      have hl := prec_regex e5''
      have hst' : st' = [] := by
        cases st' with
        | nil => rfl
        | cons z st' =>
          rw [e7] at e5
          simp only [List.cons_append, List.cons.injEq] at e5
          exact absurd (by rw [e5.1]; exact hl) (hcov z (by rw [e8]; simp)).2
      subst hst'
      obtain ⟨r, hr⟩ := hcc.1
      obtain ⟨rfl, _⟩ := hca.1
      have hcs : covered st = cv' ++ [⟨.closeparen, ex, str⟩] := by rw [e8]; simp [covered]
      have hd : depth (covered st) = -1 := by
        rw [hcs, depth_append, (derives_depth hr).1]; simp [depth]
      rcases hlook with ⟨_, _, h3⟩ | ⟨_, v, h3, _⟩
      · have := hbal mid [] (by simp)
        rw [← h3, hd] at this
        omega
      · have := hbal _ _ h3
        rw [hd] at this
        omega
    · simp only [reduceHandle, List.map_cons, List.map_nil] at h; cases h
    · -- `sub expression`
      simp only [reduceHandle, List.map_cons, List.map_nil, bind, Except.bind] at h
      split at h
      · cases h
      rename_i hv
      split at hv
      · cases hv
      rename_i hw
      split at hw
      · cases hw
      cases hw
      cases hv
      obtain ⟨r, hr⟩ := hcc.1
      obtain ⟨r', hr'⟩ := hca.1
      exact go' (newTok .sub, _) _ rfl ⟨_, .seq _ _ _ _ hr hr'⟩ (by simp [newTok]) h
    · -- `repeat dup`
      simp only [reduceHandle, List.map_cons, List.map_nil] at h
      obtain ⟨r, hr⟩ := hcc.1
      obtain ⟨d, hd1, hd2⟩ := hca.1
      obtain ⟨q, hq⟩ := hd2 r
      refine ih p ((newTok .repeat_, cv' ++ cv) :: st' ++ [(b, [b])]) t us p' ?_
        (.repeated st' _ rfl ⟨q, ?_⟩ (prec_dup_gt hgt hmac) ?_) ?_
      · rw [List.cons_append, List.map_cons, ← e7]; exact h
      · subst hd1
        exact .postfix_ _ _ _ _ hr hq
      · intro z hz
        exact hcov z (by rw [e8]; simp [hz])
      · rw [← hall, e8, List.cons_append, covered_cons]
        simp only [List.cons_append, List.nil_append, covered_cons, List.append_assoc]
    · simp only [reduceHandle] at h; cases h
    · simp only [reduceHandle, List.map_cons, List.map_nil] at h; cases h
  · -- three symbols
    have hs0 : s2 ≠ [] := by
      rintro rfl
      rw [List.append_nil] at e1
      have h1 := List.append_inj' (s₁ := st) (t₁ := [(b, [b])]) (s₂ := [a, c]) (t₂ := [d]) e1 rfl
      simp only [List.cons.injEq, and_true] at h1
      rw [← h1.2] at g2
      simp only [hb] at g2
      revert g2
      cases c.1.type <;> decide
    obtain ⟨st', e7, e8⟩ := last_split e1 hs0
    have hca := hcov a (by rw [e8]; simp)
    have hcc := hcov c (by rw [e8]; simp)
    have hcd := hcov d (by rw [e8]; simp)
    have hcm : covered [a, c, d] = d.2 ++ (c.2 ++ a.2) := by simp [covered]
    have go' := fun y q => go [] y q st' e8 e7
    rw [hcm] at go'
    obtain ⟨⟨ty, ex, str⟩, cv⟩ := a
    obtain ⟨⟨ty', ex', str'⟩, cv'⟩ := c
    obtain ⟨⟨ty'', ex'', str''⟩, cv''⟩ := d
    simp only [List.map_cons, List.map_nil, List.reverse_cons, List.reverse_nil, List.nil_append,
      List.cons_append] at h
    simp only at g1 g2 hca hcc hcd
    rcases prec_eq g1 with ⟨rfl, rfl⟩ | ⟨rfl, rfl⟩ | ⟨rfl, rfl⟩ | ⟨rfl, rfl⟩ | ⟨rfl, rfl⟩ | ⟨rfl, rfl⟩ <;>
      rcases prec_eq g2 with ⟨rfl, h2⟩ | ⟨rfl, h2⟩ | ⟨rfl, h2⟩ | ⟨rfl, h2⟩ | ⟨rfl, h2⟩ | ⟨rfl, h2⟩ <;>
      try (cases h2)
    · -- `( regex )`
      simp only [reduceHandle, List.map_cons, List.map_nil] at h
      obtain ⟨r, hr⟩ := hcc.1
      obtain ⟨rfl, _⟩ := hca.1
      obtain ⟨rfl, _⟩ := hcd.1
      refine go' (newTok .repeat_, _) _ rfl ⟨r, ?_⟩ (by simp [newTok]) h
      exact .paren _ _ _ _ rfl rfl hr
    · -- `orexp | sequence`
      simp only [reduceHandle, List.map_cons, List.map_nil, bind, Except.bind] at h
      split at h
      · cases h
      rename_i hv
      split at hv
      · cases hv
      rename_i hw
      split at hw
      · cases hw
      cases hw
      cases hv
      obtain ⟨r, hr⟩ := hcd.1
      obtain ⟨rfl, _⟩ := hcc.1
      obtain ⟨r', hr'⟩ := hca.1
      exact go' (newTok .orexp, _) _ rfl ⟨_, .alt _ _ _ _ _ rfl hr hr'⟩ (by simp [newTok]) h

/-- If the parse loop returns, the tokens read and to be read are in the grammar. -/
theorem loop_sound (k : Nat) : ∀ (p : PState) (st : List (Tok × List Tok)) (t : Tok) (us : List Tok)
    (p' : PState), loop tr k p (st.map (·.1)) (t :: us) = .ok p' → Inv b t st →
    covered st ++ t :: us = b :: mid ++ [e] → Accepts mid := by
  induction k with
  | zero =>
    intro p st t us p' h _ _
    cases us <;> simp [loop, parseLoop] at h
  | succ k ih =>
    intro p st t us p' h hinv hall
    cases hinv with
    | repeated st x hx hd hfol hcov =>
      -- `repeat` becomes `expression`
      simp only [List.cons_append, List.map_cons] at h
      rw [loop_reduce tr k p x.1 _ t us (by rw [hx]; exact hfol.gt.1)] at h
      obtain ⟨z, s, hz⟩ : ∃ z s, st ++ [(b, [b])] = z :: s := by
        cases st with
        | nil => exact ⟨_, _, rfl⟩
        | cons z st => exact ⟨_, _, rfl⟩
      have hm : (st ++ [(b, [b])]).map (·.1) = z.1 :: s.map (·.1) := by rw [hz]; rfl
      rw [hm] at h
      simp only [reduce, popHandle, bind, Except.bind] at h
      have hne : prec z.1.type x.1.type ≠ .eq := by
        rw [hx]; cases z.1.type <;> decide
      cases hpr : prec z.1.type x.1.type with
      | eq => exact absurd hpr hne
      | gt => rw [hpr] at h; cases h
      | err => rw [hpr] at h; cases h
      | lt =>
        rw [hpr] at h
        obtain ⟨⟨ty, ex, str⟩, cv⟩ := x
        simp only at hx
        subst hx
        simp only [reduceHandle, List.map_nil] at h
        refine ih p ((newTok .expression, cv) :: st ++ [(b, [b])]) t us p' ?_
          (.normal ((newTok .expression, cv) :: st) ?_) ?_
        · rw [List.cons_append, List.map_cons, hm]; exact h
        · intro y hy
          rcases List.mem_cons.1 hy with rfl | hy
          · exact ⟨hd, by simp [newTok]⟩
          · exact hcov y hy
        · rw [← hall, List.cons_append, List.cons_append, covered_cons, covered_cons]
    | sliced st c hc hgt hcov =>
      simp only [List.cons_append, List.map_cons] at h
      rw [loop_reduce tr k p _ _ t us hgt] at h
      obtain ⟨z, s, hz⟩ : ∃ z s, st ++ [(b, [b])] = z :: s := by
        cases st with
        | nil => exact ⟨_, _, rfl⟩
        | cons z st => exact ⟨_, _, rfl⟩
      have hm : (st ++ [(b, [b])]).map (·.1) = z.1 :: s.map (·.1) := by rw [hz]; rfl
      rw [hm] at h
      have hne : prec z.1.type .openparen ≠ .eq := by cases z.1.type <;> decide
      cases hpr : prec z.1.type .openparen with
      | eq => exact absurd hpr hne
      | gt =>
        simp only [reduce, popHandle, newTok, bind, Except.bind, hpr, show prec .regex .closeparen = .eq from rfl,
          show prec .openparen .regex = .eq from rfl] at h
        cases h
      | err =>
        simp only [reduce, popHandle, newTok, bind, Except.bind, hpr, show prec .regex .closeparen = .eq from rfl,
          show prec .openparen .regex = .eq from rfl] at h
        cases h
      | lt =>
        rw [reduce_pop3 tr p _ _ _ _ _ rfl rfl hpr] at h
        simp only [reduceHandle, List.map_cons, List.map_nil, newTok, bind, Except.bind] at h
        refine ih p ((newTok .repeat_, [c]) :: st ++ [(b, [b])]) t us p' ?_
          (.normal ((newTok .repeat_, [c]) :: st) ?_) ?_
        · rw [List.cons_append, List.map_cons, hm]; exact h
        · intro y hy
          rcases List.mem_cons.1 hy with rfl | hy
          · obtain ⟨ty, ex, str⟩ := c
            simp only at hc
            subst hc
            exact ⟨⟨_, .charset _ _⟩, by simp [newTok]⟩
          · exact hcov y hy
        · rw [← hall]
          simp only [List.cons_append, covered_cons, List.append_nil]
    | normal st hcov =>
      obtain ⟨x, s, hz⟩ : ∃ z s, st ++ [(b, [b])] = z :: s := by
        cases st with
        | nil => exact ⟨_, _, rfl⟩
        | cons z st => exact ⟨_, _, rfl⟩
      have hlook := lookahead (b := b) (e := e) (t := t) (us := us) (mid := mid) (c := covered st) (by rw [← covered_bottom b st]; exact hall)
      cases hpr : prec x.1.type t.type with
      | gt =>
        refine reduce_sound tr hb he hterm hbal ih p p' st t us x s hz hcov hpr hall ?_
        rw [hz] at h ⊢
        rw [List.map_cons, loop_reduce tr k p _ _ t us hpr] at h
        exact h
      | err =>
        rw [hz, List.map_cons] at h
        cases us <;> simp only [loop, parseLoop, hpr] at h <;> cases h
      | lt =>
        rcases hlook with ⟨_, rfl, _⟩ | ⟨h1, v, _, h2⟩
        · rw [he] at hpr; exact absurd hpr prec_end.1
        · obtain ⟨u, us', hu⟩ : ∃ u us', us = u :: us' := by
            cases v with
            | nil => exact ⟨_, _, h2⟩
            | cons u v => exact ⟨_, _, h2⟩
          subst hu
          rw [hz, List.map_cons, loop_shift tr k p _ _ t u us' (.inl hpr)] at h
          refine ih p ((t, [t]) :: st ++ [(b, [b])]) u us' p' ?_ (.normal ((t, [t]) :: st) ?_) ?_
          · rw [List.cons_append, hz]; exact h
          · intro y hy
            rcases List.mem_cons.1 hy with rfl | hy
            · exact ⟨(hterm t h1).cov, (hterm t h1).not_end.2⟩
            · exact hcov y hy
          · rw [← hall, List.cons_append, covered_cons]; simp
      | eq =>
        rcases hlook with ⟨_, rfl, _⟩ | ⟨h1, v, _, h2⟩
        · rw [he] at hpr; exact absurd hpr prec_end.2
        · obtain ⟨u, us', hu⟩ : ∃ u us', us = u :: us' := by
            cases v with
            | nil => exact ⟨_, _, h2⟩
            | cons u v => exact ⟨_, _, h2⟩
          subst hu
          rw [hz, List.map_cons, loop_shift tr k p _ _ t u us' (.inr hpr)] at h
          refine ih p ((t, [t]) :: st ++ [(b, [b])]) u us' p' ?_ (.normal ((t, [t]) :: st) ?_) ?_
          · rw [List.cons_append, hz]; exact h
          · intro y hy
            rcases List.mem_cons.1 hy with rfl | hy
            · exact ⟨(hterm t h1).cov, (hterm t h1).not_end.2⟩
            · exact hcov y hy
          · rw [← hall, List.cons_append, covered_cons]; simp

end

end PState
end Lexertl
