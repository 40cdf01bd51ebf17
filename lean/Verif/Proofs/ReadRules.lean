import Verif.Spec.Lexer
import Verif.Spec.Build

/-
Rules with a meaning are rules as the tokeniser hands them on.
-/
namespace Lexertl.FromDen
open Spec

/-- Parentheses match. -/
def Bal (ts : List Tok) : Prop :=
  NoSurplusClose ts ∧ ts.countP (·.type == .closeparen) = ts.countP (·.type == .openparen)

theorem Bal.append {a b : List Tok} (ha : Bal a) (hb : Bal b) : Bal (a ++ b) := by
  refine ⟨fun u v h => ?_, by simp only [List.countP_append, ha.2, hb.2]⟩
  rcases List.append_eq_append_iff.1 h with ⟨w, rfl, h2⟩ | ⟨w, h1, rfl⟩
  · have := hb.1 w v h2
    have := ha.2
    simp only [List.countP_append]
    omega
  · exact ha.1 u w h1

theorem Bal.single {t : Tok} (h1 : t.type ≠ .closeparen) (h2 : t.type ≠ .openparen) : Bal [t] := by
  refine ⟨fun u v h => ?_, by simp [h1, h2]⟩
  have : u.countP (·.type == .closeparen) = 0 := by
    rw [List.countP_eq_zero]
    intro a ha
    have : a ∈ [t] := by rw [h]; exact List.mem_append_left _ ha
    simp only [List.mem_singleton] at this
    subst this
    simpa using h1
  omega

theorem Bal.paren {o c : Tok} {ts : List Tok} (ho : o.type = .openparen) (hc : c.type = .closeparen) (h : Bal ts) :
    Bal (o :: ts ++ [c]) := by
  have e1 : [o].countP (·.type == .closeparen) = 0 := by simp [ho]
  have e2 : [o].countP (·.type == .openparen) = 1 := by simp [ho]
  have e3 : [c].countP (·.type == .closeparen) = 1 := by simp [hc]
  have e4 : [c].countP (·.type == .openparen) = 0 := by simp [hc]
  have hcount := h.2
  refine ⟨fun u v huv => ?_, ?_⟩
  · cases u with
    | nil => simp
    | cons x u =>
      simp only [List.cons_append, List.cons.injEq] at huv
      obtain ⟨rfl, huv⟩ := huv
      rw [← List.singleton_append (l := u)]
      simp only [List.countP_append, e1, e2]
      rcases List.append_eq_append_iff.1 huv with ⟨w, rfl, h2⟩ | ⟨w, h1, h2⟩
      · have : w.countP (·.type == .closeparen) ≤ 1 := by
          have := congrArg (List.countP (·.type == .closeparen)) h2
          rw [e3, List.countP_append] at this
          omega
        simp only [List.countP_append]
        omega
      · have := h.1 u w h1
        omega
  · rw [← List.singleton_append (l := ts)]
    simp only [List.countP_append, e1, e2, e3, e4]
    omega

theorem postfix_type {d : Tok} {r q : Re} (h : Postfix d r q) : d.type ≠ .closeparen ∧ d.type ≠ .openparen ∧ d.type ≠ .charset ∧
    d.type ≠ .eol := by
  cases h <;> simp

/-- The tokens that derive an expression: parentheses match, and the charsets are those of the expression. -/
theorem derives_tokens (tr : Traits) {P : List (Nat × Nat) → Prop} {l : Level} {ts : List Tok} {r : Re} (h : Derives l ts r) :
    (∀ t ∈ ts, Terminal t) ∧ Bal ts ∧
    (r.AllChars P → ∀ t ∈ ts, t.type = .charset → P t.str) ∧
    (r.noEol = true → (ts.map (charsetsOf tr)).sum = r.slots tr) := by
  induction h with
  | charset e s =>
    refine ⟨by simp [Terminal], Bal.single (by simp) (by simp), ?_, ?_⟩
    · simp [Re.AllChars]
    · simp [charsetsOf, Re.slots]
  | bol e s =>
    refine ⟨by simp [Terminal], Bal.single (by simp) (by simp), ?_, ?_⟩
    · simp
    · simp [charsetsOf, Re.slots]
  | eol e s =>
    refine ⟨by simp [Terminal], Bal.single (by simp) (by simp), ?_, ?_⟩
    · simp
    · simp [Re.noEol]
  | paren o c ts r ho hc _ ih =>
    obtain ⟨i1, i2, i3, i4⟩ := ih
    refine ⟨?_, i2.paren ho hc, ?_, ?_⟩
    · intro t ht
      simp only [List.cons_append, List.mem_cons, List.mem_append, List.not_mem_nil, or_false] at ht
      rcases ht with rfl | ht | rfl
      · simp [Terminal, ho]
      · exact i1 t ht
      · simp [Terminal, hc]
    · intro hr t ht hty
      simp only [List.cons_append, List.mem_cons, List.mem_append, List.not_mem_nil, or_false] at ht
      rcases ht with rfl | ht | rfl
      · rw [ho] at hty; cases hty
      · exact i3 hr t ht hty
      · rw [hc] at hty; cases hty
    · intro hr
      have := i4 hr
      simp [charsetsOf, ho, hc, List.sum_append] at this ⊢
      exact this
  | item ts r _ ih => exact ih
  | seq1 ts r _ ih => exact ih
  | alt1 ts r _ ih => exact ih
  | postfix_ ts r d q _ hp ih =>
    obtain ⟨i1, i2, i3, i4⟩ := ih
    obtain ⟨p1, p2, p3, p4⟩ := postfix_type hp
    refine ⟨?_, i2.append (Bal.single p1 p2), ?_, ?_⟩
    · intro t ht
      simp only [List.mem_append, List.mem_singleton] at ht
      rcases ht with ht | rfl
      · exact i1 t ht
      · exact .inr (.inr (.inr (.inr (.inr (.inr ⟨_, _, hp⟩)))))
    · intro hr t ht hty
      simp only [List.mem_append, List.mem_singleton] at ht
      rcases ht with ht | rfl
      · exact i3 (by cases hp <;> exact hr) t ht hty
      · exact absurd hty p3
    · intro hr
      have e : charsetsOf tr d = 0 := by
        cases hp <;> rfl
      have := i4 (by cases hp <;> exact hr)
      have e2 : q.slots tr = r.slots tr := by cases hp <;> rfl
      simp only [List.map_append, List.sum_append, List.map_cons, List.map_nil, List.sum_cons, List.sum_nil, e, e2, this]
      omega
  | seq ts us l r _ _ ih1 ih2 =>
    obtain ⟨i1, i2, i3, i4⟩ := ih1
    obtain ⟨j1, j2, j3, j4⟩ := ih2
    refine ⟨?_, i2.append j2, ?_, ?_⟩
    · intro t ht
      rcases List.mem_append.1 ht with ht | ht
      · exact i1 t ht
      · exact j1 t ht
    · intro hr t ht hty
      rcases List.mem_append.1 ht with ht | ht
      · exact i3 hr.1 t ht hty
      · exact j3 hr.2 t ht hty
    · intro hr
      simp only [Re.noEol, Bool.and_eq_true] at hr
      simp only [List.map_append, List.sum_append, i4 hr.1, j4 hr.2, Re.slots]
  | alt ts us o l r ho _ _ ih1 ih2 =>
    obtain ⟨i1, i2, i3, i4⟩ := ih1
    obtain ⟨j1, j2, j3, j4⟩ := ih2
    refine ⟨?_, i2.append ((Bal.single (by simp [ho]) (by simp [ho])).append j2), ?_, ?_⟩
    · intro t ht
      simp only [List.mem_append, List.mem_cons] at ht
      rcases ht with ht | rfl | ht
      · exact i1 t ht
      · simp [Terminal, ho]
      · exact j1 t ht
    · intro hr t ht hty
      simp only [List.mem_append, List.mem_cons] at ht
      rcases ht with ht | rfl | ht
      · exact i3 hr.1 t ht hty
      · rw [ho] at hty; cases hty
      · exact j3 hr.2 t ht hty
    · intro hr
      simp only [Re.noEol, Bool.and_eq_true] at hr
      have e : charsetsOf tr o = 0 := by simp [charsetsOf, ho]
      simp only [List.map_append, List.sum_append, List.map_cons, List.sum_cons, e, i4 hr.1, j4 hr.2, Re.slots]
      omega

theorem denotes_tokens (tr : Traits) {ts : List Tok} {e : Option Re} (h : Denotes ts e) :
    FromTokeniser ts ∧
    (CharSets tr e → ∀ t ∈ ts, t.type = .charset → Normal t.str ∧ t.str ≠ [] ∧ Within (charsOf tr - 1) t.str) ∧
    (NoEol e → (ts.map (charsetsOf tr)).sum = setsOf tr e) := by
  cases h with
  | empty b e hb he =>
    refine ⟨⟨b, e, [], rfl, hb, he, by simp, by intro u v h; simp at h; simp [h.1]⟩, ?_, ?_⟩
    · intro _ t ht hty
      simp only [List.mem_cons, List.not_mem_nil, or_false] at ht
      rcases ht with rfl | rfl
      · rw [hb] at hty; cases hty
      · rw [he] at hty; cases hty
    · simp [charsetsOf, hb, he, setsOf]
  | re b e ts r hb he hd =>
    obtain ⟨i1, i2, i3, i4⟩ := derives_tokens tr (P := fun t => Normal t ∧ t ≠ [] ∧ Within (charsOf tr - 1) t ∧
      (tr.compressed = true → tr.char24 = true → ∀ x ∈ t, FewPlanes x)) hd
    refine ⟨⟨b, e, ts, rfl, hb, he, i1, i2.1⟩, ?_, ?_⟩
    · intro hr t ht hty
      simp only [List.cons_append, List.mem_cons, List.mem_append, List.not_mem_nil, or_false] at ht
      rcases ht with rfl | ht | rfl
      · rw [hb] at hty; cases hty
      · obtain ⟨h1, h2, h3, _⟩ := i3 hr t ht hty
        exact ⟨h1, h2, h3⟩
      · rw [he] at hty; cases hty
    · intro hr
      have := i4 hr
      simp [charsetsOf, hb, he, List.sum_append, setsOf] at this ⊢
      exact this

/-- Rules with a meaning, without `$`. -/
theorem _root_.Lexertl.Spec.RuleSet.readRules {tr : Traits} {R : Rules} {xss : List (List SRule)} (h : RuleSet tr R xss) :
    ReadRules tr R := by
  have get : ∀ rs ∈ R.states, ∃ xs ∈ xss, rs = xs.map (·.1) := by
    intro rs hrs
    rw [h.states] at hrs
    obtain ⟨xs, h1, h2⟩ := List.mem_map.1 hrs
    exact ⟨xs, h1, h2.symm⟩
  refine ⟨?_, ?_, ?_⟩
  · intro rs hrs r hr
    obtain ⟨xs, h1, rfl⟩ := get rs hrs
    obtain ⟨x, h2, rfl⟩ := List.mem_map.1 hr
    exact (denotes_tokens tr (h.den xs h1 x h2)).1
  · intro rs hrs r hr
    obtain ⟨xs, h1, rfl⟩ := get rs hrs
    obtain ⟨x, h2, rfl⟩ := List.mem_map.1 hr
    exact (denotes_tokens tr (h.den xs h1 x h2)).2.1 (h.sets xs h1 x h2)
  · intro rs hrs
    obtain ⟨xs, h1, rfl⟩ := get rs hrs
    have := h.count xs h1
    simp only [List.map_map, Function.comp_def]
    rw [List.map_congr_left (fun x hx => (denotes_tokens tr (h.den xs h1 x hx)).2.2 (h.noEol xs h1 x hx))]
    exact this

end Lexertl.FromDen
