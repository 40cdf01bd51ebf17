import Verif.Proofs.CalcUnique

/-
C66: the calculator of examples/calc.
-/
namespace Lexertl.Props
open Spec Spec.Calc Calc

theorem calc_all (p : Re → Bool) (h : (Calc.xss.all fun xs => xs.all fun x => x.2.all p) = true) :
    ∀ xs ∈ Calc.xss, ∀ x ∈ xs, ROpt (fun r => p r = true) x.2 := by
  intro xs hxs x hx
  have := List.all_eq_true.1 (List.all_eq_true.1 h xs hxs) x hx
  cases hx2 : x.2 with
  | none => trivial
  | some r => rw [hx2] at this; exact this

/-- The outcome of the program is that of its loop on the tokens of the text. -/
theorem calc_main (addr : Nat → Nat) {inp : List Nat} (hinp : ∀ c ∈ inp, c < 256) (o : M Int) :
    Main Ex.env Ex.tr addr inp o ↔ o = (exec (scan (inp.length + 1) inp) 0 [] ⟨[], []⟩).bind finish := by
  obtain ⟨⟨obj, ho⟩, hlex⟩ := C61_program_lexes Ex.envOk Ex.charsOk (tr := Ex.tr) (by decide) (by decide) Calc.program
    (calc_all _ rfl) (calc_all _ rfl) (fun h => by cases h) (by decide)
  obtain ⟨h1, h2⟩ := Calc.rules_eq ho
  have hb : ∃ sm, buildTemp Ex.tr addr obj.rules = .ok sm := by
    rw [C13_address_independent Ex.tr addr (fun i => i), h2]
    have := Calc.machine
    cases h : buildTemp Ex.tr (fun i => i) (Ex.runs Calc.calls Ex.obj0).rules with
    | ok sm => exact ⟨sm, rfl⟩
    | error e => rw [h] at this; cases this
  obtain ⟨sm, h3⟩ := hb
  have hloop := loop_scan (sm := sm) hinp (fun r h4 h5 h6 h7 out =>
    (hlex obj ho).2 addr sm h3 Calc.flags (.inl rfl) inp hinp r h4 h5 h6 h7 out) (inp.length + 1) (.mk' 65535 0 inp.length) ⟨[], []⟩
    (by simp [Results.mk']) (Nat.zero_le _) rfl ⟨.nil, Nat.zero_le _, by simp [Results.mk']⟩
  constructor
  · rintro ⟨obj', sm', g1, g2, x, g3, rfl⟩
    rw [h1] at g1
    cases g1
    rw [h3] at g2
    cases g2
    rw [loop_unique g3 hloop]
    rfl
  · rintro rfl
    exact ⟨obj, sm, h1, h3, _, hloop, rfl⟩

/-- C66: for every text of bytes the calculator ends, with one outcome: a value, and then the
text is an expression; an exception, and then it is not; or an operation on `int`s (or the
conversion of a number) is undefined.  No other undefined behaviour occurs: the stacks are
never empty when something is taken from them; and the exception "internal error" is never
thrown. -/
theorem C66_calc_accepts (addr : Nat → Nat) {inp : List Nat} (hinp : ∀ c ∈ inp, c < 256) :
    ∃ o, (∀ o', Main Ex.env Ex.tr addr inp o' ↔ o' = o) ∧
      (o = .error (.ub "int arithmetic") ∨
       ((∃ v, o = .ok v) ∧ ∃ e, IsExpr inp e) ∨
       ((o = .error (.throw "Syntax error") ∨ o = .error (.throw "Unterminated expression!")) ∧ ¬ ∃ e, IsExpr inp e)) := by
  refine ⟨_, calc_main addr hinp, ?_⟩
  have hexpr : (∃ e : Expr, e.Level 3 ∧ scan (inp.length + 1) inp = e.tokens.map some) ↔ ∃ e, IsExpr inp e :=
    ⟨fun ⟨e, h, h'⟩ => ⟨e, h, spells_scan _ _ _ (Nat.lt_succ_self _) h'⟩,
      fun ⟨e, h, h'⟩ => ⟨e, h, scan_spells h' _ (Nat.lt_succ_self _)⟩⟩
  rw [← hexpr]
  exact outcome _ (scan_valid _ _)

/-- C66, partial: the calculator computes the value of an expression that is easy for it: see
`Expr.Easy`.  Missing: other expressions, for which it can be wrong (`C66_wrong_values`). -/
theorem C66_calc_value_partial (addr : Nat → Nat) {inp : List Nat} (hinp : ∀ c ∈ inp, c < 256) {e : Expr} {v : Int} (h : IsExpr inp e)
    (he : e.Easy .whole) (hv : e.value = some v) (o : M Int) : Main Ex.env Ex.tr addr inp o ↔ o = .ok v := by
  rw [calc_main addr hinp, scan_spells h.2 _ (Nat.lt_succ_self _), exec_value h.1 he hv]

/-- C66: a text is written by at most one expression, so that its value is determined. -/
theorem C66_one_reading {w : List Nat} {e e' : Expr} (h : IsExpr w e) (h' : IsExpr w e') : e = e' :=
  tokens_inj e e' 3 h.1 h'.1 (spells_inj h.2 h'.2)

/-! ### Expressions and values -/

namespace Ex

/-- A digit. -/
abbrev dig (n : Nat) : Expr := .num [48 + n]

theorem spells_of_scan {w : List Nat} {ts : List Tk} (h : scan (w.length + 1) w = ts.map some) : Spells w ts :=
  spells_scan _ _ _ (Nat.lt_succ_self _) h

end Ex

/-- C66: the calculator is wrong for `1-2*3-4` (-1 instead of -9): a `-` or `+` applies only
the last of the operators before it; for `2*-3+4` (2 instead of -2); for `-2*3+4` (-10
instead of -2); and for `8 / -4 / 2` (-4 instead of -1): a sign is applied after the operator that
follows its operand. -/
theorem C66_wrong_values (addr : Nat → Nat) : ∀ x ∈ [
      (chars "1-2*3-4", Expr.bin 45 (.bin 45 (Ex.dig 1) (.bin 42 (Ex.dig 2) (Ex.dig 3))) (Ex.dig 4), (-9 : Int), (-1 : Int)),
      (chars "2*-3+4", .bin 43 (.bin 42 (Ex.dig 2) (.neg (Ex.dig 3))) (Ex.dig 4), -2, 2),
      (chars "-2*3+4", .bin 43 (.bin 42 (.neg (Ex.dig 2)) (Ex.dig 3)) (Ex.dig 4), -2, -10),
      (chars "8/-4/2", .bin 47 (.bin 47 (Ex.dig 8) (.neg (Ex.dig 4))) (Ex.dig 2), -1, -4)],
    IsExpr x.1 x.2.1 ∧ x.2.1.value = some x.2.2.1 ∧ ∀ o, Main Ex.env Ex.tr addr x.1 o ↔ o = .ok x.2.2.2 := by
  have key : ∀ (w : List Nat) (e : Expr) (v v' : Int), (∀ c ∈ w, c < 256) → e.Level 3 → scan (w.length + 1) w = e.tokens.map some →
      e.value = some v → (exec (scan (w.length + 1) w) 0 [] ⟨[], []⟩).bind finish = .ok v' →
      IsExpr w e ∧ e.value = some v ∧ ∀ o, Main Ex.env Ex.tr addr w o ↔ o = .ok v' := by
    intro w e v v' h1 h2 h3 h4 h5
    refine ⟨⟨h2, Ex.spells_of_scan h3⟩, h4, fun o => ?_⟩
    rw [calc_main addr h1, h5]
  intro x hx
  simp only [List.mem_cons, List.not_mem_nil, or_false] at hx
  rcases hx with rfl | rfl | rfl | rfl <;>
    exact key _ _ _ _ (by decide) (by simp [Expr.Level, IsDec]) (by decide) (by decide) (by rfl)

/-- `C66_calc_value_partial` applies to ` 2*(3+-4*5)-17 ` with spaces: the value is -51. -/
example (addr : Nat → Nat) (o : M Int) : Main Ex.env Ex.tr addr (chars " 2*( 3+-4*5) -17") o ↔ o = .ok (-51) :=
  C66_calc_value_partial addr (by decide)
    (e := .bin 45 (.bin 42 (Ex.dig 2) (.paren (.bin 43 (Ex.dig 3) (.bin 42 (.neg (Ex.dig 4)) (Ex.dig 5))))) (.num [49, 55]))
    ⟨by simp [Expr.Level, IsDec], Ex.spells_of_scan (by decide)⟩ (by simp [Expr.Easy]) (by decide) o

/-- `1+` is not an expression, and `2147483648` is not an `int`. -/
example (addr : Nat → Nat) : Main Ex.env Ex.tr addr (chars "1+") (.error (.throw "Unterminated expression!")) ∧
    Main Ex.env Ex.tr addr (chars "1)") (.error (.throw "Syntax error")) ∧
    Main Ex.env Ex.tr addr (chars "2147483648") (.error (.ub "int arithmetic")) :=
  ⟨(calc_main addr (by decide) _).2 rfl, (calc_main addr (by decide) _).2 rfl, (calc_main addr (by decide) _).2 rfl⟩

end Lexertl.Props
