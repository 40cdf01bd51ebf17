import Verif.Proofs.JsonRules

/-
The JSON example: the rules object.
-/
namespace Lexertl.Json
open Spec Spec.Json Reading Props

/-- The rules object. -/
def obj : RulesObj := calls.foldl (fun o c => (c.run E Ex.tr24 o).1) (RulesObj.new Ex.tr24 {})

theorem done_macro {E : TokEnv} {tr : Traits} {o o' : RulesObj} {n w : List Nat}
    (h : (Call.insertMacro n w).run E tr o = (o', .ok ())) : Calc.done (o.insertMacro E n w) = .ok o' := by
  simp only [Call.run] at h
  rw [h]
  rfl

theorem foldl_allOk {E : TokEnv} {tr : Traits} {cs : List Call} {o o' : RulesObj} (h : AllOk E tr o cs o') :
    cs.foldl (fun o c => (c.run E tr o).1) o = o' := by
  induction h with
  | nil => rfl
  | snoc cs o1 c o2 _ h ih => rw [List.foldl_append, ih, List.foldl_cons, List.foldl_nil, h]

theorem rules_eq {o : RulesObj} (h : AllOk E Ex.tr24 (RulesObj.new Ex.tr24 {}) calls o) : rules E Ex.tr24 = .ok o ∧ o = obj := by
  refine ⟨?_, (foldl_allOk h).symm⟩
  obtain ⟨o33, h, g34⟩ := Wc.allOk_snoc (cs := calls.take 33) h
  obtain ⟨o32, h, g33⟩ := Wc.allOk_snoc (cs := calls.take 32) h
  obtain ⟨o31, h, g32⟩ := Wc.allOk_snoc (cs := calls.take 31) h
  obtain ⟨o30, h, g31⟩ := Wc.allOk_snoc (cs := calls.take 30) h
  obtain ⟨o29, h, g30⟩ := Wc.allOk_snoc (cs := calls.take 29) h
  obtain ⟨o28, h, g29⟩ := Wc.allOk_snoc (cs := calls.take 28) h
  obtain ⟨o27, h, g28⟩ := Wc.allOk_snoc (cs := calls.take 27) h
  obtain ⟨o26, h, g27⟩ := Wc.allOk_snoc (cs := calls.take 26) h
  obtain ⟨o25, h, g26⟩ := Wc.allOk_snoc (cs := calls.take 25) h
  obtain ⟨o24, h, g25⟩ := Wc.allOk_snoc (cs := calls.take 24) h
  obtain ⟨o23, h, g24⟩ := Wc.allOk_snoc (cs := calls.take 23) h
  obtain ⟨o22, h, g23⟩ := Wc.allOk_snoc (cs := calls.take 22) h
  obtain ⟨o21, h, g22⟩ := Wc.allOk_snoc (cs := calls.take 21) h
  obtain ⟨o20, h, g21⟩ := Wc.allOk_snoc (cs := calls.take 20) h
  obtain ⟨o19, h, g20⟩ := Wc.allOk_snoc (cs := calls.take 19) h
  obtain ⟨o18, h, g19⟩ := Wc.allOk_snoc (cs := calls.take 18) h
  obtain ⟨o17, h, g18⟩ := Wc.allOk_snoc (cs := calls.take 17) h
  obtain ⟨o16, h, g17⟩ := Wc.allOk_snoc (cs := calls.take 16) h
  obtain ⟨o15, h, g16⟩ := Wc.allOk_snoc (cs := calls.take 15) h
  obtain ⟨o14, h, g15⟩ := Wc.allOk_snoc (cs := calls.take 14) h
  obtain ⟨o13, h, g14⟩ := Wc.allOk_snoc (cs := calls.take 13) h
  obtain ⟨o12, h, g13⟩ := Wc.allOk_snoc (cs := calls.take 12) h
  obtain ⟨o11, h, g12⟩ := Wc.allOk_snoc (cs := calls.take 11) h
  obtain ⟨o10, h, g11⟩ := Wc.allOk_snoc (cs := calls.take 10) h
  obtain ⟨o9, h, g10⟩ := Wc.allOk_snoc (cs := calls.take 9) h
  obtain ⟨o8, h, g9⟩ := Wc.allOk_snoc (cs := calls.take 8) h
  obtain ⟨o7, h, g8⟩ := Wc.allOk_snoc (cs := calls.take 7) h
  obtain ⟨o6, h, g7⟩ := Wc.allOk_snoc (cs := calls.take 6) h
  obtain ⟨o5, h, g6⟩ := Wc.allOk_snoc (cs := calls.take 5) h
  obtain ⟨o4, h, g5⟩ := Wc.allOk_snoc (cs := calls.take 4) h
  obtain ⟨o3, h, g4⟩ := Wc.allOk_snoc (cs := calls.take 3) h
  obtain ⟨o2, h, g3⟩ := Wc.allOk_snoc (cs := calls.take 2) h
  obtain ⟨o1, h, g2⟩ := Wc.allOk_snoc (cs := calls.take 1) h
  obtain ⟨o0, h, g1⟩ := Wc.allOk_snoc (cs := []) h
  have := allOk_nil h
  subst this
  unfold rules
  rw [show Ex.tr24.npos = 65535 from rfl, show (65535 - 1 : Nat) = 65534 from rfl]
  rw [done_macro g1]; dsimp only [bind, Except.bind]
  rw [done_macro g2]; dsimp only
  rw [done_macro g3]; dsimp only
  rw [done_macro g4]; dsimp only
  rw [Calc.done_state g5]; dsimp only
  rw [Calc.done_state g6]; dsimp only
  rw [Calc.done_state g7]; dsimp only
  rw [Calc.done_state g8]; dsimp only
  rw [Calc.done_state g9]; dsimp only
  rw [Calc.done_state g10]; dsimp only
  rw [Calc.done_state g11]; dsimp only
  rw [Calc.done_state g12]; dsimp only
  rw [Calc.done_state g13]; dsimp only
  rw [Calc.done_named g14]; dsimp only
  rw [Calc.done_named g15]; dsimp only
  rw [Calc.done_named g16]; dsimp only
  rw [Calc.done_named g17]; dsimp only
  rw [Calc.done_named g18]; dsimp only
  rw [Calc.done_named g19]; dsimp only
  rw [Calc.done_named g20]; dsimp only
  rw [Calc.done_named g21]; dsimp only
  rw [Calc.done_named g22]; dsimp only
  rw [Calc.done_named g23]; dsimp only
  rw [Calc.done_named g24]; dsimp only
  rw [Calc.done_named g25]; dsimp only
  rw [Calc.done_named g26]; dsimp only
  rw [Calc.done_named g27]; dsimp only
  rw [Calc.done_named g28]; dsimp only
  rw [Calc.done_named g29]; dsimp only
  rw [Calc.done_named g30]; dsimp only
  rw [Calc.done_named g31]; dsimp only
  rw [Calc.done_named g32]; dsimp only
  rw [Calc.done_named g33]; dsimp only
  exact Calc.done_named g34

end Lexertl.Json
