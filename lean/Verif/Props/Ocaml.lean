import Verif.Proofs.OcamlSteps
import Verif.Proofs.OcamlBuild
import Verif.Props.StateTexts
import Verif.Props.BuildAny

/-
C69: the lexer for OCaml of examples/ocaml.
-/
namespace Lexertl.Props
open Spec Spec.Ocaml Ocaml

theorem ocaml_all (p : Re → Bool) (h : (Ocaml.xss.all fun xs => xs.all fun x => x.2.all p) = true) :
    ∀ xs ∈ Ocaml.xss, ∀ x ∈ xs, ROpt (fun r => p r = true) x.2 := by
  intro xs hxs x hx
  have := List.all_eq_true.1 (List.all_eq_true.1 h xs hxs) x hx
  cases hx2 : x.2 with
  | none => trivial
  | some r => rw [hx2] at this; exact this

/-- The generator returns a machine for the rules of the program. -/
theorem ocaml_machine (addr : Nat → Nat) : ∃ sm, buildTemp Ex.tr addr (Ex.runs Ocaml.calls Ex.obj0).rules = .ok sm := by
  obtain ⟨o, yss, h1, h2⟩ := InStates.program_run Ex.envOk Ex.charsOk (by decide) Ocaml.program
  have hA := InStates.program_anyRules (tr := Ex.tr) (by decide) h2 (ocaml_all _ rfl) (fun xs hxs => .inl (ocaml_all _ rfl xs hxs))
    (fun h => by cases h) (by decide)
  rw [← (Ocaml.rules_eq h1).2]
  have ht := Ocaml.temp_any
  rw [← (Ocaml.rules_eq h1).2] at ht
  rw [C13_address_independent Ex.tr addr id]
  rcases ht with h | ⟨m, h⟩ | h
  · exact h
  all_goals
    rcases C13_build_defined_partial (by decide) hA id with ⟨sm, h'⟩ | ⟨m', h'⟩
    · exact ⟨sm, h'⟩
    · rw [h] at h'
      cases h'

/-- C69: for every text of bytes the lexer of the OCaml example ends, with one output, without
exception and without undefined behaviour; and what it prints is what `Prints` says: comments, also
nested ones, are one token each; other tokens are the longest possible.  (Its kinds of tokens
are not those of OCaml: missing is that literals are tokens of their kinds, `C69_literals_wrong`.) -/
theorem C69_ocaml_prints_partial (addr : Nat → Nat) {inp : List Nat} (hinp : ∀ c ∈ inp, c < 256) :
    ∃ ls, (∀ o, Main Ex.env Ex.tr addr inp o ↔ o = .ok ls) ∧ ∀ ls', Prints inp ls' ↔ ls' = ls := by
  obtain ⟨⟨obj, ho⟩, hlex⟩ := C61_program_lexes Ex.envOk Ex.charsOk (tr := Ex.tr) (by decide) (by decide) Ocaml.program
    (ocaml_all _ rfl) (ocaml_all _ rfl) (fun h => by cases h) (by decide)
  obtain ⟨h1, h2⟩ := Ocaml.rules_eq ho
  obtain ⟨sm, h3⟩ := ocaml_machine addr
  rw [← h2] at h3
  have hL := fun (r : Results) h4 h5 h6 h7 out => (hlex obj ho).2 addr sm h3 Calc.flags (.inl rfl) inp hinp r h4 h5 h6 h7 out
  obtain ⟨ls, h4, h5⟩ := goes (sm := sm) hinp hL inp.length inp { Results.mk' 65535 0 inp.length with first := 0 } 0 (Nat.le_refl _) rfl (Nat.zero_le _) rfl
    rfl rfl rfl rfl
  have hrun : Run 65535 1 sm inp (.mk' 65535 0 inp.length) (.ok ls) :=
    run_goes (hL _ (show 0 < 2 by decide) (by simp [Results.mk']) (Nat.zero_le _) (Nat.le_refl _)) h5
  refine ⟨ls, fun o => ⟨?_, ?_⟩, fun ls' => ⟨fun h => prints_unique h h4 rfl, fun h => h ▸ h4⟩⟩
  · rintro ⟨obj', sm', g1, g2, g3⟩
    rw [h1] at g1
    cases g1
    rw [h3] at g2
    cases g2
    exact run_unique g3 hrun
  · rintro rfl
    exact ⟨obj, sm, h1, h3, hrun⟩

/-- C69: no character other than blanks is lost: the printed texts, one after the other, are the input, up
to blanks. -/
theorem C69_nothing_lost (addr : Nat → Nat) {inp : List Nat} (hinp : ∀ c ∈ inp, c < 256) {ls : List Line}
    (h : Main Ex.env Ex.tr addr inp (.ok ls)) :
    (ls.flatMap (·.2)).filter (fun c => !decide (c ∈ [32, 9, 10])) = inp.filter (fun c => !decide (c ∈ [32, 9, 10])) := by
  obtain ⟨ls', h1, h2⟩ := C69_ocaml_prints_partial addr hinp
  cases (h1 _).1 h
  have h3 := (h2 _).2 rfl
  clear h h1 h2 hinp
  induction h3 with
  | eof => rfl
  | blank c w ls hc _ ih => rw [ih, List.filter_cons_of_neg (by simp [hc])]
  | comment v w ls _ _ ih => simp only [List.flatMap_cons, List.filter_append, ih, ← List.cons_append]
  | unclosed u _ => simp
  | token j k v w ls _ _ _ ih => simp only [List.flatMap_cons, List.filter_append, ih]
  | unknown c w ls _ _ _ _ ih =>
    rw [List.flatMap_cons, List.filter_append, ih, ← List.filter_append]
    rfl

/-- What is printed as a token of a kind is of that kind. -/
theorem ocaml_kind {u : List Nat} {ls : List (List Nat × List Nat)} (h : Prints u ls) :
    ∀ l ∈ ls, (∃ k ∈ Spec.Ocaml.kinds, l.1 = k.1 ∧ k.2 l.2) ∨ l.1 = chars "EOF" ∨ l.1 = chars "Comment" ∨ l.1 = chars "Unknown token" := by
  induction h with
  | eof => simp
  | blank c w ls _ _ ih => exact ih
  | comment v w ls _ _ ih =>
    intro l hl
    rcases List.mem_cons.1 hl with rfl | hl
    · exact .inr (.inr (.inl rfl))
    · exact ih l hl
  | unclosed u _ => simp
  | token j k v w ls ht hk _ ih =>
    intro l hl
    rcases List.mem_cons.1 hl with rfl | hl
    · obtain ⟨P, h1, h2⟩ := ht.hit
      rw [List.getElem?_map, hk] at h1
      cases h1
      exact .inl ⟨k, List.mem_of_getElem? hk, rfl, h2⟩
    · exact ih l hl
  | unknown c w ls _ _ _ _ ih =>
    intro l hl
    rcases List.mem_cons.1 hl with rfl | hl
    · exact .inr (.inr (.inr rfl))
    · exact ih l hl

/-- C69 is false of literals.  The only text ever printed as a string is `([^"]|{ESCAPE_SEQUENCE})*`
itself; the only texts printed as characters are a quote with one character, or an escape without its
backslash before a quote; the sum `1+2` is printed as an integer; and a comment that is not closed is
printed as the end of the input. -/
theorem C69_literals_wrong (addr : Nat → Nat) :
    (∀ (inp : List Nat) (ls : List Line), (∀ c ∈ inp, c < 256) → Main Ex.env Ex.tr addr inp (.ok ls) →
      (∀ v, (chars "String", v) ∈ ls → v = chars "([^\"]|{ESCAPE_SEQUENCE})*") ∧
      (∀ v, (chars "Char", v) ∈ ls → (∃ c, v = [39, c]) ∨ ∃ e, v = e ++ [39] ∧ Escape e)) ∧
    Main Ex.env Ex.tr addr (chars "1+2") (.ok [(chars "Integer", chars "1+2"), (chars "EOF", [])]) ∧
    Main Ex.env Ex.tr addr (chars "(* a") (.ok [(chars "EOF", chars "(* a")]) := by
  refine ⟨fun inp ls hinp h => ?_, ?_, ?_⟩
  · obtain ⟨ls', h1, h2⟩ := C69_ocaml_prints_partial addr hinp
    cases (h1 _).1 h
    have hk := ocaml_kind ((h2 _).2 rfl)
    refine ⟨fun v hv => ?_, fun v hv => ?_⟩
    · rcases hk _ hv with ⟨k, h3, h4, h5⟩ | h | h | h
      · simp only [Spec.Ocaml.kinds, List.mem_cons, List.not_mem_nil, or_false] at h3
        rcases h3 with rfl | rfl | rfl | rfl | rfl | rfl | rfl | rfl | rfl
        case inr.inr.inr.inr.inl => exact h5
        all_goals exact absurd h4 (by dsimp only; decide)
      all_goals exact absurd h (by dsimp only; decide)
    · rcases hk _ hv with ⟨k, h3, h4, h5⟩ | h | h | h
      · simp only [Spec.Ocaml.kinds, List.mem_cons, List.not_mem_nil, or_false] at h3
        rcases h3 with rfl | rfl | rfl | rfl | rfl | rfl | rfl | rfl | rfl
        case inr.inr.inr.inl =>
          rcases h5 with ⟨c, h6, -⟩ | h6
          · exact .inl ⟨c, h6⟩
          · exact .inr h6
        all_goals exact absurd h4 (by dsimp only; decide)
      all_goals exact absurd h (by dsimp only; decide)
  · obtain ⟨ls', h1, h2⟩ := C69_ocaml_prints_partial addr (inp := chars "1+2") (by decide)
    rw [h1, ← (h2 [(chars "Integer", chars "1+2"), (chars "EOF", [])]).1]
    refine Prints.token 1 (chars "Integer", Integer) (chars "1+2") [] _ ⟨by decide, ⟨_, rfl, [], chars "1+2", rfl, .inl rfl, .inl ⟨49, [43, 50], rfl, ?_, ?_⟩⟩,
      ?_, ?_⟩ rfl .eof
    · simp [Digit]
    · simp [Digit]
    · intro i P hi hP
      obtain rfl : i = 0 := by omega
      cases hP
      rintro ⟨c, w, h3, h4, -⟩
      have h5 : c = 49 := (List.cons.inj h3).1.symm
      subst h5
      revert h4
      simp [Letter]
    · intro P _ v' w' h3 _
      have := congrArg List.length h3
      simp only [List.length_append, List.length_nil] at this
      omega
  · obtain ⟨ls', h1, h2⟩ := C69_ocaml_prints_partial addr (inp := chars "(* a") (by decide)
    rw [h1, ← (h2 [(chars "EOF", chars "(* a")]).1]
    refine Prints.unclosed (chars " a") fun v w h3 h4 => ?_
    have h5 : ∀ (n : Nat) (v : List Nat), Inner n v → 41 ∈ v := by
      intro n v h
      induction h with
      | done => decide
      | opn n v _ ih => simp [ih]
      | cls n v _ ih => simp
      | other n c v _ _ _ ih => simp [ih]
    have := h5 1 v h4
    have : 41 ∈ chars " a" := h3 ▸ List.mem_append_left _ this
    exact absurd this (by decide)

/-- A nested comment is one token: `(* (* *) *)`. -/
example (addr : Nat → Nat) : Main Ex.env Ex.tr addr (chars "(*(**)*)") (.ok [(chars "Comment", chars "(*(**)*)"), (chars "EOF", [])]) := by
  obtain ⟨ls', h1, h2⟩ := C69_ocaml_prints_partial addr (inp := chars "(*(**)*)") (by decide)
  rw [h1, ← (h2 [(chars "Comment", chars "(*(**)*)"), (chars "EOF", [])]).1]
  exact Prints.comment (chars "(**)*)") [] _ (.opn 1 _ (.cls 0 _ .done)) .eof

/-- `C69_nothing_lost` for that text. -/
example (addr : Nat → Nat) : ∃ ls, Main Ex.env Ex.tr addr (chars "a (* b *)") (.ok ls) := by
  obtain ⟨ls, h1, -⟩ := C69_ocaml_prints_partial addr (inp := chars "a (* b *)") (by decide)
  exact ⟨ls, (h1 _).2 rfl⟩

end Lexertl.Props
