import Verif.Proofs.JsonGrammar
import Verif.Proofs.JsonBuild
import Verif.Props.StateTexts
import Verif.Props.BuildAny

namespace Lexertl.Props
open Spec Json Spec.Json

theorem json_all (p : Re → Bool) (h : (Json.xss.all fun xs => xs.all fun x => x.2.all p) = true) :
    ∀ xs ∈ Json.xss, ∀ x ∈ xs, ROpt (fun r => p r = true) x.2 := by
  intro xs hxs x hx
  have := List.all_eq_true.1 (List.all_eq_true.1 h xs hxs) x hx
  cases hx2 : x.2 with
  | none => trivial
  | some r => rw [hx2] at this; exact this

theorem json_planes : ∀ xs ∈ Json.xss, ∀ x ∈ xs, ROpt (fun r => r.AllChars fun t => ∀ y ∈ t, FewPlanes y) x.2 := by
  intro xs hxs x hx
  obtain ⟨es, _, rfl⟩ := List.mem_map.1 hxs
  obtain ⟨e, _, rfl⟩ := List.mem_map.1 hx
  show e.form.re.AllChars _
  cases e.form with
  | ch c => show ∀ y ∈ [(c, c)], FewPlanes y; intro y hy; rw [List.mem_singleton.1 hy]; exact .inl (by simp)
  | _ => simp only [Form.re, strRe, numRe, trueRe, falseRe, nullRe, escRe, intRe, fracRe, expRe, cset, Re.AllChars]; decide

/-- The rules of the program are accepted, and a machine made from them prints, for a text, what
`Steps` says. -/
theorem json_run (addr : Nat → Nat) : ∃ obj, Json.rules Json.E Ex.tr24 = .ok obj ∧ obj = Json.obj ∧ ∀ sm, buildTemp Ex.tr24 addr obj.rules = .ok sm →
    ∀ {inp : List Nat}, (∀ c ∈ inp, c ≤ 0x10ffff) → ∀ {ls n}, Steps 0 [] inp ls n → ∀ o,
      Run 65535 3 sm inp (.mk' 65535 0 inp.length) o ↔ o = .ok (ls, n) := by
  obtain ⟨⟨obj, ho⟩, hlex⟩ := C61_program_lexes Ex.envUniOk Ex.envUniChars (tr := Ex.tr24) (by decide) (by decide) Json.program
    (json_all _ rfl) (json_all _ rfl) (fun _ _ => json_planes) (by decide)
  obtain ⟨h1, h2⟩ := Json.rules_eq ho
  refine ⟨obj, h1, h2, ?_⟩
  intro sm h3 inp hinp ls n hs o
  have hL := fun (r : Results) h4 h5 h6 h7 out =>
    (hlex obj ho).2 addr sm h3 Calc.flags (.inl rfl) inp (fun c hc => Nat.lt_succ_of_le (hinp c hc)) r h4 h5 h6 h7 out
  have hrun : Run 65535 3 sm inp (.mk' 65535 0 inp.length) (.ok (ls, n)) :=
    run_goes (hL _ (show 0 < 10 by decide) (by simp [Results.mk']) (Nat.zero_le _) (Nat.le_refl _))
      (steps_goes hL hs _ 0 (.inl ⟨rfl, by decide⟩) rfl rfl (Nat.zero_le _) rfl rfl rfl)
  exact ⟨fun h => run_unique h hrun, fun h => h ▸ hrun⟩

theorem txt_ids {k : Kind} {w : List Nat} {ts : List Spec.Json.Tok} (h : Txt k w ts) : ts ≠ [] ∧ ∀ t ∈ ts, t.1 ≠ 65535 := by
  induction h with
  | moreElements s v ts x w ts' _ _ _ _ ih ih' =>
    refine ⟨fun h => ih.1 (List.append_eq_nil_iff.1 h).1, fun t ht => ?_⟩
    rcases List.mem_append.1 ht with h | h
    · exact ih.2 t h
    · exact ih'.2 t h
  | _ => grind

/-- The generator returns a machine for the rules of the program. -/
theorem json_machine (addr : Nat → Nat) : ∃ sm, buildTemp Ex.tr24 addr Json.obj.rules = .ok sm := by
  obtain ⟨o, yss, h1, h2⟩ := InStates.program_run Ex.envUniOk Ex.envUniChars (by decide) Json.program
  have hA := InStates.program_anyRules (tr := Ex.tr24) (by decide) h2 (json_all _ rfl) (fun xs hxs => .inl (json_all _ rfl xs hxs))
    (fun _ _ => json_planes) (by decide)
  rw [← (Json.rules_eq h1).2]
  have ht := Json.temp_any
  rw [← (Json.rules_eq h1).2] at ht
  rw [C13_address_independent Ex.tr24 addr id]
  rcases ht with h | ⟨m, h⟩ | h
  · exact h
  all_goals
    rcases C13_build_defined_partial (by decide) hA id with ⟨sm, h'⟩ | ⟨m', h'⟩
    · exact ⟨sm, h'⟩
    · rw [h] at h'
      cases h'

/-- C67: for every text of code points the JSON example ends, with one output, without exception
and without undefined behaviour; and the output tells whether the text is a JSON text (an object
or an array): if and only if it is, the stack is empty in the end, something is printed, and no
line has the id `npos`; and the lines are then the tokens of the text. -/
theorem C67_json_accepts (addr : Nat → Nat) (inp : List Nat) (hinp : ∀ c ∈ inp, c ≤ 0x10ffff) : ∃ ls n,
    (∀ o, Json.Main Json.E Ex.tr24 addr inp o ↔ o = .ok (ls, n)) ∧
    ∀ ts, Document inp ts ↔ n = 0 ∧ ls ≠ [] ∧ (∀ l ∈ ls, l.id ≠ Ex.tr24.npos) ∧ ls.map (fun l => (l.id, l.token)) = ts := by
  obtain ⟨obj, h1, ho, h2⟩ := json_run addr
  obtain ⟨sm, h3⟩ := json_machine addr
  rw [← ho] at h3
  obtain ⟨ls, n, hs⟩ := steps_total inp.length 0 [] inp (Nat.le_refl _) (.inl ⟨rfl, by decide⟩)
  refine ⟨ls, n, fun o => ?_, fun ts => ?_⟩
  · constructor
    · rintro ⟨obj', sm', g1, g2, g3⟩
      rw [h1] at g1
      cases g1
      exact (h2 sm' g2 hinp hs o).1 g3
    · exact fun h => ⟨_, sm, h1, h3, (h2 sm h3 hinp hs o).2 h⟩
  constructor
  · intro hd
    obtain ⟨ls', hs', h⟩ := document_steps hd
    have := ((h2 sm h3 hinp hs) (.ok (ls', 0))).1 ((h2 sm h3 hinp hs' _).2 rfl)
    cases this
    obtain ⟨s, v, t, _, _, _, hv, rfl⟩ := hd
    obtain ⟨g1, g2⟩ := txt_ids hv
    refine ⟨rfl, fun e => g1 (by rw [← h, e]; rfl), fun l hl => ?_, h⟩
    exact g2 (tok l) (by rw [← h]; exact List.mem_map_of_mem hl)
  · rintro ⟨rfl, hne, hl, rfl⟩
    exact steps_document hs hl hne

/-- ` {"a": [1, true]} ` is such a text, with these tokens; so this is what is printed for it. -/
theorem json_example : Document (chars " {\"a\": [1, true]} ")
    [(4, chars "{"), (5, chars "\"a\""), (7, chars "["), (2, chars "1"), (3, chars "true"), (8, chars "]"), (6, chars "}")] := by
  have ws : Ws [32] := by intro c hc; rw [List.mem_singleton.1 hc]; exact .inl rfl
  have num : Txt .value [49] [(2, [49])] :=
    .number _ ⟨[], [49], [], [], rfl, .inl rfl, .inr ⟨49, [], by decide, by decide, by simp [Digits], rfl⟩, .inl rfl, .inl rfl⟩
  have arr : Txt .value (chars "[1, true]") [(7, [91]), (2, [49]), (3, chars "true"), (8, [93])] :=
    .array _ _ (.moreElements [] [49] _ [] _ _ ws_nil num ws_nil (.element [32] _ _ [] ws .true ws_nil))
  have ob : Txt .value (chars "{\"a\": [1, true]}") [(4, [123]), (5, chars "\"a\""), (7, [91]), (2, [49]), (3, chars "true"), (8, [93]), (6, [125])] :=
    .object _ _ (.member [] [97] [] [32] _ _ [] ws_nil (.char 97 [] (by decide) (by decide) (by decide) (by decide) .nil) ws_nil ws arr ws_nil)
  exact ⟨[32], _, [32], ws, ws, .inl rfl, ob, rfl⟩

example (addr : Nat → Nat) : ∃ ls, Json.Main Json.E Ex.tr24 addr (chars " {\"a\": [1, true]} ") (.ok (ls, 0)) ∧
      ls.map (fun l => (l.id, l.token)) =
        [(4, chars "{"), (5, chars "\"a\""), (7, chars "["), (2, chars "1"), (3, chars "true"), (8, chars "]"), (6, chars "}")] := by
  obtain ⟨ls, n, g1, g2⟩ := C67_json_accepts addr (chars " {\"a\": [1, true]} ") (by decide)
  obtain ⟨rfl, _, _, g3⟩ := (g2 _).1 json_example
  exact ⟨ls, (g1 _).2 rfl, g3⟩

/-- `[1,]` is not a JSON text. -/
example : ¬ ∃ ts, Document (chars "[1,]") ts := by
  rintro ⟨ts, h⟩
  obtain ⟨ls, h1, _⟩ := document_steps h
  have num : IsNumber [49] := ⟨[], [49], [], [], rfl, .inl rfl, .inr ⟨49, [], by decide, by decide, by simp [Digits], rfl⟩, .inl rfl, .inl rfl⟩
  have nothing : Nothing (row 9) [93] := by
    intro e he v w hu ht
    obtain ⟨c, x, rfl, hc⟩ := texts_first ht
    simp only [List.cons_append, List.cons.injEq] at hu
    have : ∀ e ∈ row 9, Calc.inSet 93 e.form.first = false := by decide
    rw [← hu.1, this e he] at hc
    cases hc
  have p1 : Path 0 [] (chars "[1,]") 7 [(1, 7)] (chars "1,]") [(7, [91])] := open_arr (.inl ⟨rfl, rfl⟩) [] _
  have p2 : Path 7 [(1, 7)] (chars "1,]") 8 [(1, 7)] (chars ",]") [(2, [49])] :=
    txt_goal (.number _ num) 7 (.inr (.inl rfl)) _ _ (noNum_cons (by unfold NumChar; decide))
  have p3 : Path 8 [(1, 7)] (chars ",]") 9 [(1, 7)] (chars "]") [] :=
    path_skip (e := ⟨.ch 44, 65534, 9, 65535, false⟩) (by decide) rfl (v := [44]) rfl _ trivial
  obtain ⟨ls', h2, _⟩ := ((p1.trans p2).trans p3) _ _ (.none 9 [(1, 7)] 93 [] [] 1 nothing (.eoi 9 [(1, 7)]))
  have := (steps_unique h1 h2 rfl).2
  cases this

end Lexertl.Props
