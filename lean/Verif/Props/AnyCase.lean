import Verif.Props.Classes
import Verif.Props.States
import Verif.Props.StateTexts

/-
C74 for all lexers: several lexer states, the stack, skipped and continued tokens, `^`.
-/
namespace Lexertl.Props
open Spec Reading

namespace Classes

/-- Two inputs that the rules do not tell apart. -/
structure SameFor (xss : List (List SRule)) (inp inp' : List Nat) : Prop where
  len : inp.length = inp'.length
  line : ∀ i : Nat, (inp[i]? == some 10) = (inp'[i]? == some 10)
  plain : ∀ xs ∈ xss, ∀ x ∈ xs, ∀ p k, RMatches x.2 (text inp p k) ↔ RMatches x.2 (text inp' p k)
  caret : ∀ xs ∈ xss, ∀ x ∈ xs, ∀ p k, RMatches x.2 (.bol :: text inp p k) ↔ RMatches x.2 (.bol :: text inp' p k)

theorem SameFor.symm {xss : List (List SRule)} {inp inp' : List Nat} (h : SameFor xss inp inp') : SameFor xss inp' inp :=
  ⟨h.len.symm, fun i => (h.line i).symm, fun xs hxs x hx p k => (h.plain xs hxs x hx p k).symm, fun xs hxs x hx p k => (h.caret xs hxs x hx p k).symm⟩

theorem SameFor.lineMatch {xss : List (List SRule)} {inp inp' : List Nat} (h : SameFor xss inp inp') {xs : List SRule} (hxs : xs ∈ xss) (b : Bool) {e : Option Re}
    (he : e ∈ xs.map (·.2)) (p k : Nat) : LineMatch b e (text inp p k) ↔ LineMatch b e (text inp' p k) := by
  obtain ⟨x, hx, rfl⟩ := List.mem_map.1 he
  unfold LineMatch
  rw [h.plain xs hxs x hx, h.caret xs hxs x hx]

theorem SameFor.best {xss : List (List SRule)} {inp inp' : List Nat} (h : SameFor xss inp inp') {xs : List SRule} (hxs : xs ∈ xss) {b : Bool} {p e k j : Nat}
    (hb : Best (LineMatch b) (xs.map (·.2)) inp p e k j) : Best (LineMatch b) (xs.map (·.2)) inp' p e k j := by
  obtain ⟨d, g1, g2⟩ := hb.hit
  exact ⟨hb.nonempty, hb.inside, ⟨d, g1, (h.lineMatch hxs b (List.mem_of_getElem? g1) _ _).1 g2⟩,
    fun i d hi hd hm => hb.earliest i d hi hd ((h.lineMatch hxs b (List.mem_of_getElem? hd) _ _).2 hm),
    fun k' i1 i2 d hd hm => hb.longest k' i1 i2 d hd ((h.lineMatch hxs b hd _ _).2 hm)⟩

theorem SameFor.noMatch {xss : List (List SRule)} {inp inp' : List Nat} (h : SameFor xss inp inp') {xs : List SRule} (hxs : xs ∈ xss) {b : Bool} {p e : Nat}
    (hn : NoMatch (LineMatch b) (xs.map (·.2)) inp p e) : NoMatch (LineMatch b) (xs.map (·.2)) inp' p e :=
  fun k i1 i2 d hd hm => hn k i1 i2 d hd ((h.lineMatch hxs b hd _ _).2 hm)

theorem SameFor.chosen {xss : List (List SRule)} {inp inp' : List Nat} (h : SameFor xss inp inp') {npos eoi : Nat} {f : Flags} {r : Results} {p : Nat} {x : SRule} {k next : Nat} {b : Bool}
    (hc : LexEnv.Chosen ⟨xss, npos, eoi, f, inp⟩ r p x k next b) : LexEnv.Chosen ⟨xss, npos, eoi, f, inp'⟩ r p x k next b := by
  cases hc with
  | text xs x k j g1 g2 g3 =>
    dsimp only
    rw [h.line]
    exact .text xs x k j g1 g2 (h.best (List.mem_of_getElem? g1) g3)
  | empty xs x j g1 g2 g3 g4 => exact .empty xs x j g1 g2 (h.noMatch (List.mem_of_getElem? g1) g3) g4

theorem SameFor.lex {xss : List (List SRule)} {inp inp' : List Nat} (h : SameFor xss inp inp') {npos eoi : Nat} {f : Flags} {r : Results} {p : Nat} {o : M Results}
    (hl : LexEnv.Lex ⟨xss, npos, eoi, f, inp⟩ r p o) : LexEnv.Lex ⟨xss, npos, eoi, f, inp'⟩ r p o := by
  induction hl with
  | eoi r => exact .eoi r
  | none r p xs c g1 g2 g3 g4 g5 =>
    have hlt : p < inp'.length := by
      have := (List.getElem?_eq_some_iff.1 g5).1
      rw [← h.len]
      exact this
    have hl := h.line p
    rw [show inp[p]? = some c from g5, List.getElem?_eq_getElem hlt] at hl
    have hc : (c == 10) = (inp'[p] == 10) := hl
    rw [hc]
    exact .none r p xs inp'[p] g1 g2 (h.noMatch (List.mem_of_getElem? g2) g3) g4 (List.getElem?_eq_getElem hlt)
  | throw r p x k next b e g1 g2 g3 => exact .throw r p x k next b e g1 (h.chosen g2) g3
  | skip r r' p x k next b o g1 g2 g3 g4 _ ih => exact .skip r r' p x k next b o g1 (h.chosen g2) g3 g4 ih
  | again r r' p x k next b o g1 g2 g3 g4 g5 _ ih => exact .again r r' p x k next b o g1 (h.chosen g2) g3 g4 g5 ih
  | token r r' p x k next b g1 g2 g3 g4 g5 => exact .token r r' p x k next b g1 (h.chosen g2) g3 g4 g5

theorem sameFor_map {xss : List (List SRule)} {g : Nat → Nat} (hg : ∀ xs ∈ xss, ∀ x ∈ xs, Indistinct g x.2) (hl : ∀ c, g c = 10 ↔ c = 10) (inp : List Nat) :
    SameFor xss inp (inp.map g) where
  len := (List.length_map ..).symm
  line i := by
    rw [List.getElem?_map]
    cases inp[i]? with
    | none => rfl
    | some c =>
      rw [Bool.eq_iff_iff]
      simp [hl c]
  plain xs hxs x hx p k := (rmatches_map (hg xs hxs x hx) inp p k).symm
  caret xs hxs x hx p k := by
    have h := hg xs hxs x hx
    rw [text_map]
    cases hx2 : x.2 with
    | none => exact iff_of_false (by intro h; cases h) (by intro h; cases h)
    | some e =>
      rw [hx2] at h
      exact (matches_map e h (.bol :: text inp p k)).symm

end Classes

/-- C74, for rules of several lexer states, with skipped and continued tokens, the stack and `^`: if no rule tells `c` and `g c` apart and `g` keeps
newlines, `lookup` does the same on an input and the input with each `c` replaced by `g c`: it returns the same result object, with the same lexer
state and stack, or throws the same exception. -/
theorem C74_any {tr : Traits} {R : Rules} {xss : List (List SRule)} {f : Flags} {inp : List Nat} {sm : Internals} {g : Nat → Nat}
    (B : BuiltFor tr R xss f inp sm) (hg : ∀ xs ∈ xss, ∀ x ∈ xs, Indistinct g x.2) (hl : ∀ c, g c = 10 ↔ c = 10) (hinp' : ∀ c ∈ inp, g c < charsOf tr)
    {r : Results} (hp : r.second ≤ r.eoi) (hr : ROk ⟨xss, tr.npos, R.eoi, f, inp⟩ r) (o : M Results) :
    Returns f tr.npos (bytesOf tr) sm inp r o ↔ Returns f tr.npos (bytesOf tr) sm (inp.map g) r o := by
  have hs := Classes.sameFor_map hg hl inp
  have B' : BuiltFor tr R xss f (inp.map g) sm :=
    ⟨B.wide, B.rules, ⟨B.states.next, B.states.push⟩, B.built, fun c hc => by obtain ⟨d, hd, rfl⟩ := List.mem_map.1 hc; exact hinp' d hd⟩
  rw [call_iff B hp hr, call_iff B' hp ⟨hr.state, hr.stack, hs.len ▸ hr.eoi⟩]
  exact ⟨hs.lex, hs.symm.lex⟩

namespace Classes

/-- What is said of the rules of a program: charsets contain both cases of a letter or none. -/
theorem inv_add {g : Nat → SRule} (hg : ∀ i, Indistinct asciiLower (g i).2) : ∀ (is : List Nat) (xss : List (List SRule)),
    (∀ xs ∈ xss, ∀ x ∈ xs, Indistinct asciiLower x.2) → ∀ xs ∈ addRules g is xss, ∀ x ∈ xs, Indistinct asciiLower x.2 := by
  intro is
  induction is with
  | nil => intro xss h; exact h
  | cons i is ih =>
    intro xss h
    refine ih _ fun xs hxs x hx => ?_
    obtain ⟨j, hj⟩ := List.getElem?_of_mem hxs
    rw [List.getElem?_modify] at hj
    obtain ⟨ys, hys, rfl⟩ := Option.map_eq_some_iff.1 hj
    have hmem := List.mem_of_getElem? hys
    split at hx
    · rcases List.mem_append.1 hx with hx | hx
      · exact h ys hmem x hx
      · cases List.mem_singleton.1 hx
        exact hg i
    · exact h ys hmem x hx

theorem inv_stateProgram {E : TokEnv} (hA : AsciiCase E) (hm : E.max = 255) {npos : Nat} {f : ReFlags} (hf : f.icase = true) {cs : List Call} {names : List (List Nat)}
    {M : List (List Nat × Re)} {xss : List (List SRule)} (h : StateProgram E npos f cs names M xss) :
    (∀ name w, .insertMacro name w ∈ cs → KeepsCase w) → (∀ w id uid, .push w id uid ∈ cs → KeepsCase w) → (∀ s w id t uid, .pushIn s w id t uid ∈ cs → KeepsCase w) →
    (∀ name r, find name M = some r → r.AllChars InvSet) ∧ ∀ xs ∈ xss, ∀ x ∈ xs, Indistinct asciiLower x.2 := by
  induction h with
  | nil =>
    intro _ _ _
    refine ⟨fun name r h => (by cases h), fun xs hxs x hx => ?_⟩
    cases List.mem_singleton.1 hxs
    cases hx
  | state cs names M xss name _ _ _ _ ih =>
    intro h1 h2 h3
    obtain ⟨i1, i2⟩ := ih (fun n w hw => h1 n w (List.mem_append_left _ hw)) (fun w i u hw => h2 w i u (List.mem_append_left _ hw))
      (fun s w i t u hw => h3 s w i t u (List.mem_append_left _ hw))
    refine ⟨i1, fun xs hxs x hx => ?_⟩
    rcases List.mem_append.1 hxs with hxs | hxs
    · exact i2 xs hxs x hx
    · cases List.mem_singleton.1 hxs
      cases hx
  | mac cs names M xss name w r _ _ _ _ h _ _ ih =>
    intro h1 h2 h3
    obtain ⟨i1, i2⟩ := ih (fun n w hw => h1 n w (List.mem_append_left _ hw)) (fun w i u hw => h2 w i u (List.mem_append_left _ hw))
      (fun s w i t u hw => h3 s w i t u (List.mem_append_left _ hw))
    refine ⟨fun n r' hr => ?_, i2⟩
    simp only [find] at hr
    split at hr
    · cases hr
      exact inv_means hA hm i1 hf (h1 name w (by simp)) h
    · exact i1 _ _ hr
  | rule cs names M xss w r id uid _ _ h _ _ _ ih =>
    intro h1 h2 h3
    obtain ⟨i1, i2⟩ := ih (fun n w hw => h1 n w (List.mem_append_left _ hw)) (fun w i u hw => h2 w i u (List.mem_append_left _ hw))
      (fun s w i t u hw => h3 s w i t u (List.mem_append_left _ hw))
    have hr := inv_means hA hm i1 hf (h2 w id uid (by simp)) h
    exact ⟨i1, inv_add (g := fun _ => ruleOf r id uid 0 npos false) (fun _ => hr) _ _ i2⟩
  | ruleIn cs names M xss curr is w r id new g uid _ _ _ h _ _ _ _ ih =>
    intro h1 h2 h3
    obtain ⟨i1, i2⟩ := ih (fun n w hw => h1 n w (List.mem_append_left _ hw)) (fun w i u hw => h2 w i u (List.mem_append_left _ hw))
      (fun s w i t u hw => h3 s w i t u (List.mem_append_left _ hw))
    have hr := inv_means hA hm i1 hf (h3 curr w id new uid (by simp)) h
    exact ⟨i1, inv_add (g := fun i => ruleOf r (id.getD 0) uid (g i).1 (g i).2.1 (g i).2.2) (fun _ => hr) _ _ i2⟩

end Classes

/-- C74, from texts: with case ignored, and no text switching this off, the case of the ASCII letters of the input does not matter, for every program of
lexer states, macros and rules, from every lexer state and stack. -/
theorem C74_icase_states {E : TokEnv} (hE : TokEnvOk E) (hC : CharsOk E) (hA : AsciiCase E) {tr : Traits} (hmax : E.max + 1 = charsOf tr)
    (hnpos : 263 ≤ tr.npos) (hcomp : tr.compressed = false) {f : ReFlags} (hf : f.icase = true) {cs : List Call} {names : List (List Nat)} {M : List (List Nat × Re)} {xss : List (List SRule)}
    (h : StateProgram E tr.npos f cs names M xss) (hmac : ∀ name w, .insertMacro name w ∈ cs → KeepsCase w) (hrule : ∀ w id uid, .push w id uid ∈ cs → KeepsCase w)
    (hruleIn : ∀ s w id t uid, .pushIn s w id t uid ∈ cs → KeepsCase w)
    (hbol : ∀ xs ∈ xss, ∀ x ∈ xs, ROpt (fun r => r.bolHead = true) x.2) (heol : ∀ xs ∈ xss, ∀ x ∈ xs, NoEol x.2)
    (hcount : ∀ xs ∈ xss, (xs.map fun x => setsOf tr x.2).sum + 2 ≤ tr.npos)
    {o : RulesObj} (ho : AllOk E tr (RulesObj.new tr f) cs o) {addr : Nat → Nat} {sm : Internals} (hsm : buildTemp tr addr o.rules = .ok sm)
    {fl : Flags} (hpop : fl.recursive = true ∨ ∀ xs ∈ xss, ∀ x ∈ xs, x.1.popDfa = false) {inp : List Nat} (hinp : ∀ c ∈ inp, c < charsOf tr)
    {r : Results} (hr : r.state < names.length) (hs : ∀ e ∈ r.stack, e.1 < names.length) (hp : r.second ≤ r.eoi) (he : r.eoi ≤ inp.length) (out : Except Fault Results) :
    Returns fl tr.npos (bytesOf tr) sm inp r out ↔ Returns fl tr.npos (bytesOf tr) sm (inp.map asciiLower) r out := by
  have hI := (Classes.inv_stateProgram hA (hE.byte hA.size) hf h hmac hrule hruleIn).2
  have hs' := Classes.sameFor_map hI (g := asciiLower) (fun c => by unfold asciiLower; grind) inp
  have hL := ((C61_program_lexes hE hC hmax hnpos h hbol heol (fun h => (by rw [hcomp] at h; cases h)) hcount).2 o ho).2 addr sm hsm fl hpop
  rw [hL inp hinp r hr hs hp he, hL (inp.map asciiLower)
    (fun c hc => by obtain ⟨d, hd, rfl⟩ := List.mem_map.1 hc; exact icase_lower hE hA hmax hinp d hd) r hr hs hp (hs'.len ▸ he)]
  exact ⟨hs'.lex, hs'.symm.lex⟩

namespace Ex

/-- A lexer state `C`, and the rule `k`, ignoring case, in both states, leading to `C`. -/
def caseCalls : List Call := [.pushState (chars "C"), .pushIn [42] [107] (some 1) (chars "C") 0]

def caseRules : List (List SRule) :=
  [[ruleOf (.chars [(75, 75), (107, 107)]) 1 0 1 65535 false], [ruleOf (.chars [(75, 75), (107, 107)]) 1 0 1 65535 false]]

theorem caseProgram : StateProgram env tr.npos { icase := true } caseCalls [chars "INITIAL", chars "C"] [] caseRules := by
  have hA : AsciiCase env := ⟨rfl, fun c => rfl, fun c => rfl⟩
  refine .ruleIn [.pushState (chars "C")] [chars "INITIAL", chars "C"] [] [[], []] [42] [0, 1] [107] (.chars [(75, 75), (107, 107)]) (some 1) (chars "C") (fun _ => (1, 65535, false)) 0
    (.state [] [chars "INITIAL"] [] [[]] (chars "C") .nil (by decide) (by decide) (by decide)) .all (by unfold TextOk; decide) ?_ rfl (by decide) (by decide) (.goto _ 1 rfl)
  refine atom_means (.plain _ _ _ (by decide) (by decide)) ⟨⟨by decide, by decide⟩, fun c => ?_⟩
  rw [asciiClosed hA]
  simp only [Mem, List.mem_cons, List.not_mem_nil, or_false, exists_eq_or_imp, exists_eq_left, asciiLower]
  grind

end Ex

/-- The hypotheses of `C74_icase_states` are met by it. -/
example : StateProgram Ex.env Ex.tr.npos { icase := true } Ex.caseCalls [chars "INITIAL", chars "C"] [] Ex.caseRules ∧
    (∀ s w id t uid, .pushIn s w id t uid ∈ Ex.caseCalls → KeepsCase w) ∧ (∀ xs ∈ Ex.caseRules, ∀ x ∈ xs, x.1.popDfa = false) ∧
    (∀ xs ∈ Ex.caseRules, (xs.map fun x => setsOf Ex.tr x.2).sum + 2 ≤ Ex.tr.npos) ∧
    (buildTemp Ex.tr (fun i => i) (Ex.runs Ex.caseCalls (RulesObj.new Ex.tr { icase := true })).rules).isOk = true := by
  refine ⟨Ex.caseProgram, ?_, by decide, by decide, by decide +kernel⟩
  intro s w id t uid h
  simp only [Ex.caseCalls, List.mem_cons, List.not_mem_nil, or_false, reduceCtorEq, false_or, Call.pushIn.injEq] at h
  obtain ⟨-, rfl, -⟩ := h
  exact keepsCase_of (by decide)

namespace Ex

/-- Exchange of `x` and `y`. -/
def swapXY (c : Nat) : Nat := if c = 120 then 121 else if c = 121 then 120 else c

theorem swapXY_lt {c : Nat} (h : c < 256) : swapXY c < charsOf tr := by
  change _ < 256
  unfold swapXY
  grind

theorem par_swapXY : ∀ xs ∈ rulesPar, ∀ x ∈ xs, Indistinct swapXY x.2 := by
  intro xs hxs x hx
  have h2 : x.2 ∈ (rulesPar.flatten.map (·.2)) := List.mem_map_of_mem (List.mem_flatten.2 ⟨xs, hxs, hx⟩)
  have h3 : ∀ e ∈ (rulesPar.flatten.map (·.2)), Indistinct swapXY e := by
    simp only [rulesPar, List.flatten_cons, List.flatten_nil, List.cons_append, List.nil_append, List.append_nil, List.map_cons, List.map_nil, List.mem_cons, List.not_mem_nil, or_false,
      forall_eq_or_imp, forall_eq, Indistinct, chr, Re.AllChars, Mem, exists_eq_left, swapXY]
    grind
  exact h3 _ h2

end Ex

/-- The hypotheses of `C74_any` are met by the parenthesis lexer, which has a stack, and the exchange of `x` and `y`. -/
example {inp : List Nat} (h : ∀ c ∈ inp, c < 256) (o : M Results) :
    Returns Ex.fRec 65535 1 (Ex.machine Ex.RPar) inp (.mk' 65535 0 inp.length) o ↔ Returns Ex.fRec 65535 1 (Ex.machine Ex.RPar) (inp.map Ex.swapXY) (.mk' 65535 0 inp.length) o :=
  C74_any (exPar_built inp h) Ex.par_swapXY (fun c => by unfold Ex.swapXY; grind) (fun c hc => Ex.swapXY_lt (h c hc)) (Nat.zero_le _)
    ⟨Nat.zero_lt_succ 1, by simp [Results.mk'], Nat.le_refl _⟩ o

end Lexertl.Props
