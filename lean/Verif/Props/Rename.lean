import Verif.Spec.Rename
import Verif.Props.States

/-
C75: the numbers of lexer states and ids do not matter.
-/
namespace Lexertl.Props
open Spec

namespace Rename

section
variable {ρ : Renaming} {npos eoi eoi' : Nat} {xss yss : List (List SRule)} (h : ρ.Ok npos eoi eoi' xss yss) {f : Flags} {inp : List Nat}
include h

omit h in
theorem exprs (xs : List SRule) : (xs.map ρ.rule).map (·.2) = xs.map (·.2) := by
  rw [List.map_map]
  rfl

theorem chosen {r : Results} {p : Nat} {x : SRule} {k next : Nat} {b : Bool} (hc : LexEnv.Chosen ⟨xss, npos, eoi, f, inp⟩ r p x k next b) :
    LexEnv.Chosen ⟨yss, npos, eoi', f, inp⟩ (ρ.result r) p (ρ.rule x) k (ρ.state next) b := by
  cases hc with
  | text xs x k j g1 g2 g3 =>
    exact .text (xs.map ρ.rule) (ρ.rule x) k j (h.rules _ xs g1) (by rw [List.getElem?_map, g2]; rfl) (by rw [exprs]; exact g3)
  | empty xs x j g1 g2 g3 g4 =>
    exact .empty (xs.map ρ.rule) (ρ.rule x) j (h.rules _ xs g1) (by rw [List.getElem?_map, g2]; rfl) (by rw [exprs]; exact g3) (by rw [exprs]; exact g4)

theorem accept (x : SRule) (r : Results) (k next : Nat) (b : Bool) :
    LexEnv.accept ⟨yss, npos, eoi', f, inp⟩ (ρ.rule x).1 (ρ.result r) k (ρ.state next) b = (LexEnv.accept ⟨xss, npos, eoi, f, inp⟩ x.1 r k next b).map ρ.result := by
  unfold LexEnv.accept
  dsimp only [Renaming.rule]
  by_cases hc : f.recursive = true ∧ x.1.popDfa = true
  · refine (if_pos hc).trans (Eq.trans ?_ (congrArg (Except.map ρ.result) (if_pos hc).symm))
    dsimp only [Renaming.result]
    cases r.stack with
    | nil => rfl
    | cons e st =>
      simp only [List.map_cons, Except.map, Renaming.result]
      by_cases h2 : f.multiState = true <;> simp only [h2] <;> rfl
  · refine (if_neg hc).trans (Eq.trans ?_ (congrArg (Except.map ρ.result) (if_neg hc).symm))
    have hp : (f.recursive = true ∧ ρ.state x.1.pushDfa ≠ npos) ↔ (f.recursive = true ∧ x.1.pushDfa ≠ npos) := by
      rw [Ne, h.noState]
    simp only [hp, Except.map, Renaming.result, apply_ite ρ.state, apply_ite (List.map fun e : Nat × Nat => (ρ.state e.1, ρ.id e.2)), List.map_cons]

theorem continues (x : SRule) (r : Results) :
    LexEnv.continues ⟨yss, npos, eoi', f, inp⟩ (ρ.rule x).1 (ρ.result r) ↔ LexEnv.continues ⟨xss, npos, eoi, f, inp⟩ x.1 r := by
  unfold LexEnv.continues
  dsimp only [Renaming.rule, Renaming.result]
  rw [h.eoi]
  refine or_congr_right (and_congr_right fun _ => and_congr_right fun _ => ?_)
  cases r.stack with
  | nil => simp
  | cons e st => simp [h.eoi]

theorem lex {r : Results} {p : Nat} {o : M Results} (hl : LexEnv.Lex ⟨xss, npos, eoi, f, inp⟩ r p o) :
    LexEnv.Lex ⟨yss, npos, eoi', f, inp⟩ (ρ.result r) p (o.map ρ.result) := by
  induction hl with
  | eoi r =>
    have : (Except.map ρ.result (.ok { r with id := eoi, userId := npos }) : M Results) = .ok { ρ.result r with id := eoi', userId := npos } := by
      simp only [Except.map, Renaming.result, (h.eoi eoi).2 rfl, h.noUserId]
    rw [this]
    exact .eoi (ρ.result r)
  | none r p xs c g1 g2 g3 g4 g5 =>
    dsimp only [Except.map, Renaming.result]
    rw [h.noId, h.noUserId]
    exact .none (ρ.result r) p (xs.map ρ.rule) c g1 (h.rules _ xs g2) (by rw [exprs]; exact g3) (by rw [exprs]; exact g4) g5
  | throw r p x k next b e g1 g2 g3 => exact .throw (ρ.result r) p (ρ.rule x) k (ρ.state next) b e g1 (chosen h g2) (by rw [accept h, g3]; rfl)
  | skip r r' p x k next b o g1 g2 g3 g4 _ ih =>
    exact .skip (ρ.result r) (ρ.result r') p (ρ.rule x) k (ρ.state next) b _ g1 (chosen h g2) (by rw [accept h, g3]; rfl) ((h.skip _).2 g4) ih
  | again r r' p x k next b o g1 g2 g3 g4 g5 _ ih =>
    exact .again (ρ.result r) (ρ.result r') p (ρ.rule x) k (ρ.state next) b _ g1 (chosen h g2) (by rw [accept h, g3]; rfl) (fun hi => g4 ((h.skip _).1 hi))
      ((continues h x r').2 g5) ih
  | token r r' p x k next b g1 g2 g3 g4 g5 =>
    exact .token (ρ.result r) (ρ.result r') p (ρ.rule x) k (ρ.state next) b g1 (chosen h g2) (by rw [accept h, g3]; rfl) (fun hi => g4 ((h.skip _).1 hi))
      (fun hc => g5 ((continues h x r').1 hc))

end

end Rename

/-- C75: if the lexer states, ids and user ids of a lexer are given other numbers (`skip`, the id of the end of input and `npos` staying what they are), a call of
`lookup` does the same, with the new numbers in the result object: positions, stack depth and exceptions do not change. -/
theorem C75_numbers {tr : Traits} {R R' : Rules} {xss yss : List (List SRule)} {f : Flags} {inp : List Nat} {sm sm' : Internals} {ρ : Renaming}
    (B : BuiltFor tr R xss f inp sm) (B' : BuiltFor tr R' yss f inp sm') (hρ : ρ.Ok tr.npos R.eoi R'.eoi xss yss)
    {r : Results} (hp : r.second ≤ r.eoi) (hr : ROk ⟨xss, tr.npos, R.eoi, f, inp⟩ r) {o : M Results} (h : Returns f tr.npos (bytesOf tr) sm inp r o) :
    Returns f tr.npos (bytesOf tr) sm' inp (ρ.result r) (o.map ρ.result) := by
  have hin : ∀ i, i < xss.length → ρ.state i < yss.length := fun i hi =>
    (List.getElem?_eq_some_iff.1 (hρ.rules i xss[i] (List.getElem?_eq_getElem hi))).1
  have hr' : ROk ⟨yss, tr.npos, R'.eoi, f, inp⟩ (ρ.result r) := by
    refine ⟨hin _ hr.state, fun e he => ?_, hr.eoi⟩
    obtain ⟨d, hd, rfl⟩ := List.mem_map.1 he
    exact hin _ (hr.stack d hd)
  rw [call_iff B hp hr] at h
  rw [call_iff B' (r := ρ.result r) hp hr']
  exact Rename.lex hρ h

namespace Rename

/-- Lexer states 0 and 1 exchanged, ids 1 and 7 exchanged. -/
def other : Renaming where
  state i := if i = 0 then 1 else if i = 1 then 0 else i
  id i := if i = 1 then 7 else if i = 7 then 1 else i
  userId i := i

/-- The parenthesis lexer with the lexer states exchanged and other ids. -/
def rulesOther : List (List SRule) := [[Ex.chr 40 2 0 0, Ex.chr 41 3 65535 65535 true, Ex.chr 99 65534 0], [Ex.chr 97 7 1, Ex.chr 40 2 0 1]]

def ROther : Rules := ⟨rulesOther.map (·.map (·.1)), [48, 48], 0, false, false⟩

theorem other_built (inp : List Nat) (h : ∀ c ∈ inp, c < charsOf Ex.tr) : BuiltFor Ex.tr ROther rulesOther Ex.fRec inp (Ex.machine ROther) where
  wide := by decide
  rules := by
    refine Ex.ruleSet_of rfl ?_ (by decide)
    simp only [rulesOther, List.mem_cons, List.not_mem_nil, or_false, forall_eq_or_imp, forall_eq]
    exact ⟨⟨Ex.one_chr (by decide) .., Ex.one_chr (by decide) .., Ex.one_chr (by decide) ..⟩, Ex.one_chr (by decide) .., Ex.one_chr (by decide) ..⟩
  states := by
    refine ⟨?_, ?_⟩
    · show ∀ xs ∈ rulesOther, ∀ x ∈ xs, (true = true ∧ x.1.popDfa = true) ∨ x.1.nextDfa < rulesOther.length
      decide
    · show ∀ xs ∈ rulesOther, ∀ x ∈ xs, x.1.pushDfa ≠ Ex.tr.npos → x.1.pushDfa < rulesOther.length
      decide
  built := ⟨_, Ex.machine_ok (by decide +kernel)⟩
  chars := h

theorem other_ok : other.Ok Ex.tr.npos Ex.RPar.eoi ROther.eoi Ex.rulesPar rulesOther where
  noState i := by
    change (if i = 0 then 1 else if i = 1 then 0 else i) = 65535 ↔ i = 65535
    grind
  noId := by decide
  noUserId := rfl
  skip i := by
    change (if i = 1 then 7 else if i = 7 then 1 else i) = 65534 ↔ i = 65534
    grind
  eoi i := by
    change (if i = 1 then 7 else if i = 7 then 1 else i) = 0 ↔ i = 0
    grind
  rules i xs hx := by
    match i, hx with
    | 0, hx => cases hx; rfl
    | 1, hx => cases hx; rfl
    | _ + 2, hx => cases hx

end Rename

/-- The hypotheses of `C75_numbers` are met by the two lexers: lexing starts in state 0 of the one and in state 1 of the other. -/
example {inp : List Nat} (h : ∀ c ∈ inp, c < 256) {o : M Results} (hr : Returns Ex.fRec 65535 1 (Ex.machine Ex.RPar) inp (.mk' 65535 0 inp.length) o) :
    Returns Ex.fRec 65535 1 (Ex.machine Rename.ROther) inp (.mk' 65535 0 inp.length true 1) (o.map Rename.other.result) :=
  C75_numbers (exPar_built inp h) (Rename.other_built inp h) Rename.other_ok (Nat.zero_le _) ⟨Nat.zero_lt_succ 1, by simp [Results.mk'], Nat.le_refl _⟩ hr

end Lexertl.Props
