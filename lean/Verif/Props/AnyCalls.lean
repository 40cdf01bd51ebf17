import Verif.Props.AnyCase
import Verif.Props.AnyRules
import Verif.Props.Rename
import Verif.Props.Calls

/-
C71, C74 and C75 for any number of calls.
-/
namespace Lexertl.Props
open Spec

namespace AnyCalls

/-- A call keeps result objects meaningful. -/
theorem call_keeps {tr : Traits} {R : Rules} {xss : List (List SRule)} {f : Flags} {inp : List Nat} {sm : Internals} (B : BuiltFor tr R xss f inp sm)
    {r r' : Results} (hp : r.second ≤ r.eoi) (hr : ROk ⟨xss, tr.npos, R.eoi, f, inp⟩ r) (h : Lexer.Call ⟨f, tr.npos, bytesOf tr, sm, inp⟩ r (.ok r')) :
    r'.second ≤ r'.eoi ∧ ROk ⟨xss, tr.npos, R.eoi, f, inp⟩ r' := by
  have Y := call_yields hp h
  exact ⟨by rw [show r'.eoi = r.eoi from Y.eoi]; exact Y.hi, lex_rok B.states ((call_iff B hp hr _).1 h) ⟨hr.state, hr.stack, hr.eoi⟩ rfl⟩

/-- If all calls of two lexers agree, up to `g`, so do all sequences of calls. -/
theorem calls_map {L L' : Lexer} {P : Results → Prop} {g : Results → Results} (hP : ∀ r r', P r → L.Call r (.ok r') → P r')
    (hc : ∀ r r', P r → L.Call r (.ok r') → L'.Call (g r) (.ok (g r'))) {r : Results} {rs : List Results} (h : L.Calls r rs) : P r → L'.Calls (g r) (rs.map g) := by
  induction h with
  | nil r => intro _; exact .nil _
  | cons r r' rs h1 _ ih => intro hr; exact .cons _ _ _ (hc r r' hr h1) (ih (hP r r' hr h1))

end AnyCalls

/-- C71, for all lexers and any number of calls. -/
theorem C71_any_calls {tr : Traits} {R R' : Rules} {xss yss : List (List SRule)} {f : Flags} {inp : List Nat} {sm sm' : Internals}
    (B : BuiltFor tr R xss f inp sm) (B' : BuiltFor tr R' yss f inp sm') (heoi : R.eoi = R'.eoi) (hs : SameStates xss yss)
    {r : Results} (hp : r.second ≤ r.eoi) (hr : ROk ⟨xss, tr.npos, R.eoi, f, inp⟩ r) (rs : List Results) :
    Lexer.Calls ⟨f, tr.npos, bytesOf tr, sm, inp⟩ r rs ↔ Lexer.Calls ⟨f, tr.npos, bytesOf tr, sm', inp⟩ r rs := by
  have one : ∀ {R R' : Rules} {xss yss : List (List SRule)} {sm sm' : Internals} (_ : BuiltFor tr R xss f inp sm) (_ : BuiltFor tr R' yss f inp sm') (_ : R.eoi = R'.eoi)
      (_ : SameStates xss yss) (_ : ROk ⟨xss, tr.npos, R.eoi, f, inp⟩ r),
      Lexer.Calls ⟨f, tr.npos, bytesOf tr, sm, inp⟩ r rs → Lexer.Calls ⟨f, tr.npos, bytesOf tr, sm', inp⟩ r rs := by
    intro R R' xss yss sm sm' B B' heoi hs hr h
    have := AnyCalls.calls_map (g := id) (P := fun r => r.second ≤ r.eoi ∧ ROk ⟨xss, tr.npos, R.eoi, f, inp⟩ r) (L' := ⟨f, tr.npos, bytesOf tr, sm', inp⟩)
      (fun r r' h hc => AnyCalls.call_keeps B h.1 h.2 hc) (fun r r' h hc => (C71_any B B' heoi hs h.1 h.2 _).1 hc) h ⟨hp, hr⟩
    rwa [List.map_id] at this
  exact ⟨one B B' heoi hs hr, one B' B heoi.symm (AnyRules.sameStates_symm hs) ⟨hs.1 ▸ hr.state, fun e he => hs.1 ▸ hr.stack e he, hr.eoi⟩⟩

/-- C74, for all lexers and any number of calls. -/
theorem C74_any_calls {tr : Traits} {R : Rules} {xss : List (List SRule)} {f : Flags} {inp : List Nat} {sm : Internals} {g : Nat → Nat}
    (B : BuiltFor tr R xss f inp sm) (hg : ∀ xs ∈ xss, ∀ x ∈ xs, Indistinct g x.2) (hl : ∀ c, g c = 10 ↔ c = 10) (hinp' : ∀ c ∈ inp, g c < charsOf tr)
    {r : Results} (hp : r.second ≤ r.eoi) (hr : ROk ⟨xss, tr.npos, R.eoi, f, inp⟩ r) (rs : List Results) :
    Lexer.Calls ⟨f, tr.npos, bytesOf tr, sm, inp⟩ r rs ↔ Lexer.Calls ⟨f, tr.npos, bytesOf tr, sm, inp.map g⟩ r rs := by
  have B' : BuiltFor tr R xss f (inp.map g) sm :=
    ⟨B.wide, B.rules, ⟨B.states.next, B.states.push⟩, B.built, fun c hc => by obtain ⟨d, hd, rfl⟩ := List.mem_map.1 hc; exact hinp' d hd⟩
  constructor
  · intro h
    have := AnyCalls.calls_map (g := id) (P := fun r => r.second ≤ r.eoi ∧ ROk ⟨xss, tr.npos, R.eoi, f, inp⟩ r) (L' := ⟨f, tr.npos, bytesOf tr, sm, inp.map g⟩)
      (fun r r' h hc => AnyCalls.call_keeps B h.1 h.2 hc) (fun r r' h hc => (C74_any B hg hl hinp' h.1 h.2 _).1 hc) h ⟨hp, hr⟩
    rwa [List.map_id] at this
  · intro h
    have hlen : (inp.map g).length = inp.length := List.length_map ..
    have := AnyCalls.calls_map (g := id) (P := fun r => r.second ≤ r.eoi ∧ ROk ⟨xss, tr.npos, R.eoi, f, inp.map g⟩ r) (L' := ⟨f, tr.npos, bytesOf tr, sm, inp⟩)
      (fun r r' h hc => AnyCalls.call_keeps B' h.1 h.2 hc)
      (fun r r' h hc => (C74_any B hg hl hinp' h.1 ⟨h.2.state, h.2.stack, Nat.le_trans h.2.eoi (Nat.le_of_eq hlen)⟩ _).2 hc) h
      ⟨hp, hr.state, hr.stack, Nat.le_trans hr.eoi (Nat.le_of_eq hlen.symm)⟩
    rwa [List.map_id] at this

/-- C75, for any number of calls. -/
theorem C75_calls {tr : Traits} {R R' : Rules} {xss yss : List (List SRule)} {f : Flags} {inp : List Nat} {sm sm' : Internals} {ρ : Renaming}
    (B : BuiltFor tr R xss f inp sm) (B' : BuiltFor tr R' yss f inp sm') (hρ : ρ.Ok tr.npos R.eoi R'.eoi xss yss)
    {r : Results} (hp : r.second ≤ r.eoi) (hr : ROk ⟨xss, tr.npos, R.eoi, f, inp⟩ r) {rs : List Results} (h : Lexer.Calls ⟨f, tr.npos, bytesOf tr, sm, inp⟩ r rs) :
    Lexer.Calls ⟨f, tr.npos, bytesOf tr, sm', inp⟩ (ρ.result r) (rs.map ρ.result) :=
  AnyCalls.calls_map (g := ρ.result) (L' := ⟨f, tr.npos, bytesOf tr, sm', inp⟩) (P := fun r => r.second ≤ r.eoi ∧ ROk ⟨xss, tr.npos, R.eoi, f, inp⟩ r)
    (fun _ _ h hc => AnyCalls.call_keeps B h.1 h.2 hc) (fun _ _ h hc => C75_numbers B B' hρ h.1 h.2 hc) h ⟨hp, hr⟩

/-- The hypotheses of `C71_any_calls` are met by the parenthesis lexer with its rules in two orders. -/
example {inp : List Nat} (h : ∀ c ∈ inp, c < 256) (rs : List Results) :
    Lexer.Calls ⟨Ex.fRec, 65535, 1, Ex.machine Ex.RPar, inp⟩ (.mk' 65535 0 inp.length) rs ↔ Lexer.Calls ⟨Ex.fRec, 65535, 1, Ex.machine AnyRules.RPar2, inp⟩ (.mk' 65535 0 inp.length) rs :=
  C71_any_calls (exPar_built inp h) (AnyRules.par2_built inp h) rfl AnyRules.par2_same (Nat.zero_le _) ⟨Nat.zero_lt_succ 1, by simp [Results.mk'], Nat.le_refl _⟩ rs

/-- The hypotheses of `C74_any_calls` are met by the parenthesis lexer and the exchange of `x` and `y`. -/
example {inp : List Nat} (h : ∀ c ∈ inp, c < 256) (rs : List Results) :
    Lexer.Calls ⟨Ex.fRec, 65535, 1, Ex.machine Ex.RPar, inp⟩ (.mk' 65535 0 inp.length) rs ↔
    Lexer.Calls ⟨Ex.fRec, 65535, 1, Ex.machine Ex.RPar, inp.map Ex.swapXY⟩ (.mk' 65535 0 inp.length) rs :=
  C74_any_calls (exPar_built inp h) Ex.par_swapXY (fun c => by unfold Ex.swapXY; grind) (fun c hc => Ex.swapXY_lt (h c hc)) (Nat.zero_le _)
    ⟨Nat.zero_lt_succ 1, by simp [Results.mk'], Nat.le_refl _⟩ rs

/-- The hypotheses of `C75_calls` are met by the lexers of `Rename`. -/
example {inp : List Nat} (h : ∀ c ∈ inp, c < 256) {rs : List Results} (hr : Lexer.Calls ⟨Ex.fRec, 65535, 1, Ex.machine Ex.RPar, inp⟩ (.mk' 65535 0 inp.length) rs) :
    Lexer.Calls ⟨Ex.fRec, 65535, 1, Ex.machine Rename.ROther, inp⟩ (.mk' 65535 0 inp.length true 1) (rs.map Rename.other.result) :=
  C75_calls (exPar_built inp h) (Rename.other_built inp h) Rename.other_ok (Nat.zero_le _) ⟨Nat.zero_lt_succ 1, by simp [Results.mk'], Nat.le_refl _⟩ hr

end Lexertl.Props
