import Verif.Spec.CutStates
import Verif.Props.States
import Verif.Props.Resume

/-
C73 for all lexers: several lexer states, the stack, skipped tokens, `^`, empty matches.
-/
namespace Lexertl.Props
open Spec

namespace CutStates

section
variable {E : LexEnv} {n n' : Nat} (hn : n ≤ n')
  (hcut : ∀ xs ∈ E.rules, ∀ x ∈ xs, ∀ p k, p < n → n < k → k ≤ n' → ∀ b, ¬ LineMatch b x.2 (text E.inp p k))
include hn hcut

omit hn in
theorem across {xs : List SRule} (hxs : xs ∈ E.rules) {b : Bool} {p k : Nat} (h1 : p < n) (h2 : n < k) (h3 : k ≤ n') : ∀ e ∈ xs.map (·.2), ¬ LineMatch b e (text E.inp p k) := by
  intro e he
  obtain ⟨x, hx, rfl⟩ := List.mem_map.1 he
  exact hcut xs hxs x hx p k h1 h2 h3 b

omit hn in
theorem noMatch {xs : List SRule} (hxs : xs ∈ E.rules) {b : Bool} {p : Nat} (hp : p < n) (h : NoMatch (LineMatch b) (xs.map (·.2)) E.inp p n) :
    NoMatch (LineMatch b) (xs.map (·.2)) E.inp p n' := by
  intro k h1 h2
  by_cases hk : k ≤ n
  · exact h k h1 hk
  · exact across hcut hxs hp (by omega) h2

theorem chosen {r : Results} {p : Nat} (hr : r.eoi = n) (hp : p < n) {x : SRule} {k next : Nat} {b : Bool} (h : E.Chosen r p x k next b) :
    E.Chosen (withEnd n' r) p x k next b ∧ k ≤ n := by
  subst hr
  cases h with
  | text xs x k j g1 g2 g3 =>
    refine ⟨.text xs x k j g1 g2 ⟨g3.nonempty, Nat.le_trans g3.inside hn, g3.hit, g3.earliest, fun k' h1 h2 => ?_⟩, g3.inside⟩
    by_cases hk : k' ≤ r.eoi
    · exact g3.longest k' h1 hk
    · exact across hcut (List.mem_of_getElem? g1) hp (by omega) h2
  | empty xs x j g1 g2 g3 g4 => exact ⟨.empty xs x j g1 g2 (noMatch hcut (List.mem_of_getElem? g1) hp g3) g4, Nat.le_of_lt hp⟩

omit hn hcut in
theorem accept (x : Rule) (r : Results) (k next : Nat) (b : Bool) : E.accept x (withEnd n' r) k next b = (E.accept x r k next b).map (withEnd n') := by
  unfold LexEnv.accept
  split
  · dsimp only [withEnd]
    split <;> rfl
  · rfl

omit hn hcut in
theorem accept_fields {x : Rule} {r r' : Results} {k next : Nat} {b : Bool} (h : E.accept x r k next b = .ok r') : r'.eoi = r.eoi ∧ r'.second = k := by
  unfold LexEnv.accept at h
  split at h
  · split at h
    · cases h
    · cases h; exact ⟨rfl, rfl⟩
  · cases h; exact ⟨rfl, rfl⟩

theorem lex (hid : E.eoi ≠ E.npos) (hS : StatesExist E) {r : Results} {p : Nat} {o : M Results} (h : E.Lex r p o) : ROk E r → r.eoi = n → r.second = p →
    (E.Lex (withEnd n' r) p (o.map (withEnd n')) ∧ ∀ r', o = .ok r' → r'.id ≠ E.eoi) ∨
    ∃ r1, o = .ok { r1 with id := E.eoi, userId := E.npos } ∧ ROk E r1 ∧ r1.second = n ∧ r1.eoi = n ∧ ∀ o', E.Lex (withEnd n' r) p o' ↔ E.Lex (withEnd n' r1) n o' := by
  induction h with
  | eoi r =>
    intro hr he hs
    exact .inr ⟨r, rfl, hr, hs.trans he, he, fun o' => by rw [he]⟩
  | none r p xs c g1 g2 g3 g4 g5 =>
    intro hr he hs
    subst he
    exact .inl ⟨.none (withEnd n' r) p xs c (Nat.lt_of_lt_of_le g1 hn) g2 (noMatch hcut (List.mem_of_getElem? g2) g1 g3) g4 g5, fun r' h => by
      cases h; exact fun h => hid h.symm⟩
  | throw r p x k next b e g1 g2 g3 =>
    intro hr he hs
    subst he
    exact .inl ⟨.throw (withEnd n' r) p x k next b e (Nat.lt_of_lt_of_le g1 hn) (chosen hn hcut rfl g1 g2).1 (by rw [accept, g3]; rfl), fun r' h => by cases h⟩
  | skip r r' p x k next b o g1 g2 g3 g4 _ ih =>
    intro hr he hs
    obtain ⟨f1, f2⟩ := accept_fields g3
    have hr' := (accept_ok hS g2 hr g3).1
    have key : ∀ o', E.Lex (withEnd n' r) p o' ↔ E.Lex (withEnd n' { r' with first := k }) k o' := fun o' =>
      lex_skip (r' := withEnd n' r') (by subst he; exact Nat.lt_of_lt_of_le g1 hn) (chosen hn hcut he (he ▸ g1) g2).1 (by rw [accept, g3]; rfl) g4 o'
    rcases ih ⟨hr'.state, hr'.stack, hr'.eoi⟩ (f1.trans he) f2 with ⟨i1, i2⟩ | ⟨r1, i1, i2, i3, i4, i5⟩
    · exact .inl ⟨(key _).2 i1, i2⟩
    · exact .inr ⟨r1, i1, i2, i3, i4, fun o' => (key o').trans (i5 o')⟩
  | again r r' p x k next b o g1 g2 g3 g4 g5 _ ih =>
    intro hr he hs
    obtain ⟨f1, f2⟩ := accept_fields g3
    have hr' := (accept_ok hS g2 hr g3).1
    have key : ∀ o', E.Lex (withEnd n' r) p o' ↔ E.Lex (withEnd n' r') k o' := fun o' =>
      lex_again (r' := withEnd n' r') (by subst he; exact Nat.lt_of_lt_of_le g1 hn) (chosen hn hcut he (he ▸ g1) g2).1 (by rw [accept, g3]; rfl) g4 g5 o'
    rcases ih hr' (f1.trans he) f2 with ⟨i1, i2⟩ | ⟨r1, i1, i2, i3, i4, i5⟩
    · exact .inl ⟨(key _).2 i1, i2⟩
    · exact .inr ⟨r1, i1, i2, i3, i4, fun o' => (key o').trans (i5 o')⟩
  | token r r' p x k next b g1 g2 g3 g4 g5 =>
    intro hr he hs
    subst he
    exact .inl ⟨.token (withEnd n' r) (withEnd n' r') p x k next b (Nat.lt_of_lt_of_le g1 hn) (chosen hn hcut rfl g1 g2).1 (by rw [accept, g3]; rfl) g4 g5, fun q h => by
      cases h; exact fun h => g5 (.inl h)⟩

end

end CutStates

/-- C73, for all lexers: if no rule matches across the end of `u`, a call on `u` that returns a token or throws an exception does the same on `u` followed by `v`. -/
theorem C73_any_token {tr : Traits} {R : Rules} {xss : List (List SRule)} {f : Flags} {u v : List Nat} {sm : Internals} (B : BuiltFor tr R xss f (u ++ v) sm)
    (hid : R.eoi ≠ tr.npos) (hcut : NoneCrosses xss u v) {r : Results} (hs : r.state < xss.length) (hst : ∀ e ∈ r.stack, e.1 < xss.length) (hp : r.second ≤ r.eoi) (he : r.eoi = u.length)
    {o : M Results} (h : Returns f tr.npos (bytesOf tr) sm u r o) (ho : ∀ r', o = .ok r' → r'.id ≠ R.eoi) :
    Returns f tr.npos (bytesOf tr) sm (u ++ v) (withEnd (u ++ v).length r) (o.map (withEnd (u ++ v).length)) := by
  have hlen : (u ++ v).length = u.length + v.length := List.length_append
  have hr : ROk ⟨xss, tr.npos, R.eoi, f, u ++ v⟩ r := ⟨hs, hst, by rw [he]; show u.length ≤ (u ++ v).length; omega⟩
  have hr2 : ROk ⟨xss, tr.npos, R.eoi, f, u ++ v⟩ (withEnd (u ++ v).length r) := ⟨hs, hst, Nat.le_refl _⟩
  rw [← C70_beyond f tr.npos (bytesOf tr) sm u v r (by omega) o, call_iff B hp hr] at h
  rw [call_iff B (show r.second ≤ (u ++ v).length by omega) hr2]
  rcases CutStates.lex (n := u.length) (n' := (u ++ v).length) (by omega) (fun xs hxs x hx p k h1 h2 h3 => hcut xs hxs x hx p k h1 h2 (by omega)) hid B.states h
    ⟨hs, hst, hr.eoi⟩ he rfl with ⟨h1, -⟩ | ⟨r1, h1, -⟩
  · exact h1
  · exact absurd rfl (ho _ h1)

/-- C73, for all lexers: if no rule matches across the end of `u`, and a call on `u` comes to its end outside a token, then the call on `u` followed by `v` does what a
call on `v` does, from the lexer state and stack at the end of `u`; positions count from the start of `u`. -/
theorem C73_any_end {tr : Traits} {R : Rules} {xss : List (List SRule)} {f : Flags} {u v : List Nat} {sm : Internals} (B : BuiltFor tr R xss f (u ++ v) sm)
    (hid : R.eoi ≠ tr.npos) (hcut : NoneCrosses xss u v) {r : Results} (hs : r.state < xss.length) (hst : ∀ e ∈ r.stack, e.1 < xss.length) (hp : r.second ≤ r.eoi) (he : r.eoi = u.length)
    {r' : Results} (h : Returns f tr.npos (bytesOf tr) sm u r (.ok r')) (hend : r'.id = R.eoi) (hout : r'.first = r'.second)
    (o : M Results) : Returns f tr.npos (bytesOf tr) sm (u ++ v) (withEnd (u ++ v).length r) (o.map (moved u.length)) ↔ Returns f tr.npos (bytesOf tr) sm v (startOn tr.npos v r') o := by
  have hlen : (u ++ v).length = u.length + v.length := List.length_append
  have hr : ROk ⟨xss, tr.npos, R.eoi, f, u ++ v⟩ r := ⟨hs, hst, by rw [he]; show u.length ≤ (u ++ v).length; omega⟩
  have hr2 : ROk ⟨xss, tr.npos, R.eoi, f, u ++ v⟩ (withEnd (u ++ v).length r) := ⟨hs, hst, Nat.le_refl _⟩
  rw [← C70_beyond f tr.npos (bytesOf tr) sm u v r (by omega) (.ok r'), call_iff B hp hr] at h
  rw [call_iff B (show r.second ≤ (u ++ v).length by omega) hr2]
  rcases CutStates.lex (n := u.length) (n' := (u ++ v).length) (by omega) (fun xs hxs x hx p k h1 h2 h3 => hcut xs hxs x hx p k h1 h2 (by omega)) hid B.states h
    ⟨hs, hst, hr.eoi⟩ he rfl with ⟨-, h1⟩ | ⟨r1, h1, h2, h3, h4, h5⟩
  · exact absurd hend (h1 _ rfl)
  · cases h1
    refine (h5 _).trans ?_
    rw [← C70_position f tr.npos (bytesOf tr) sm u v]
    have hq : moved u.length (startOn tr.npos v { r1 with id := R.eoi, userId := tr.npos }) =
        moved (withEnd (u ++ v).length r1).second (afterToken tr.npos (withEnd (u ++ v).length r1)) := by
      simp only [moved, startOn, afterToken, withEnd, h3, hlen, Nat.zero_add, Nat.add_sub_cancel_left]
    have hret : ∀ q, Returns f tr.npos (bytesOf tr) sm (u ++ v) (withEnd (u ++ v).length r1) q ↔
        Returns f tr.npos (bytesOf tr) sm (u ++ v) (moved u.length (startOn tr.npos v { r1 with id := R.eoi, userId := tr.npos })) q := by
      intro q
      unfold Returns
      rw [hq]
      simp only [Resume.lookupFuel_rest (r := withEnd (u ++ v).length r1) (show r1.second ≤ (u ++ v).length by omega)]
    have hf : ({ withEnd (u ++ v).length r1 with first := (withEnd (u ++ v).length r1).second } : Results) = withEnd (u ++ v).length r1 := by
      obtain ⟨a, b, c, d, e, f, g, i⟩ := r1
      cases (show c = d from hout)
      rfl
    rw [← hret, call_iff B (r := withEnd (u ++ v).length r1) (show r1.second ≤ (u ++ v).length by omega) ⟨h2.state, h2.stack, Nat.le_refl _⟩, hf]
    rw [show (withEnd (u ++ v).length r1).second = u.length from h3]

theorem CutStates.par_call {f : Flags} {npos bytes : Nat} {sm : Internals} {inp : List Nat} {r r' : Results} (h : (lookupFuel f npos bytes sm inp 10 r).toOption = some r') :
    Returns f npos bytes sm inp r (.ok r') := resume_call (L := ⟨f, npos, bytes, sm, inp⟩) h

theorem CutStates.par_none (u v : List Nat) : NoneCrosses Ex.rulesPar u v := by
  have hC : ∀ (b : Bool) (c id n q : Nat) (z : Bool) w, LineMatch b (Ex.chr c id n q z).2 w → w.length = 1 := by
    intro b c id n q z w h
    change LineMatch b (some (.chars [(c, c)])) w at h
    rw [line_noBol (by rfl)] at h
    obtain ⟨d, _, rfl⟩ := h
    rfl
  intro xs hxs x hx p k h1 h2 h3 b hm
  have hlen : (text (u ++ v) p k).length = k - p := by
    simp only [text, List.length_map, List.length_take, List.length_drop, List.length_append]
    omega
  have : (text (u ++ v) p k).length = 1 := by
    revert hm
    generalize text (u ++ v) p k = w
    simp only [Ex.rulesPar, List.mem_cons, List.not_mem_nil, or_false] at hxs
    rcases hxs with rfl | rfl
    all_goals simp only [List.mem_cons, List.not_mem_nil, or_false] at hx
    · rcases hx with rfl | rfl <;> exact hC _ _ _ _ _ _ _
    · rcases hx with rfl | rfl | rfl <;> exact hC _ _ _ _ _ _ _
  omega

/-- The hypotheses of `C73_any_token` are met by the parenthesis lexer, on the text `(`, whatever follows. -/
example {v : List Nat} (hv : ∀ c ∈ v, c < 256) :
    Returns Ex.fRec 65535 1 (Ex.machine Ex.RPar) (40 :: v) (.mk' 65535 0 (v.length + 1)) (.ok ⟨2, 65535, 0, 1, v.length + 1, false, 1, [(0, 2)]⟩) := by
  have h0 : (lookupFuel Ex.fRec 65535 1 (Ex.machine Ex.RPar) [40] 10 (.mk' 65535 0 1)).toOption = some ⟨2, 65535, 0, 1, 1, false, 1, [(0, 2)]⟩ := by decide +kernel
  have h : Returns Ex.fRec 65535 1 (Ex.machine Ex.RPar) [40] (.mk' 65535 0 1) (.ok ⟨2, 65535, 0, 1, 1, false, 1, [(0, 2)]⟩) := CutStates.par_call h0
  have := C73_any_token (u := [40]) (v := v) (exPar_built ([40] ++ v) (fun c hc => by
    rcases List.mem_append.1 hc with hc | hc
    · cases List.mem_singleton.1 hc; decide
    · exact hv c hc)) (by decide) (CutStates.par_none _ _) (by decide) (by simp [Results.mk']) (by decide) rfl h (fun r' hr => by cases hr; decide)
  exact this

/-- The hypotheses of `C73_any_end` are met by the parenthesis lexer in state 1, on the text `c`, which is skipped, and the text `)`, which ends this state. -/
example : Returns Ex.fRec 65535 1 (Ex.machine Ex.RPar) [99, 41] ⟨2, 65535, 0, 0, 2, false, 1, [(0, 2)]⟩ (.ok ⟨3, 65535, 1, 2, 2, false, 0, []⟩) := by
  have h0 : (lookupFuel Ex.fRec 65535 1 (Ex.machine Ex.RPar) [99] 10 ⟨2, 65535, 0, 0, 1, false, 1, [(0, 2)]⟩).toOption = some ⟨0, 65535, 1, 1, 1, false, 1, [(0, 2)]⟩ := by decide +kernel
  have h : Returns Ex.fRec 65535 1 (Ex.machine Ex.RPar) [99] ⟨2, 65535, 0, 0, 1, false, 1, [(0, 2)]⟩ (.ok ⟨0, 65535, 1, 1, 1, false, 1, [(0, 2)]⟩) := CutStates.par_call h0
  have h20 : (lookupFuel Ex.fRec 65535 1 (Ex.machine Ex.RPar) [41] 10 ⟨0, 65535, 0, 0, 1, false, 1, [(0, 2)]⟩).toOption = some ⟨3, 65535, 0, 1, 1, false, 0, []⟩ := by decide +kernel
  have h2 : Returns Ex.fRec 65535 1 (Ex.machine Ex.RPar) [41] ⟨0, 65535, 0, 0, 1, false, 1, [(0, 2)]⟩ (.ok ⟨3, 65535, 0, 1, 1, false, 0, []⟩) := CutStates.par_call h20
  exact (C73_any_end (tr := Ex.tr) (u := [99]) (v := [41]) (exPar_built _ (by decide)) (by decide) (CutStates.par_none _ _) (r := ⟨2, 65535, 0, 0, 1, false, 1, [(0, 2)]⟩)
    (by decide) (by decide) (by decide) rfl h rfl rfl (.ok ⟨3, 65535, 0, 1, 1, false, 0, []⟩)).2 h2

end Lexertl.Props
