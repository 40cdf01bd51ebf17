import Verif.Proofs.EagerScan
import Verif.Props.Comments

/-
Property C50: rules with non-greedy operators do not cut the matches of other rules short.
-/
namespace Lexertl.Props
open Spec

/-- C50: a rule every later character of which is asked for by a greedy `?`, `*` or `+`
(`Re.eager`: numbers, identifiers, white space and the like) is not cut short: if a call
reports a token that is not empty, then no such rule matches a longer text, whatever rules
with non-greedy operators there are, also if the reported rule is one of them.  (No
compression, no `^`.  `p` is where the last match of the call starts; it is the start of the
token unless rules with the id of the end of input continue tokens.) -/
theorem C50_eager_never_cut_partial {tr : Traits} {R : Rules} {xss : List (List SRule)} {f : Flags} {inp : List Nat}
    {sm : Internals} (B : BuiltAny tr R xss f inp sm) (hc : tr.compressed = false) (hb : ∀ s, NoBolState R s)
    {r : Results} (hp : r.second ≤ r.eoi) (hr : ROk ⟨xss, tr.npos, R.eoi, f, inp⟩ r) {r' : Results}
    (h : Returns f tr.npos (bytesOf tr) sm inp r (.ok r')) (hid : r'.id ≠ tr.npos) (heoi : r'.id ≠ R.eoi) :
    ∃ xs ∈ xss, ∃ j x, xs[j]? = some x ∧ r'.id = x.1.id ∧ r'.userId = x.1.userId ∧
      ∃ p, r.second ≤ p ∧ p < r.eoi ∧ r'.first ≤ p ∧ p ≤ r'.second ∧ r'.second ≤ r.eoi ∧
      (First RMatches (xs.map (·.2)) (text inp p r'.second) j ∨
        (f.eol = true ∧ LineEnd inp r.eoi r'.second ∧ First RMatches (xs.map (·.2)) (text inp p r'.second ++ [.eol]) j)) ∧
      (p < r'.second → ∀ y ∈ xs, ∀ e, y.2 = some e → e.eager = true →
        ∀ k, r'.second < k → k ≤ r.eoi → ¬ e.Matches (text inp p k)) ∧
      ((∀ xs ∈ xss, ∀ x ∈ xs, x.1.id ≠ R.eoi) → (∀ e ∈ r.stack, e.2 ≠ R.eoi) → r'.first = p) := by
  have hbytes : bytesOf tr = 1 := by simp [bytesOf, hc]
  obtain ⟨addr, hbt⟩ := B.built
  have I := Eager.build_impl B.wide hc B.rules hbt f inp B.chars
  have hL : LexEnv.LexWith ⟨xss, tr.npos, R.eoi, f, inp⟩
      (fun r p x k next b => LexEnv.Picks ⟨xss, tr.npos, R.eoi, f, inp⟩ r p x k next b ∧
        Eager.NotCut ⟨xss, tr.npos, R.eoi, f, inp⟩ R r p k)
      (LexEnv.Unmatched ⟨xss, tr.npos, R.eoi, f, inp⟩) { r with first := r.second } r.second (.ok r') := by
    obtain ⟨h1, n, h2⟩ := h
    rw [hbytes] at h2
    rw [← h2] at h1 ⊢
    exact Line.nextLoop_sound I Enc.cut_choice B.states n { r with first := r.second } r.second
      ⟨hr.state, hr.stack, hr.eoi⟩ hp h1
  obtain ⟨x, r0, q, next, b, ⟨b1, b1'⟩, b2, b3, b4, b5, b6, b7, b8, _⟩ := lex_last_with (fun h => h.1) hL (Nat.le_refl _)
    hp rfl hid heoi
  have hk := (Line.picks_choice _).le b1 (by rw [b5]; exact Nat.le_of_lt b4)
  have b5 : r0.eoi = r.eoi := b5
  rw [b5] at hk
  have hsb := noBolState_iff (hb r0.state)
  have key : ∀ {k next : Nat} {b : Bool}, LexEnv.Picks ⟨xss, tr.npos, R.eoi, f, inp⟩ r0 q x k next b →
      ∃ xs, xss[r0.state]? = some xs ∧ ∃ j, xs[j]? = some x ∧
        (First RMatches (xs.map (·.2)) (text inp q k) j ∨
         (f.eol = true ∧ LineEnd inp r.eoi k ∧ First RMatches (xs.map (·.2)) (text inp q k ++ [.eol]) j)) := by
    intro k next b b1
    have line : ∀ {xs : List SRule} {w : List Sym} {j : Nat} {c : Bool}, xss[r0.state]? = some xs →
        First (LineMatch c) (xs.map (·.2)) w j → First RMatches (xs.map (·.2)) w j := by
      intro xs w j c hxs hf
      have hn : ∀ e ∈ xs.map (·.2), ∀ w, LineMatch c e w ↔ RMatches e w := by
        intro e he w
        obtain ⟨y, hy, rfl⟩ := List.mem_map.1 he
        exact line_noBol ((rNoBol_iff _).1 (Line.stateBol_of B.rules hxs hsb y hy)) w
      obtain ⟨⟨e, h1, h2⟩, h3⟩ := hf
      exact ⟨⟨e, h1, (hn e (List.mem_of_getElem? h1) w).1 h2⟩,
        fun i e' hi he hm => h3 i e' hi he ((hn e' (List.mem_of_getElem? he) w).2 hm)⟩
    cases b1 with
    | text xs x k j h1 h2 h3 h4 h5 h6 => exact ⟨xs, h1, j, h2, .inl (line h1 h5)⟩
    | line xs x k j h1 h2 h3 h4 h5 h6 h7 h8 => exact ⟨xs, h1, j, h2, .inr ⟨h5, b5 ▸ h6, line h1 h7⟩⟩
    | empty xs x j h1 h2 h3 h4 =>
      refine ⟨xs, h1, j, h2, .inl ?_⟩
      rw [show text inp q q = [] by simp [text]]
      exact ⟨h3.hit, h3.earliest⟩
  obtain ⟨xs, m1, j, m2, m3⟩ := key b1
  refine ⟨xs, List.mem_of_getElem? m1, j, x, m2, b6, b7, q, b3, b4, b2, hk.1, hk.2, m3, fun hq y hy e he heg k hk1 hk2 hm => ?_,
    fun h1 h2 => b8 h1 h2 rfl⟩
  refine b1' hq hsb xs m1 y hy e he heg k hk1 (by rw [b5]; exact hk2) ?_
  rw [he]
  exact hm

namespace Ex

/-- `[a-c]+`, id 2 -/
def rWord : SRule :=
  (rule [tSet 97 99, ⟨.oneormore, [], []⟩] 2, some (.plus (.chars [(97, 99)]) false))

/-- `b[a-c]*?c` (id 1) and `[a-c]+` (id 2) -/
def rulesEager : List SRule := [rLazy, rWord]

def REager : Rules := ⟨[rulesEager.map (·.1)], [0], 0, false, false⟩

theorem anyEager : AnyRules tr REager [rulesEager] where
  states := rfl
  den := by
    simp only [rulesEager, List.mem_cons, List.not_mem_nil, or_false, forall_eq_or_imp, forall_eq]
    refine ⟨anyLazy.den _ (List.mem_singleton.2 rfl) _ (by simp [rulesLazy]), ?_⟩
    exact .re tBegin tEnd [tSet 97 99, ⟨.oneormore, [], []⟩] _ rfl rfl
      (.alt1 _ _ (.seq1 _ _ (.postfix_ [tSet 97 99] _ _ _ (.charset _ _) (.plus _ _ _))))
  sets := by
    simp only [rulesEager, rLazy, rWord, List.mem_cons, List.not_mem_nil, or_false, forall_eq_or_imp, forall_eq, CharSets, Re.AllChars]
    decide
  bolHead := by
    simp only [rulesEager, List.mem_cons, List.not_mem_nil, or_false, forall_eq_or_imp, forall_eq]
    exact ⟨rfl, rfl⟩
  dollar := by
    intro xs hxs
    simp only [List.mem_singleton] at hxs
    subst hxs
    left
    simp only [rulesEager, List.mem_cons, List.not_mem_nil, or_false, forall_eq_or_imp, forall_eq]
    exact ⟨rfl, rfl⟩
  lazy := by
    intro xs hxs
    simp only [List.mem_singleton] at hxs
    subst hxs
    left
    simp only [rulesEager, List.mem_cons, List.not_mem_nil, or_false, forall_eq_or_imp, forall_eq]
    exact ⟨rfl, rfl⟩
  count := by
    intro xs hxs
    simp only [List.mem_singleton] at hxs
    subst hxs
    decide
  bolBit := by
    intro i xs hxs ⟨x, hx, hn⟩
    have hxs := List.mem_of_getElem? hxs
    simp only [List.mem_singleton] at hxs
    subst hxs
    simp only [rulesEager, List.mem_cons, List.not_mem_nil, or_false] at hx
    rcases hx with rfl | rfl <;> exact absurd rfl hn

end Ex

/-- The hypotheses are met: `b[a-c]*?c`, which comes first and matches the first three
characters of "bacca", does not cut `[a-c]+` short, which is eager and takes all five. -/
example : BuiltAny Ex.tr Ex.REager [Ex.rulesEager] Ex.fAll [98, 97, 99, 99, 97] (Ex.machine Ex.REager) ∧
    (∀ s, NoBolState Ex.REager s) ∧
    ROk ⟨[Ex.rulesEager], Ex.tr.npos, Ex.REager.eoi, Ex.fAll, [98, 97, 99, 99, 97]⟩ (.mk' 65535 0 5) ∧
    Ex.tokens Ex.REager [98, 97, 99, 99, 97] 2 = some [(2, 0, 5), (0, 5, 5)] ∧
    Ex.rWord.2 = some (.plus (.chars [(97, 99)]) false) ∧ (Re.plus (.chars [(97, 99)]) false).eager = true := by
  refine ⟨⟨by decide, Ex.anyEager, ⟨by decide, by decide⟩, ⟨_, Ex.machine_ok (by decide +kernel)⟩, by decide⟩, ?_,
    ⟨by decide, by decide, by decide⟩, by decide +kernel, rfl, by decide⟩
  intro s n hn
  cases s with
  | zero => cases hn; rfl
  | succ s => simp [Ex.REager] at hn

namespace Ex

/-- `b[a-c]*?c` (id 1) and `bacca` (id 2) -/
def RCut : Rules := ⟨[[rLazy.1, rule [tSet 98 98, tSet 97 97, tSet 99 99, tSet 99 99, tSet 97 97] 2]], [0], 0, false, false⟩

/-- `bacca` -/
def reBacca : Re :=
  .seq (.seq (.seq (.seq (.chars [(98, 98)]) (.chars [(97, 97)])) (.chars [(99, 99)])) (.chars [(99, 99)])) (.chars [(97, 97)])

end Ex

/-- Rules that are not eager can be cut short: `bacca` matches all of "bacca", but "bac" is
reported, with the id of `b[a-c]*?c`. -/
theorem C50_others_cut : ∃ r', Returns Ex.fAll 65535 1 (Ex.machine Ex.RCut) [98, 97, 99, 99, 97] (.mk' 65535 0 5) (.ok r') ∧
    r'.id = 1 ∧ r'.first = 0 ∧ r'.second = 3 ∧
    Denotes (Ex.rule [Ex.tSet 98 98, Ex.tSet 97 97, Ex.tSet 99 99, Ex.tSet 99 99, Ex.tSet 97 97] 2).regex (some Ex.reBacca) ∧
    Ex.reBacca.Matches (text [98, 97, 99, 99, 97] 0 5) ∧ Ex.reBacca.greedy = true ∧ Ex.reBacca.eager = false := by
  have h : ((lookupFuel Ex.fAll 65535 1 (Ex.machine Ex.RCut) [98, 97, 99, 99, 97] 5 (.mk' 65535 0 5)).toOption.map
      fun r' => (r'.id, r'.first, r'.second)) = some (1, 0, 3) := by
    decide +kernel
  generalize hl : lookupFuel _ _ _ _ _ _ _ = o at h
  cases o with
  | error e => simp [Except.toOption] at h
  | ok r' =>
    simp [Except.toOption] at h
    have one : ∀ c, (Re.chars [(c, c)]).Matches [.ch c] := fun c => ⟨c, ⟨(c, c), by simp⟩, rfl⟩
    refine ⟨r', ⟨by simp, 5, hl⟩, h.1, h.2.1, h.2.2, ?_, ?_, rfl, rfl⟩
    · exact .re Ex.tBegin Ex.tEnd [Ex.tSet 98 98, Ex.tSet 97 97, Ex.tSet 99 99, Ex.tSet 99 99, Ex.tSet 97 97] _ rfl rfl
        (.alt1 _ _ (.seq [Ex.tSet 98 98, Ex.tSet 97 97, Ex.tSet 99 99, Ex.tSet 99 99] [Ex.tSet 97 97] _ _
          (.seq [Ex.tSet 98 98, Ex.tSet 97 97, Ex.tSet 99 99] [Ex.tSet 99 99] _ _
            (.seq [Ex.tSet 98 98, Ex.tSet 97 97] [Ex.tSet 99 99] _ _
              (.seq [Ex.tSet 98 98] [Ex.tSet 97 97] _ _ (.seq1 _ _ (.item _ _ (.charset _ _))) (.item _ _ (.charset _ _)))
              (.item _ _ (.charset _ _)))
            (.item _ _ (.charset _ _)))
          (.item _ _ (.charset _ _))))
    · exact ⟨[.ch 98, .ch 97, .ch 99, .ch 99], [.ch 97], rfl,
        ⟨[.ch 98, .ch 97, .ch 99], [.ch 99], rfl,
          ⟨[.ch 98, .ch 97], [.ch 99], rfl, ⟨[.ch 98], [.ch 97], rfl, one _, one _⟩, one _⟩, one _⟩, one _⟩

end Lexertl.Props
