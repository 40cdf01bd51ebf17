import Verif.Proofs.EncScan
import Verif.Props.Eol

/-
Property C56: rules such as `/\*(.|\n)*?\*/`: an opening text, anything repeated
non-greedily, a closing text.
-/
namespace Lexertl.Props
open Spec

/-- Rule `x`, number `j` of the rules `xs`, is a rule `e` for an enclosed text, and from
`p` on its first match ends at `k`: it matches the text up to `k`; no rule with a
non-greedy operator matches a shorter text; and no other rule matches a text that starts
with the text up to `k`. -/
structure ClosedAt (xs : List SRule) (inp : List Nat) (p eoi k j : Nat) (x : SRule) (e : Re) : Prop where
  rule : xs[j]? = some x
  re : x.2 = some e
  enclosed : Enclosed e
  pos : p < k
  inside : k ≤ eoi
  hit : RMatches x.2 (text inp p k)
  first : ∀ y ∈ xs, ¬ AllGreedy y.2 → ∀ k', p ≤ k' → k' < k → ¬ RMatches y.2 (text inp p k')
  alone : ∀ i y w, i ≠ j → xs[i]? = some y → ¬ RMatches y.2 (text inp p k ++ w)

/-- The lexer state `s` has no rule with `^`. -/
def NoBolState (R : Rules) (s : Nat) : Prop := ∀ n, R.features[s]? = some n → n % 2 = 0

theorem noBolState_iff {R : Rules} {s : Nat} : NoBolState R s → stateBol R.features s = false := by
  intro h
  unfold stateBol hasBit
  cases hn : R.features[s]? with
  | none => rfl
  | some n => simp [h n hn]

/-- What the call does first: it accepts the rule with the text up to `k`. -/
theorem closed_step {tr : Traits} {R : Rules} {xss : List (List SRule)} {f : Flags} {inp : List Nat} {sm : Internals}
    (B : BuiltAny tr R xss f inp sm) (hc : tr.compressed = false) {r : Results}
    (hr : ROk ⟨xss, tr.npos, R.eoi, f, inp⟩ r) (hb : NoBolState R r.state) {xs : List SRule} (hxs : xss[r.state]? = some xs)
    {k j : Nat} {x : SRule} {e : Re} (C : ClosedAt xs inp r.second r.eoi k j x e)
    (hpop : f.recursive = false ∨ x.1.popDfa = false) :
    ∃ r1, LexEnv.accept ⟨xss, tr.npos, R.eoi, f, inp⟩ x.1 { r with first := r.second } k x.1.nextDfa (inp[k - 1]? == some 10) = .ok r1 ∧
      ∀ fuel, lookupFuel f tr.npos (bytesOf tr) sm inp (fuel + 1) r =
        if x.1.id = tr.npos - 1 then nextLoop f tr.npos (bytesOf tr) sm inp fuel { r1 with first := k } k k
        else if x.1.id = R.eoi then nextLoop f tr.npos (bytesOf tr) sm inp fuel r1 k k
        else .ok { r1 with id := x.1.id, userId := x.1.userId } := by
  have hbytes : bytesOf tr = 1 := by simp [bytesOf, hc]
  obtain ⟨addr, hbt⟩ := B.built
  have I := Enc.build_impl B.wide hc B.rules hbt f inp B.chars
  have hsb := noBolState_iff hb
  have hnb : ∀ x ∈ xs, NoBol x.2 := fun x hx => (rNoBol_iff _).1 (Line.stateBol_of B.rules hxs hsb x hx)
  have hacc : ∃ r1, LexEnv.accept ⟨xss, tr.npos, R.eoi, f, inp⟩ x.1 { r with first := r.second } k x.1.nextDfa
      (inp[k - 1]? == some 10) = .ok r1 := by
    unfold LexEnv.accept
    rw [if_neg (by rintro ⟨h1, h2⟩; rcases hpop with h | h <;> simp_all)]
    exact ⟨_, rfl⟩
  obtain ⟨r1, ha⟩ := hacc
  refine ⟨r1, ha, fun fuel => ?_⟩
  rw [hbytes]
  have hp : r.second < r.eoi := by have := C.pos; have := C.inside; omega
  unfold lookupFuel
  rcases Line.nextLoop_step I { r with first := r.second } r.second fuel ⟨hr.state, hr.stack, hr.eoi⟩ hp with
    ⟨y, k', next, b, ⟨h1, h2⟩, h3⟩ | ⟨c, h1, _⟩
  · obtain ⟨rfl, rfl, rfl, rfl⟩ := Enc.pick_unique h1 h2 hsb hxs hnb C.rule C.re C.enclosed C.pos C.inside C.hit C.first C.alone
    rcases h3 with ⟨e', h3, _⟩ | ⟨r', h3, h4⟩
    · rw [ha] at h3; cases h3
    · rw [ha] at h3; cases h3
      have hcont : LexEnv.continues ⟨xss, tr.npos, R.eoi, f, inp⟩ y.1 r1 ↔ y.1.id = R.eoi := by
        constructor
        · rintro (h | ⟨g1, g2, _⟩)
          · exact h
          · rcases hpop with h | h <;> simp_all
        · exact .inl
      rw [hcont] at h4
      rcases h4 with ⟨g1, g2⟩ | ⟨g1, g2, g3⟩ | ⟨g1, g2, g3⟩
      · rw [if_pos g1]; exact g2
      · rw [if_neg g1, if_pos g2]; exact g3
      · rw [if_neg g1, if_neg g2]; exact g3
  · exact absurd h1 (Enc.not_unmatched hxs hnb (List.mem_of_getElem? C.rule) C.pos C.inside C.hit)

/-- C56: a rule for an enclosed text ends at its first match: the call reports exactly
the text up to `k`. -/
theorem C56_ends_at_first_closing {tr : Traits} {R : Rules} {xss : List (List SRule)} {f : Flags} {inp : List Nat} {sm : Internals}
    (B : BuiltAny tr R xss f inp sm) (hc : tr.compressed = false) {r : Results}
    (hr : ROk ⟨xss, tr.npos, R.eoi, f, inp⟩ r) (hb : NoBolState R r.state) {xs : List SRule} (hxs : xss[r.state]? = some xs)
    {k j : Nat} {x : SRule} {e : Re} (C : ClosedAt xs inp r.second r.eoi k j x e)
    (hpop : f.recursive = false ∨ x.1.popDfa = false) (hskip : x.1.id ≠ tr.npos - 1) (hcont : x.1.id ≠ R.eoi) :
    ∃ r', (∀ o, Returns f tr.npos (bytesOf tr) sm inp r o ↔ o = .ok r') ∧ r'.first = r.second ∧ r'.second = k ∧
      r'.id = x.1.id ∧ r'.userId = x.1.userId ∧ r'.eoi = r.eoi ∧ r'.state = if f.multiState then x.1.nextDfa else r.state := by
  obtain ⟨r1, ha, hs⟩ := closed_step B hc hr hb hxs C hpop
  obtain ⟨a1, a2, a3, _⟩ := accept_fields ha
  have h1 : Returns f tr.npos (bytesOf tr) sm inp r (.ok { r1 with id := x.1.id, userId := x.1.userId }) := by
    refine ⟨by simp, 1, ?_⟩
    rw [hs 0, if_neg hskip, if_neg hcont]
  refine ⟨_, fun o => ⟨fun h => returns_unique h h1, fun h => by rw [h]; exact h1⟩, a1, a2, rfl, rfl, a3, ?_⟩
  unfold LexEnv.accept at ha
  rw [if_neg (by rintro ⟨h1, h2⟩; rcases hpop with h | h <;> simp_all)] at ha
  cases ha
  rfl

/-- C56: if the rule's text is skipped, the call goes on at its end: it does what a call
from there does. -/
theorem C56_skipped_to_first_closing {tr : Traits} {R : Rules} {xss : List (List SRule)} {f : Flags} {inp : List Nat} {sm : Internals}
    (B : BuiltAny tr R xss f inp sm) (hc : tr.compressed = false) {r : Results}
    (hr : ROk ⟨xss, tr.npos, R.eoi, f, inp⟩ r) (hb : NoBolState R r.state) {xs : List SRule} (hxs : xss[r.state]? = some xs)
    {k j : Nat} {x : SRule} {e : Re} (C : ClosedAt xs inp r.second r.eoi k j x e)
    (hpop : f.recursive = false ∨ x.1.popDfa = false) (hskip : x.1.id = tr.npos - 1) :
    ∃ r1, (∀ o, Returns f tr.npos (bytesOf tr) sm inp r o ↔ Returns f tr.npos (bytesOf tr) sm inp r1 o) ∧
      r1.second = k ∧ r1.eoi = r.eoi ∧ r1.state = (if f.multiState then x.1.nextDfa else r.state) ∧
      (f.bol = true → r1.bol = (inp[k - 1]? == some 10)) ∧
      (f.recursive = false ∨ x.1.pushDfa = tr.npos → r1.stack = r.stack) := by
  obtain ⟨r1, ha, hs⟩ := closed_step B hc hr hb hxs C hpop
  obtain ⟨a1, a2, a3, _⟩ := accept_fields ha
  have key : ∀ fuel, lookupFuel f tr.npos (bytesOf tr) sm inp (fuel + 1) r = lookupFuel f tr.npos (bytesOf tr) sm inp fuel r1 := by
    intro fuel
    rw [hs, if_pos hskip]
    unfold lookupFuel
    rw [a2]
  refine ⟨r1, fun o => ⟨?_, ?_⟩, a2, a3, ?_⟩
  · rintro ⟨h1, n, h2⟩
    cases n with
    | zero =>
      refine absurd ?_ h1
      rw [← h2]
      rfl
    | succ n => exact ⟨h1, n, by rw [← key]; exact h2⟩
  · rintro ⟨h1, n, h2⟩
    exact ⟨h1, n + 1, by rw [key]; exact h2⟩
  · unfold LexEnv.accept at ha
    rw [if_neg (by rintro ⟨h1, h2⟩; rcases hpop with h | h <;> simp_all)] at ha
    cases ha
    refine ⟨rfl, fun h => by simp [h], fun h => ?_⟩
    show (if _ then _ else _) = _
    rw [if_neg]
    rintro ⟨h1, h2⟩
    rcases h with h | h <;> simp_all

/-! What a rule for an enclosed text matches. -/

/-- `w` has one character out of each of the charsets, in order. -/
def Fits : List (List (Nat × Nat)) → List Sym → Prop
  | [], w => w = []
  | t :: ts, w => ∃ c v, w = .ch c :: v ∧ Mem c t ∧ Fits ts v

/-- Words of a sequence of expressions. -/
def MatchesAll : List Re → List Sym → Prop
  | [], w => w = []
  | q :: qs, w => ∃ u v, w = u ++ v ∧ q.Matches u ∧ MatchesAll qs v

theorem matchesAll_append : ∀ (a b : List Re) (w : List Sym), MatchesAll (a ++ b) w ↔
    ∃ u v, w = u ++ v ∧ MatchesAll a u ∧ MatchesAll b v
  | [], b, w => by
    constructor
    · intro h; exact ⟨[], w, rfl, rfl, h⟩
    · rintro ⟨u, v, rfl, rfl, h⟩; exact h
  | q :: a, b, w => by
    constructor
    · rintro ⟨u, v, rfl, h1, h2⟩
      obtain ⟨u', v', rfl, h3, h4⟩ := (matchesAll_append a b v).1 h2
      exact ⟨u ++ u', v', by simp, ⟨u, u', rfl, h1, h3⟩, h4⟩
    · rintro ⟨u, v, rfl, ⟨u1, u2, rfl, h1, h2⟩, h3⟩
      exact ⟨u1, u2 ++ v, by simp, h1, (matchesAll_append a b _).2 ⟨u2, v, rfl, h2, h3⟩⟩

theorem matches_parts : ∀ (r : Re) (w : List Sym), r.Matches w ↔ MatchesAll r.parts w := by
  have one : ∀ (q : Re) (w : List Sym), q.Matches w ↔ MatchesAll [q] w := by
    intro q w
    constructor
    · intro h; exact ⟨w, [], by simp, h, rfl⟩
    · rintro ⟨u, v, rfl, h, rfl⟩; simpa using h
  intro r
  induction r with
  | seq l r ihl ihr =>
    intro w
    show _ ↔ MatchesAll (l.parts ++ r.parts) w
    rw [matchesAll_append]
    constructor
    · rintro ⟨u, v, rfl, h1, h2⟩
      exact ⟨u, v, rfl, (ihl u).1 h1, (ihr v).1 h2⟩
    · rintro ⟨u, v, rfl, h1, h2⟩
      exact ⟨u, v, rfl, (ihl u).2 h1, (ihr v).2 h2⟩
  | _ => intro w; exact one _ w

theorem matchesAll_chars : ∀ (ts : List (List (Nat × Nat))) (w : List Sym), MatchesAll (ts.map .chars) w ↔ Fits ts w
  | [], w => Iff.rfl
  | t :: ts, w => by
    constructor
    · rintro ⟨u, v, rfl, ⟨c, h1, rfl⟩, h2⟩
      exact ⟨c, v, rfl, h1, (matchesAll_chars ts v).1 h2⟩
    · rintro ⟨c, v, rfl, h1, h2⟩
      exact ⟨[.ch c], v, rfl, ⟨c, h1, rfl⟩, (matchesAll_chars ts v).2 h2⟩

theorem sets_matches : ∀ (s : Re) {ss}, s.sets = some ss → ∀ (w : List Sym), s.Matches w ↔ ∃ c, w = [.ch c] ∧ ∃ t ∈ ss, Mem c t
  | .chars t, ss, h, w => by
    cases h
    constructor
    · rintro ⟨c, h1, rfl⟩; exact ⟨c, rfl, t, by simp, h1⟩
    · rintro ⟨c, rfl, t', h1, h2⟩
      simp only [List.mem_singleton] at h1
      subst h1
      exact ⟨c, h2, rfl⟩
  | .alt l r, ss, h, w => by
    simp only [Re.sets] at h
    split at h
    · rename_i a b h1 h2
      cases h
      have e1 := sets_matches l h1 w
      have e2 := sets_matches r h2 w
      constructor
      · rintro (h | h)
        · obtain ⟨c, rfl, t, g1, g2⟩ := e1.1 h
          exact ⟨c, rfl, t, by simp [g1], g2⟩
        · obtain ⟨c, rfl, t, g1, g2⟩ := e2.1 h
          exact ⟨c, rfl, t, by simp [g1], g2⟩
      · rintro ⟨c, rfl, t, g1, g2⟩
        rcases List.mem_append.1 g1 with g1 | g1
        · exact .inl (e1.2 ⟨c, rfl, t, g1, g2⟩)
        · exact .inr (e2.2 ⟨c, rfl, t, g1, g2⟩)
    · cases h
  | .bol, _, h, _ => by cases h
  | .eol, _, h, _ => by cases h
  | .seq _ _, _, h, _ => by cases h
  | .opt _ _, _, h, _ => by cases h
  | .star _ _, _, h, _ => by cases h
  | .plus _ _, _, h, _ => by cases h
  | .rep _ _ _ _, _, h, _ => by cases h

theorem star_chars {L : List Sym → Prop} {P : Nat → Prop} (hL : ∀ w, L w ↔ ∃ c, w = [.ch c] ∧ P c) :
    ∀ (w : List Sym), (∃ n, Pow L n w) ↔ ∃ cs : List Nat, w = cs.map .ch ∧ ∀ c ∈ cs, P c := by
  intro w
  constructor
  · rintro ⟨n, h⟩
    induction n generalizing w with
    | zero =>
      exact ⟨[], h, by simp⟩
    | succ n ih =>
      obtain ⟨u, v, rfl, h1, h2⟩ := h
      obtain ⟨c, rfl, hc⟩ := (hL u).1 h1
      obtain ⟨cs, rfl, hcs⟩ := ih v h2
      exact ⟨c :: cs, rfl, by simpa using ⟨hc, hcs⟩⟩
  · rintro ⟨cs, rfl, h⟩
    induction cs with
    | nil => exact ⟨0, rfl⟩
    | cons c cs ih =>
      obtain ⟨n, hn⟩ := ih fun c hc => h c (by simp [hc])
      exact ⟨n + 1, [.ch c], cs.map .ch, rfl, (hL _).2 ⟨c, rfl, h c (by simp)⟩, hn⟩

/-- C56: what such a rule matches: the opening text, any characters of the middle set,
the closing text. -/
theorem C56_matches {r s : Re} {us vs ss : List (List (Nat × Nat))} (hs : s.sets = some ss)
    (hr : r.parts = us.map .chars ++ .star s true :: vs.map .chars) (w : List Sym) :
    RMatches (some r) w ↔ ∃ (a c : List Sym) (cs : List Nat), w = a ++ cs.map .ch ++ c ∧ Fits us a ∧
      (∀ d ∈ cs, ∃ t ∈ ss, Mem d t) ∧ Fits vs c := by
  show r.Matches w ↔ _
  rw [matches_parts, hr, matchesAll_append]
  constructor
  · rintro ⟨a, v, rfl, h1, u, c, rfl, h2, h3⟩
    obtain ⟨cs, rfl, h4⟩ := (star_chars (sets_matches s hs) u).1 h2
    exact ⟨a, c, cs, by simp, (matchesAll_chars _ _).1 h1, h4, (matchesAll_chars _ _).1 h3⟩
  · rintro ⟨a, c, cs, rfl, h1, h2, h3⟩
    exact ⟨a, cs.map .ch ++ c, by simp, (matchesAll_chars _ _).2 h1, cs.map .ch, c, rfl,
      (star_chars (sets_matches s hs) _).2 ⟨cs, rfl, h2⟩, (matchesAll_chars _ _).2 h3⟩

/-! Example: the rule `[/][*](.|\n)*?[*][/]`, skipped, and the rule `[/]`. -/
namespace Ex

/-- `.|\n` -/
def reAny : Re := .alt (.chars [(0, 9), (11, 255)]) (.chars [(10, 10)])

def reComment : Re :=
  .seq (.seq (.seq (.seq (.chars [(47, 47)]) (.chars [(42, 42)])) (.star reAny true)) (.chars [(42, 42)])) (.chars [(47, 47)])

def tDot : Tok := ⟨.charset, [], [(0, 9), (11, 255)]⟩

def tsAny : List Tok := [⟨.openparen, [], []⟩, tDot, ⟨.or_, [], []⟩, tSet 10 10, ⟨.closeparen, [], []⟩]

def rComment (id : Nat) : SRule :=
  (rule ([tSet 47 47] ++ [tSet 42 42] ++ (tsAny ++ [⟨.azeroormore, [], []⟩]) ++ [tSet 42 42] ++ [tSet 47 47]) id, some reComment)

def rulesComment (id : Nat) : List SRule := [chr 47 2, rComment id]

def RComment (id : Nat) : Rules := ⟨[(rulesComment id).map (·.1)], [0], 0, false, false⟩

theorem derAny : Derives .atom tsAny reAny :=
  .paren _ _ [tDot, ⟨.or_, [], []⟩, tSet 10 10] _ rfl rfl
    (.alt [tDot] [tSet 10 10] _ _ _ rfl (.alt1 _ _ (.seq1 _ _ (.item _ _ (.charset _ _)))) (.seq1 _ _ (.item _ _ (.charset _ _))))

theorem derComment : Derives .alt ([tSet 47 47] ++ [tSet 42 42] ++ (tsAny ++ [⟨.azeroormore, [], []⟩]) ++ [tSet 42 42] ++ [tSet 47 47])
    reComment := by
  refine .alt1 _ _ (.seq _ [tSet 47 47] _ _ ?_ (.item _ _ (.charset _ _)))
  refine .seq _ [tSet 42 42] _ _ ?_ (.item _ _ (.charset _ _))
  refine .seq ([tSet 47 47] ++ [tSet 42 42]) _ _ _ ?_ (.postfix_ _ _ _ _ derAny (.astar _ _ _))
  exact .seq [tSet 47 47] [tSet 42 42] _ _ (.seq1 _ _ (.item _ _ (.charset _ _))) (.item _ _ (.charset _ _))

theorem anyComment (id : Nat) : AnyRules tr (RComment id) [rulesComment id] where
  states := rfl
  den := by
    simp only [rulesComment, List.mem_cons, List.not_mem_nil, or_false, forall_eq_or_imp, forall_eq]
    refine ⟨(one_chr (tr := tr) (by decide) ..).den, ?_⟩
    exact .re tBegin tEnd _ _ rfl rfl derComment
  sets := by
    have key : ∀ t ∈ [[(47, 47)], [(42, 42)], [(0, 9), (11, 255)], [(10, 10)]], Normal t ∧ t ≠ [] ∧ Within (charsOf tr - 1) t ∧
        (tr.compressed = true → tr.char24 = true → ∀ x ∈ t, FewPlanes x) := by
      simp only [List.mem_cons, List.not_mem_nil, or_false, forall_eq_or_imp, forall_eq]
      refine ⟨?_, ?_, ?_, ?_⟩ <;> exact ⟨by decide, by decide, by decide, fun h => by cases h⟩
    simp only [rulesComment, rComment, reComment, reAny, chr, List.mem_cons, List.not_mem_nil, or_false, forall_eq_or_imp, forall_eq, CharSets, Re.AllChars]
    simp only [List.mem_cons, List.not_mem_nil, or_false, forall_eq_or_imp, forall_eq] at key
    obtain ⟨k1, k2, k3, k4⟩ := key
    exact ⟨k1, ⟨⟨⟨k1, k2⟩, k3, k4⟩, k2⟩, k1⟩
  bolHead := by
    simp only [rulesComment, List.mem_cons, List.not_mem_nil, or_false, forall_eq_or_imp, forall_eq]
    exact ⟨rfl, rfl⟩
  dollar := by
    intro xs hxs
    simp only [List.mem_singleton] at hxs
    subst hxs
    left
    simp only [rulesComment, List.mem_cons, List.not_mem_nil, or_false, forall_eq_or_imp, forall_eq]
    exact ⟨rfl, rfl⟩
  lazy := by
    intro xs hxs
    simp only [List.mem_singleton] at hxs
    subst hxs
    left
    simp only [rulesComment, List.mem_cons, List.not_mem_nil, or_false, forall_eq_or_imp, forall_eq]
    exact ⟨rfl, rfl⟩
  count := by
    intro xs hxs
    simp only [List.mem_singleton] at hxs
    subst hxs
    exact (by decide : ((rulesComment 0).map fun x => setsOf tr x.2 + 2 * dollarsOf x.2).sum + 2 ≤ tr.npos)
  bolBit := by
    intro i xs hxs ⟨x, hx, hn⟩
    have hxs := List.mem_of_getElem? hxs
    simp only [List.mem_singleton] at hxs
    subst hxs
    simp only [rulesComment, List.mem_cons, List.not_mem_nil, or_false] at hx
    rcases hx with rfl | rfl <;> exact absurd rfl hn

theorem encComment : Enclosed reComment :=
  ⟨[[(47, 47)], [(42, 42)]], [[(42, 42)], [(47, 47)]], _, reAny, by simp, by simp, rfl, rfl, by
    simp only [List.mem_cons, List.not_mem_nil, or_false, forall_eq_or_imp, forall_eq]
    refine ⟨.inl fun c hc => ⟨[(0, 9), (11, 255)], by simp, ?_⟩, .inl fun c hc => ⟨[(0, 9), (11, 255)], by simp, ?_⟩⟩ <;>
    · simp [Mem] at hc ⊢
      omega⟩

theorem comment_iff (w : List Sym) : RMatches (some reComment) w ↔
    ∃ cs : List Nat, w = [.ch 47, .ch 42] ++ cs.map .ch ++ [.ch 42, .ch 47] ∧ ∀ c ∈ cs, c ≤ 255 := by
  rw [C56_matches (us := [[(47, 47)], [(42, 42)]]) (vs := [[(42, 42)], [(47, 47)]]) (s := reAny) rfl rfl]
  have one : ∀ (a b : Nat) (u : List Sym), Fits [[(a, a)], [(b, b)]] u ↔ u = [.ch a, .ch b] := by
    intro a b u
    have hm : ∀ c d : Nat, Mem c [(d, d)] ↔ c = d := by
      intro c d
      simp [Mem]
      omega
    simp only [Fits, hm]
    constructor
    · rintro ⟨_, _, rfl, rfl, _, _, rfl, rfl, rfl⟩; rfl
    · rintro rfl; exact ⟨_, _, rfl, rfl, _, _, rfl, rfl, rfl⟩
  have any : ∀ d : Nat, (∃ t ∈ [[(0, 9), (11, 255)], [(10, 10)]], Mem d t) ↔ d ≤ 255 := by
    intro d
    simp only [Mem, List.mem_cons, List.not_mem_nil, or_false, exists_eq_or_imp, exists_eq_left]
    omega
  constructor
  · rintro ⟨a, c, cs, rfl, h1, h2, h3⟩
    rw [one] at h1 h3
    subst h1 h3
    exact ⟨cs, rfl, fun d hd => (any d).1 (h2 d hd)⟩
  · rintro ⟨cs, rfl, h⟩
    exact ⟨_, _, cs, rfl, (one _ _ _).2 rfl, fun d hd => (any d).2 (h d hd), (one _ _ _).2 rfl⟩

/-- `/***/*/` -/
def inpComment : List Nat := [47, 42, 42, 42, 47, 42, 47]

theorem closedComment (id : Nat) : ClosedAt (rulesComment id) inpComment 0 7 5 1 (rComment id) reComment where
  rule := rfl
  re := rfl
  enclosed := encComment
  pos := by decide
  inside := by decide
  hit := (comment_iff _).2 ⟨[42], rfl, by simp⟩
  first := by
    simp only [rulesComment, List.mem_cons, List.not_mem_nil, or_false, forall_eq_or_imp, forall_eq]
    refine ⟨fun h => absurd rfl h, fun _ k' _ hk h => ?_⟩
    obtain ⟨cs, h1, _⟩ := (comment_iff _).1 h
    have hl := congrArg List.length h1
    have h3 := congrArg (fun l : List Sym => l[3]?) h1
    have : k' = 0 ∨ k' = 1 ∨ k' = 2 ∨ k' = 3 ∨ k' = 4 := by omega
    rcases this with rfl | rfl | rfl | rfl | rfl <;> simp [text, inpComment] at hl h3
    subst hl
    simp at h3
  alone := by
    intro i y w hi hy h
    match i, hi, hy with
    | 0, _, hy =>
      cases hy
      have := chr_iff.1 h
      simp [text, inpComment] at this
    | 1, hi, _ => exact hi rfl
    | i + 2, _, hy => simp [rulesComment] at hy

theorem builtComment (id : Nat) (h : (buildTemp tr (fun n => n) (RComment id)).isOk = true) :
    BuiltAny tr (RComment id) [rulesComment id] fAll inpComment (machine (RComment id)) :=
  ⟨by decide, anyComment id, ⟨by
    intro xs hxs x hx
    simp only [List.mem_singleton] at hxs
    subst hxs
    simp only [rulesComment, List.mem_cons, List.not_mem_nil, or_false] at hx
    rcases hx with rfl | rfl <;> exact .inr Nat.zero_lt_one, by
    intro xs hxs x hx
    simp only [List.mem_singleton] at hxs
    subst hxs
    simp only [rulesComment, List.mem_cons, List.not_mem_nil, or_false] at hx
    rcases hx with rfl | rfl <;> exact fun h => absurd rfl h⟩, ⟨_, machine_ok h⟩, by decide⟩

end Ex

/-- The hypotheses of `C56_ends_at_first_closing` are met: the first token of `/***/*/`
ends after the first `*/`. -/
example : ∃ r', (∀ o, Returns Ex.fAll Ex.tr.npos 1 (Ex.machine (Ex.RComment 1)) Ex.inpComment (.mk' 65535 0 7) o ↔ o = .ok r') ∧
    r'.first = 0 ∧ r'.second = 5 ∧ r'.id = 1 := by
  obtain ⟨r', h1, h2, h3, h4, _⟩ := C56_ends_at_first_closing (Ex.builtComment 1 (by decide +kernel)) rfl
    (r := .mk' 65535 0 7) ⟨by decide, by decide, by decide⟩ (by intro n h; cases h; rfl) (xs := Ex.rulesComment 1) rfl
    (Ex.closedComment 1) (.inr rfl) (by decide) (by decide)
  exact ⟨r', h1, h2, h3, h4⟩

/-- The hypotheses of `C56_skipped_to_first_closing` are met: the call skips the comment, and
does what a call after it does. -/
example : ∃ r1, (∀ o, Returns Ex.fAll Ex.tr.npos 1 (Ex.machine (Ex.RComment 65534)) Ex.inpComment (.mk' 65535 0 7) o ↔
      Returns Ex.fAll Ex.tr.npos 1 (Ex.machine (Ex.RComment 65534)) Ex.inpComment r1 o) ∧ r1.second = 5 ∧ r1.bol = false := by
  obtain ⟨r1, h1, h2, _, _, h5, _⟩ := C56_skipped_to_first_closing (Ex.builtComment 65534 (by decide +kernel)) rfl
    (r := .mk' 65535 0 7) ⟨by decide, by decide, by decide⟩ (by intro n h; cases h; rfl) (xs := Ex.rulesComment 65534) rfl
    (Ex.closedComment 65534) (.inr rfl) rfl
  exact ⟨r1, h1, h2, h5 rfl⟩

end Lexertl.Props
