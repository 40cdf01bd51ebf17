import Verif.Proofs.LexG
import Verif.Props.Lexing
import Verif.Props.Wide

/-
Properties C35 and C50: rules that end in `$`, and rules with non-greedy operators.
-/
namespace Lexertl.Props
open Spec

theorem lexWith_not_fuel {E : LexEnv} {Ch : Results → Nat → SRule → Nat → Nat → Bool → Prop} {No : Results → Nat → Prop}
    {r : Results} {p : Nat} {o : Lexertl.M Results} (h : E.LexWith Ch No r p o) : o ≠ .error .fuel := by
  induction h with
  | eoi | none | token => simp
  | throw r p x k next b e hp h1 h2 =>
    unfold LexEnv.accept at h2
    split at h2
    · split at h2
      · injection h2 with h2
        subst h2
        simp
      · cases h2
    · cases h2
  | skip _ _ _ _ _ _ _ _ _ _ _ _ _ ih => exact ih
  | again _ _ _ _ _ _ _ _ _ _ _ _ _ _ ih => exact ih

/-- C35 and C50: every outcome of a call of `lookup` on a machine built from rules with
`$` and non-greedy operators is one the specification allows. -/
theorem C35_lookup_allowed_partial {tr : Traits} {R : Rules} {xss : List (List SRule)} {f : Flags} {inp : List Nat}
    {sm : Internals} (B : BuiltAny tr R xss f inp sm) {r : Results} (hp : r.second ≤ r.eoi)
    (hr : ROk ⟨xss, tr.npos, R.eoi, f, inp⟩ r) {o : M Results} (h : Returns f tr.npos (bytesOf tr) sm inp r o) :
    LexEnv.LexAny ⟨xss, tr.npos, R.eoi, f, inp⟩ { r with first := r.second } r.second o := by
  obtain ⟨addr, hb⟩ := B.built
  obtain ⟨h1, n, rfl⟩ := h
  exact Line.nextLoop_sound (Line.build_impl B.wide B.rules hb f inp B.chars) (Line.picks_choice _) B.states n
    { r with first := r.second } r.second ⟨hr.state, hr.stack, hr.eoi⟩ hp h1

/-- C35: without non-greedy operators the specification determines the call. -/
theorem C35_lookup_refines_partial {tr : Traits} {R : Rules} {xss : List (List SRule)} {f : Flags} {inp : List Nat}
    {sm : Internals} (B : BuiltAny tr R xss f inp sm) (hg : ∀ xs ∈ xss, ∀ x ∈ xs, AllGreedy x.2)
    {r : Results} (hp : r.second ≤ r.eoi)
    (hr : ROk ⟨xss, tr.npos, R.eoi, f, inp⟩ r) (o : M Results) : Returns f tr.npos (bytesOf tr) sm inp r o ↔
    LexEnv.LexAny ⟨xss, tr.npos, R.eoi, f, inp⟩ { r with first := r.second } r.second o := by
  refine ⟨C35_lookup_allowed_partial B hp hr, fun h => ?_⟩
  obtain ⟨addr, hb⟩ := B.built
  obtain ⟨N, hN⟩ := Line.nextLoop_complete (Line.build_impl B.wide B.rules hb f inp B.chars) (Line.picks_choice _)
    (fun _ h h' => Line.picks_unique hg h h') (fun h h' => Line.picks_unmatched h h') B.states h
    ⟨hr.state, hr.stack, hr.eoi⟩
  exact ⟨lexWith_not_fuel h, N, hN N (Nat.le_refl _)⟩

/-- How the text from `p` to `k` is matched by the rule `e`: for a rule `l$`, by `l`, in
front of the end of a line; for other rules, by the rule itself. -/
def MatchedAs (dollar atLine : Bool) (e : Option Re) (inp : List Nat) (p k eoi : Nat) : Prop :=
  match e with
  | some (.seq l .eol) => dollar = true ∧ LineEnd inp eoi k ∧ LineMatch atLine (some l) (text inp p k)
  | e => LineMatch atLine e (text inp p k) ∨ (p = k ∧ RMatches e [])

theorem dollar_iff {l : Re} {w : List Sym} : RMatches (some (.seq l .eol)) w ↔ ∃ u, w = u ++ [.eol] ∧ RMatches (some l) u := by
  constructor
  · rintro ⟨u, v, rfl, h1, h2⟩
    cases h2
    exact ⟨u, rfl, h1⟩
  · rintro ⟨u, rfl, h⟩
    exact ⟨u, [.eol], rfl, h, rfl⟩

theorem dollar_line {l : Re} {b : Bool} {w : List Sym} :
    LineMatch b (some (.seq l .eol)) (w ++ [.eol]) ↔ LineMatch b (some l) w := by
  have h1 : ∀ v, RMatches (some (.seq l .eol)) (v ++ [.eol]) ↔ RMatches (some l) v := by
    intro v
    rw [dollar_iff]
    constructor
    · rintro ⟨u, h, hu⟩
      rw [List.append_left_inj] at h
      exact h ▸ hu
    · intro h
      exact ⟨v, rfl, h⟩
  have h2 : (∃ v, RMatches (some (.seq l .eol)) (.bol :: v)) ↔ ∃ v, RMatches (some l) (.bol :: v) := by
    constructor
    · rintro ⟨v, h⟩
      obtain ⟨u, h, hu⟩ := dollar_iff.1 h
      cases u with
      | nil => simp at h
      | cons s u =>
        simp only [List.cons_append, List.cons.injEq] at h
        exact ⟨u, h.1 ▸ hu⟩
    · rintro ⟨v, h⟩
      exact ⟨v ++ [Sym.eol], (h1 (.bol :: v)).2 h⟩
  unfold LineMatch
  rw [h2, h1, ← List.cons_append, h1]

theorem text_noEol (inp : List Nat) (p k : Nat) : Sym.eol ∉ text inp p k := by
  unfold text
  intro h
  obtain ⟨c, _, h⟩ := List.mem_map.1 h
  cases h

theorem picks_matchedAs {E : LexEnv} (hform : ∀ xs ∈ E.rules, ∀ x ∈ xs, NoEol x.2 ∨ EndsDollar x.2) {r : Results} {p : Nat}
    {x : SRule} {k next : Nat} {b : Bool} (h : E.Picks r p x k next b) :
    MatchedAs E.flags.eol (E.atLine r) x.2 E.inp p k r.eoi := by
  have plain : ∀ {w : List Sym}, Sym.eol ∉ w → LineMatch (E.atLine r) x.2 w ∨ RMatches x.2 w →
      ∀ l, x.2 ≠ some (.seq l .eol) := by
    intro w hw h l hl
    rw [hl] at h
    have : ∃ w', Sym.eol ∉ w' ∧ RMatches (some (.seq l .eol)) w' := by
      rcases h with (h | h) | h
      · exact ⟨_, by simp [hw], h.2⟩
      · exact ⟨_, hw, h.2⟩
      · exact ⟨_, hw, h⟩
    obtain ⟨w', h1, h2⟩ := this
    obtain ⟨u, rfl, _⟩ := dollar_iff.1 h2
    simp at h1
  have mk : ∀ {w : List Sym}, Sym.eol ∉ w → LineMatch (E.atLine r) x.2 w ∨ RMatches x.2 w →
      (LineMatch (E.atLine r) x.2 (text E.inp p k) ∨ (p = k ∧ RMatches x.2 [])) →
      MatchedAs E.flags.eol (E.atLine r) x.2 E.inp p k r.eoi := by
    intro w hw h1 h2
    have := plain hw h1
    unfold MatchedAs
    split
    · rename_i l hl
      exact absurd hl (this l)
    · exact h2
  cases h with
  | text xs x k j h1 h2 h3 h4 h5 =>
    obtain ⟨e, e1, e2⟩ := h5.hit
    rw [List.getElem?_map, h2] at e1
    cases e1
    exact mk (text_noEol _ _ _) (.inl e2) (.inl e2)
  | line xs x k j h1 h2 h3 h4 h5 h6 h7 =>
    obtain ⟨e, e1, e2⟩ := h7.hit
    rw [List.getElem?_map, h2] at e1
    cases e1
    simp only at e2
    rcases hform xs (List.mem_of_getElem? h1) x (List.mem_of_getElem? h2) with hn | hd
    · exfalso
      have : ∃ w, RMatches x.2 w ∧ Sym.eol ∈ w := by
        rcases e2 with ⟨_, h⟩ | ⟨_, h⟩
        · exact ⟨_, h, by simp⟩
        · exact ⟨_, h, by simp⟩
      obtain ⟨w, h1, h2⟩ := this
      cases hr : x.2 with
      | none => rw [hr] at h1; rw [show w = [] from h1] at h2; simp at h2
      | some r => rw [hr] at h1 hn; exact noEol_words hn h1 h2
    · unfold EndsDollar at hd
      split at hd
      · rename_i l hl
        rw [hl] at e2 ⊢
        exact ⟨h5, h6, dollar_line.1 e2⟩
      · exact hd.elim
  | empty xs x j h1 h2 h3 h4 =>
    obtain ⟨e, e1, e2⟩ := h3.hit
    rw [List.getElem?_map, h2] at e1
    cases e1
    exact mk (w := []) (by simp) (.inr e2) (.inr ⟨rfl, e2⟩)

theorem accept_fields {E : LexEnv} {x : Rule} {r r' : Results} {k next : Nat} {b : Bool} (h : E.accept x r k next b = .ok r') :
    r'.first = r.first ∧ r'.second = k ∧ r'.eoi = r.eoi ∧
      ∀ e ∈ r'.stack, e ∈ r.stack ∨ e.2 = x.id := by
  unfold LexEnv.accept at h
  split at h
  · split at h
    · cases h
    · rename_i hs
      cases h
      refine ⟨rfl, rfl, rfl, fun e he => .inl ?_⟩
      rw [hs]
      exact List.mem_cons_of_mem _ he
  · cases h
    refine ⟨rfl, rfl, rfl, fun e he => ?_⟩
    simp only at he
    split at he
    · rcases List.mem_cons.1 he with rfl | he
      · exact .inr rfl
      · exact .inl he
    · exact .inl he

theorem picks_bol {E : LexEnv} (hf : E.flags.bol = true) {r r' : Results} {p : Nat} {x : SRule} {k next : Nat} {b : Bool}
    (h : E.Picks r p x k next b) (ha : E.accept x.1 r k next b = .ok r') (hb : r.bol = true ↔ AtLineStart E.inp p) :
    r'.bol = true ↔ AtLineStart E.inp k := by
  have h1 : r'.bol = b := by
    unfold LexEnv.accept at ha
    split at ha
    · split at ha
      · cases ha
      · cases ha; simp
    · cases ha; simp
  have h2 : ∀ k, p < k → ((E.inp[k - 1]? == some 10) = true ↔ AtLineStart E.inp k) := by
    intro k hk
    unfold AtLineStart
    simp only [beq_iff_eq]
    constructor
    · exact .inr
    · rintro (h | h)
      · omega
      · exact h
  rw [h1]
  cases h with
  | text xs x k j _ _ h3 => exact h2 k h3
  | line xs x k j _ _ h3 =>
    split
    · rename_i h
      rw [h]
      exact hb
    · exact h2 k (by omega)
  | empty => exact hb

/-- The last match of a call; `Ch`: what is known of all matches. -/
theorem lex_last_with {E : LexEnv} {Ch : Results → Nat → SRule → Nat → Nat → Bool → Prop} {No : Results → Nat → Prop}
    (hCh : ∀ {r : Results} {p : Nat} {x : SRule} {k next : Nat} {b : Bool}, Ch r p x k next b → E.Picks r p x k next b)
    {r : Results} {p : Nat} {o : M Results} (h : E.LexWith Ch No r p o) {r' : Results} :
    r.first ≤ p → p ≤ r.eoi → o = .ok r' → r'.id ≠ E.npos → r'.id ≠ E.eoi →
    ∃ x r0 q next b, Ch r0 q x r'.second next b ∧ r'.first ≤ q ∧ p ≤ q ∧ q < r.eoi ∧ r0.eoi = r.eoi ∧
      r'.id = x.1.id ∧ r'.userId = x.1.userId ∧
      ((∀ xs ∈ E.rules, ∀ x ∈ xs, x.1.id ≠ E.eoi) → (∀ e ∈ r.stack, e.2 ≠ E.eoi) → r.first = p → r'.first = q) ∧
      (E.flags.bol = true → (r.bol = true ↔ AtLineStart E.inp p) → (r0.bol = true ↔ AtLineStart E.inp q)) := by
  induction h with
  | eoi r =>
    intro _ _ h _ h2
    cases h
    exact absurd rfl h2
  | none r p c hp h1 h2 =>
    intro _ _ h h1 _
    cases h
    exact absurd rfl h1
  | throw => intro _ _ h; cases h
  | skip r r1 p x k next b o hp h1 h2 h3 h4 ih =>
    intro g1 g2 g3 g4 g5
    obtain ⟨a1, a2, a3, a4⟩ := accept_fields h2
    have hk := (Line.picks_choice E).le (hCh h1) (Nat.le_of_lt hp)
    obtain ⟨x', r0, q, next', b', b1, b2, b3, b4, b5, b6, b7, b8, b9⟩ := ih (Nat.le_refl _) (by simp only [a3]; exact hk.2) g3 g4 g5
    simp only [a3] at b4 b5
    refine ⟨x', r0, q, next', b', b1, b2, Nat.le_trans hk.1 b3, b4, b5, b6, b7, fun hi hs _ => b8 hi ?_ rfl,
      fun hf hb => b9 hf (picks_bol (r' := r1) hf (hCh h1) h2 hb)⟩
    intro e he
    rcases a4 e he with he | he
    · exact hs e he
    · obtain ⟨xs, m1, m2⟩ := (Line.picks_choice E).mem (hCh h1)
      rw [he]
      exact hi xs m1 x m2
  | again r r1 p x k next b o hp h1 h2 h3 hc h4 ih =>
    intro g1 g2 g3 g4 g5
    obtain ⟨a1, a2, a3, a4⟩ := accept_fields h2
    have hk := (Line.picks_choice E).le (hCh h1) (Nat.le_of_lt hp)
    obtain ⟨x', r0, q, next', b', b1, b2, b3, b4, b5, b6, b7, b8, b9⟩ := ih (by rw [a1]; omega) (by simp only [a3]; exact hk.2) g3 g4 g5
    simp only [a3] at b4 b5
    refine ⟨x', r0, q, next', b', b1, b2, Nat.le_trans hk.1 b3, b4, b5, b6, b7, fun hi hs _ => ?_, fun hf hb => b9 hf (picks_bol hf (hCh h1) h2 hb)⟩
    exfalso
    have hst : ∀ e ∈ r1.stack, e.2 ≠ E.eoi := by
      intro e he
      rcases a4 e he with he | he
      · exact hs e he
      · obtain ⟨xs, m1, m2⟩ := (Line.picks_choice E).mem (hCh h1)
        rw [he]
        exact hi xs m1 x m2
    rcases hc with hc | ⟨_, _, e, st, c1, c2⟩
    · obtain ⟨xs, m1, m2⟩ := (Line.picks_choice E).mem (hCh h1)
      exact hi xs m1 x m2 hc
    · exact hst e (by rw [c1]; simp) c2
  | token r r1 p x k next b hp h1 h2 h3 hc =>
    intro g1 g2 g3 g4 g5
    obtain ⟨a1, a2, a3, a4⟩ := accept_fields h2
    cases g3
    simp only [a2, a1]
    exact ⟨x, r, p, next, b, h1, g1, Nat.le_refl _, hp, rfl, rfl, rfl, fun _ _ h => h, fun _ h => h⟩

theorem lex_last {E : LexEnv} {r : Results} {p : Nat} {o : M Results} (h : E.LexAny r p o) {r' : Results} :
    r.first ≤ p → p ≤ r.eoi → o = .ok r' → r'.id ≠ E.npos → r'.id ≠ E.eoi →
    ∃ x r0 q next b, E.Picks r0 q x r'.second next b ∧ r'.first ≤ q ∧ p ≤ q ∧ q < r.eoi ∧ r0.eoi = r.eoi ∧
      r'.id = x.1.id ∧ r'.userId = x.1.userId ∧
      ((∀ xs ∈ E.rules, ∀ x ∈ xs, x.1.id ≠ E.eoi) → (∀ e ∈ r.stack, e.2 ≠ E.eoi) → r.first = p → r'.first = q) ∧
      (E.flags.bol = true → (r.bol = true ↔ AtLineStart E.inp p) → (r0.bol = true ↔ AtLineStart E.inp q)) :=
  lex_last_with id h

/-- C35: a token reported by `lookup` is a text matched by the reported rule; if that is
a rule `l$`, then `l` matches the text, and the text ends at the end of the input or in
front of CR or LF, which is left for the next call.  (`p` is where the last match of the
call starts; it is the start of the token unless rules with the id of the end of input
continue tokens.  `atLine` tells whether `^` was satisfied there.) -/
theorem C35_only_before_line_end_partial {tr : Traits} {R : Rules} {xss : List (List SRule)} {f : Flags} {inp : List Nat}
    {sm : Internals} (B : BuiltAny tr R xss f inp sm) {r : Results} (hp : r.second ≤ r.eoi)
    (hr : ROk ⟨xss, tr.npos, R.eoi, f, inp⟩ r) {r' : Results} (h : Returns f tr.npos (bytesOf tr) sm inp r (.ok r'))
    (hid : r'.id ≠ tr.npos) (heoi : r'.id ≠ R.eoi) :
    ∃ xs ∈ xss, ∃ x ∈ xs, ∃ p atLine, r.second ≤ p ∧ p < r.eoi ∧ r'.first ≤ p ∧ p ≤ r'.second ∧ r'.second ≤ r.eoi ∧
      r'.id = x.1.id ∧ r'.userId = x.1.userId ∧ MatchedAs f.eol atLine x.2 inp p r'.second r.eoi ∧
      ((∀ xs ∈ xss, ∀ x ∈ xs, x.1.id ≠ R.eoi) → (∀ e ∈ r.stack, e.2 ≠ R.eoi) → r'.first = p) ∧
      (f.bol = true → (r.bol = true ↔ AtLineStart inp r.second) → (atLine = true ↔ AtLineStart inp p)) ∧
      (f.bol = false → atLine = false) := by
  obtain ⟨x, r0, q, next, b, b1, b2, b3, b4, b5, b6, b7, b8, b9⟩ := lex_last (C35_lookup_allowed_partial B hp hr h) (Nat.le_refl _)
    hp rfl hid heoi
  obtain ⟨xs, m1, m2⟩ := (Line.picks_choice _).mem b1
  have hk := (Line.picks_choice _).le b1 (by rw [b5]; exact Nat.le_of_lt b4)
  rw [b5] at hk
  refine ⟨xs, m1, x, m2, q, LexEnv.atLine ⟨xss, tr.npos, R.eoi, f, inp⟩ r0, b3, b4, b2, hk.1, hk.2, b6, b7, ?_,
    fun h1 h2 => b8 h1 h2 rfl, fun hf hb => by simp only [LexEnv.atLine, hf, Bool.true_and]; exact b9 hf hb,
    fun hf => by simp only [LexEnv.atLine, hf, Bool.false_and]⟩
  have := picks_matchedAs (E := ⟨xss, tr.npos, R.eoi, f, inp⟩) (fun xs hxs x hx => by
    rcases B.rules.dollar xs hxs with hd | ⟨_, hd⟩
    · exact .inl (hd x hx)
    · exact hd.form _ (List.mem_map.2 ⟨x, hx, rfl⟩)) b1
  rw [b5] at this
  exact this

/-- A call has one outcome. -/
theorem returns_unique {f : Flags} {npos bytes : Nat} {sm : Internals} {inp : List Nat} {r : Results} {o o' : M Results}
    (h : Returns f npos bytes sm inp r o) (h' : Returns f npos bytes sm inp r o') : o = o' := by
  obtain ⟨h1, n, hn⟩ := h
  obtain ⟨h2, m, hm⟩ := h'
  unfold lookupFuel at hn hm
  have a := nextLoop_mono f npos bytes sm inp n (max n m) { r with first := r.second } r.second r.second (by omega)
    (by rw [hn]; exact h1)
  have b := nextLoop_mono f npos bytes sm inp m (max n m) { r with first := r.second } r.second r.second (by omega)
    (by rw [hm]; exact h2)
  rw [← hn, ← hm, ← a, ← b]

/-- C35: rules without non-greedy operators.  If rule `l$` is in force, `l` matches the text
up to the end of a line at `k` and no rule matches a longer text, then `lookup` returns this
text with the ids of this rule; the line end is not part of it.  (Also if a rule without `$`
matches the same text, whatever the order of the rules.) -/
theorem C35_taken_at_line_end_partial {tr : Traits} {R : Rules} {xss : List (List SRule)} {f : Flags} {inp : List Nat}
    {sm : Internals} (B : BuiltAny tr R xss f inp sm) (hg : ∀ xs ∈ xss, ∀ x ∈ xs, AllGreedy x.2)
    (hf : f.eol = true) {r : Results} (hp : r.second < r.eoi)
    (hr : ROk ⟨xss, tr.npos, R.eoi, f, inp⟩ r) {xs : List SRule} (hxs : xss[r.state]? = some xs) {j : Nat} {x : SRule}
    (hx : xs[j]? = some x) {l : Re} (hl : x.2 = some (.seq l .eol)) {k : Nat} (hk : r.second ≤ k) (hk' : k ≤ r.eoi)
    (hend : LineEnd inp r.eoi k) (hm : LineMatch (f.bol && r.bol) (some l) (text inp r.second k))
    (hlong : NoLonger true (LineMatch (f.bol && r.bol)) (xs.map (·.2)) inp r.second r.eoi k)
    (hskip : x.1.id ≠ tr.npos - 1) (hcont : x.1.id ≠ R.eoi)
    (hpop : f.recursive = false ∨ x.1.popDfa = false) :
    ∃ r', (∀ o, Returns f tr.npos (bytesOf tr) sm inp r o ↔ o = .ok r') ∧ r'.first = r.second ∧ r'.second = k ∧
      r'.id = x.1.id ∧ r'.userId = x.1.userId ∧ r'.state = if f.multiState then x.1.nextDfa else r.state := by
  have hmem := List.mem_of_getElem? hxs
  have hone : First (LineMatch (f.bol && r.bol)) (xs.map (·.2)) (text inp r.second k ++ [.eol]) j := by
    have hit : LineMatch (f.bol && r.bol) x.2 (text inp r.second k ++ [.eol]) := by
      rw [hl]
      exact dollar_line.2 hm
    have hget : (xs.map (·.2))[j]? = some x.2 := by rw [List.getElem?_map, hx]; rfl
    refine ⟨⟨x.2, hget, hit⟩, fun i e hi he h => ?_⟩
    rcases B.rules.dollar xs hmem with hd | ⟨_, hd⟩
    · have := hd x (List.mem_of_getElem? hx)
      rw [hl] at this
      unfold NoEol Re.noEol at this
      simp [Re.noEol] at this
    · have := hd.one i j e x.2 _ _ he hget h hit
      omega
  have hpick : LexEnv.Picks ⟨xss, tr.npos, R.eoi, f, inp⟩ { r with first := r.second } r.second x k x.1.nextDfa _ :=
    .line xs x k j hxs hx hk hk' hf hend hone (by rw [← hf] at hlong; exact hlong)
  generalize hb : (if k = r.second then _ else _) = b at hpick
  have hacc : ∃ r1, LexEnv.accept ⟨xss, tr.npos, R.eoi, f, inp⟩ x.1 { r with first := r.second } k x.1.nextDfa b = .ok r1 ∧
      r1.state = if f.multiState then x.1.nextDfa else r.state := by
    unfold LexEnv.accept
    rw [if_neg (by rintro ⟨h1, h2⟩; rcases hpop with h | h <;> simp_all)]
    exact ⟨_, rfl, rfl⟩
  obtain ⟨r1, ha, hs⟩ := hacc
  obtain ⟨a1, a2, a3, a4⟩ := accept_fields ha
  have hnc : ¬ LexEnv.continues ⟨xss, tr.npos, R.eoi, f, inp⟩ x.1 r1 := by
    rintro (h | ⟨h1, h2, _⟩)
    · exact hcont h
    · rcases hpop with h | h <;> simp_all
  have hL : LexEnv.LexAny ⟨xss, tr.npos, R.eoi, f, inp⟩ { r with first := r.second } r.second _ :=
    .token _ r1 _ x k _ b hp hpick ha hskip hnc
  refine ⟨{ r1 with id := x.1.id, userId := x.1.userId }, fun o => ⟨fun h => ?_, ?_⟩, a1, a2, rfl, rfl, hs⟩
  · have h2 := (C35_lookup_refines_partial B hg (Nat.le_of_lt hp) hr _).2 hL
    exact returns_unique h h2
  · rintro rfl
    exact (C35_lookup_refines_partial B hg (Nat.le_of_lt hp) hr _).2 hL

/-- C50: a token that does not end where the longest match ends belongs to a rule with a
non-greedy operator: if the reported rule has none, then no rule of the state (in which the
last match of the call took place) matches a longer text.  In every case the reported rule
is the first one to match its text, or to match it by `$` at the end of a line.  (`p` is
where the last match of the call starts; it is the start of the token unless rules with the
id of the end of input continue tokens.  `atLine` tells whether `^` was satisfied there.) -/
theorem C50_longest_unless_lazy_partial {tr : Traits} {R : Rules} {xss : List (List SRule)} {f : Flags} {inp : List Nat}
    {sm : Internals} (B : BuiltAny tr R xss f inp sm) {r : Results} (hp : r.second ≤ r.eoi)
    (hr : ROk ⟨xss, tr.npos, R.eoi, f, inp⟩ r) {r' : Results} (h : Returns f tr.npos (bytesOf tr) sm inp r (.ok r'))
    (hid : r'.id ≠ tr.npos) (heoi : r'.id ≠ R.eoi) :
    ∃ xs ∈ xss, ∃ j x, xs[j]? = some x ∧ r'.id = x.1.id ∧ r'.userId = x.1.userId ∧
      ∃ p atLine, r.second ≤ p ∧ p < r.eoi ∧ r'.first ≤ p ∧ p ≤ r'.second ∧ r'.second ≤ r.eoi ∧
      (First (LineMatch atLine) (xs.map (·.2)) (text inp p r'.second) j ∨
        (f.eol = true ∧ LineEnd inp r.eoi r'.second ∧ First (LineMatch atLine) (xs.map (·.2)) (text inp p r'.second ++ [.eol]) j) ∨
        (p = r'.second ∧ FirstEmpty (xs.map (·.2)) j)) ∧
      (AllGreedy x.2 → NoLonger f.eol (LineMatch atLine) (xs.map (·.2)) inp p r.eoi r'.second) ∧
      ((∀ xs ∈ xss, ∀ x ∈ xs, x.1.id ≠ R.eoi) → (∀ e ∈ r.stack, e.2 ≠ R.eoi) → r'.first = p) ∧
      (f.bol = true → (r.bol = true ↔ AtLineStart inp r.second) → (atLine = true ↔ AtLineStart inp p)) ∧
      (f.bol = false → atLine = false) := by
  obtain ⟨x, r0, q, next, b, b1, b2, b3, b4, b5, b6, b7, b8, b9⟩ := lex_last (C35_lookup_allowed_partial B hp hr h) (Nat.le_refl _)
    hp rfl hid heoi
  have hk := (Line.picks_choice _).le b1 (by rw [b5]; exact Nat.le_of_lt b4)
  rw [b5] at hk
  have key : ∀ {k next : Nat} {b : Bool}, LexEnv.Picks ⟨xss, tr.npos, R.eoi, f, inp⟩ r0 q x k next b →
      ∃ xs ∈ xss, ∃ j, xs[j]? = some x ∧
        (First (LineMatch (f.bol && r0.bol)) (xs.map (·.2)) (text inp q k) j ∨
         (f.eol = true ∧ LineEnd inp r.eoi k ∧ First (LineMatch (f.bol && r0.bol)) (xs.map (·.2)) (text inp q k ++ [.eol]) j) ∨
         (q = k ∧ FirstEmpty (xs.map (·.2)) j)) ∧
        (AllGreedy x.2 → NoLonger f.eol (LineMatch (f.bol && r0.bol)) (xs.map (·.2)) inp q r.eoi k) := by
    intro k next b b1
    have b5 : r0.eoi = r.eoi := b5
    cases b1 with
    | text xs x k j h1 h2 h3 h4 h5 h6 =>
      refine ⟨xs, List.mem_of_getElem? h1, j, h2, .inl h5, fun hg => ?_⟩
      rcases h6 with ⟨j', e, e1, e2, e3⟩ | h6
      · rw [← Line.first_unique h5 e1, List.getElem?_map, h2] at e2
        cases e2
        exact absurd hg e3
      · rw [← b5]
        exact h6.1
    | line xs x k j h1 h2 h3 h4 h5 h6 h7 h8 =>
      refine ⟨xs, List.mem_of_getElem? h1, j, h2, .inr (.inl ⟨h5, b5 ▸ h6, h7⟩), fun hg => ?_⟩
      rw [← b5]
      exact h8
    | empty xs x j h1 h2 h3 h4 =>
      refine ⟨xs, List.mem_of_getElem? h1, j, h2, .inr (.inr ⟨rfl, h3⟩), fun hg => ?_⟩
      rcases h4 with ⟨j', e, e1, e2, e3⟩ | h4
      · exfalso
        dsimp only at e1
        rw [show text inp q q = [] by simp [text]] at e1
        rcases B.rules.lazy xs (List.mem_of_getElem? h1) with hl | hl
        · have hnb : ∀ e ∈ xs.map (·.2), NoBol e := by
            intro e he
            obtain ⟨y, hy, rfl⟩ := List.mem_map.1 he
            exact hl y hy
          obtain ⟨⟨e', g1, g2⟩, g3⟩ := h3
          obtain ⟨⟨e'', k1, k2⟩, k3⟩ := e1
          have hjj : j' = j := by
            rcases Nat.lt_trichotomy j' j with hlt | heq | hlt
            · exact absurd ((line_noBol (hnb _ (List.mem_of_getElem? k1)) _).1 k2) (g3 j' e'' hlt k1)
            · exact heq
            · exact absurd ((line_noBol (hnb _ (List.mem_of_getElem? g1)) _).2 g2) (k3 j e' hlt g1)
          rw [hjj, List.getElem?_map, h2] at e2
          cases e2
          exact e3 hg
        · obtain ⟨⟨e'', k1, k2⟩, _⟩ := e1
          rw [k1] at e2
          cases e2
          obtain ⟨y, hy, rfl⟩ := List.mem_map.1 (List.mem_of_getElem? k1)
          have := hl y hy e3
          rcases k2 with ⟨_, k2⟩ | ⟨_, k2⟩
          · exact this.2 k2
          · exact this.1 k2
      · rw [← b5]
        exact h4.1
  obtain ⟨xs, m1, j, m2, m3, m4⟩ := key b1
  exact ⟨xs, m1, j, x, m2, b6, b7, q, f.bol && r0.bol, b3, b4, b2, hk.1, hk.2, m3, m4,
    fun h1 h2 => b8 h1 h2 rfl, fun hf hb => by simp only [hf, Bool.true_and]; exact b9 hf hb,
    fun hf => by simp only [hf, Bool.false_and]⟩

/-- C50 and C02 with `$` and non-greedy operators: `npos` is reported only where no rule
matches anything, not even the empty text.  (`atLine`: as in the theorem before.) -/
theorem C50_reported_only_if_no_match_partial {tr : Traits} {R : Rules} {xss : List (List SRule)} {f : Flags} {inp : List Nat}
    {sm : Internals} (B : BuiltAny tr R xss f inp sm) (heoi : R.eoi ≠ tr.npos)
    (hid : ∀ xs ∈ xss, ∀ x ∈ xs, x.1.id ≠ tr.npos) {r : Results} (hp : r.second ≤ r.eoi)
    (hr : ROk ⟨xss, tr.npos, R.eoi, f, inp⟩ r) {r' : Results} (h : Returns f tr.npos (bytesOf tr) sm inp r (.ok r'))
    (hnone : r'.id = tr.npos) :
    ∃ xs atLine, xss[r'.state]? = some xs ∧ r.second ≤ r'.first ∧ r'.first < r.eoi ∧
      r'.second = (if f.advance then r'.first + 1 else r'.first) ∧
      NoLonger f.eol (LineMatch atLine) (xs.map (·.2)) inp r'.first r.eoi r'.first ∧
      ¬ ByDollar f.eol (LineMatch atLine) (xs.map (·.2)) inp r'.first r.eoi r'.first ∧ NoEmpty (xs.map (·.2)) ∧
      (f.bol = true → (r.bol = true ↔ AtLineStart inp r.second) → (atLine = true ↔ AtLineStart inp r'.first)) ∧
      (f.bol = false → atLine = false) := by
  have key : ∀ {E : LexEnv} {r : Results} {p : Nat} {o : M Results}, E.LexAny r p o → E.eoi ≠ E.npos →
      (∀ xs ∈ E.rules, ∀ x ∈ xs, x.1.id ≠ E.npos) → ∀ {r' : Results}, p ≤ r.eoi → o = .ok r' → r'.id = E.npos →
      ∃ b xs, E.rules[r'.state]? = some xs ∧ p ≤ r'.first ∧ r'.first < r.eoi ∧
        r'.second = (if E.flags.advance then r'.first + 1 else r'.first) ∧
        NoLonger E.flags.eol (LineMatch b) (xs.map (·.2)) E.inp r'.first r.eoi r'.first ∧
        ¬ ByDollar E.flags.eol (LineMatch b) (xs.map (·.2)) E.inp r'.first r.eoi r'.first ∧
        NoEmpty (xs.map (·.2)) ∧
        (E.flags.bol = true → (r.bol = true ↔ AtLineStart E.inp p) → (b = true ↔ AtLineStart E.inp r'.first)) ∧
        (E.flags.bol = false → b = false) := by
    intro E r p o h he hi r'
    unfold LexEnv.LexAny at h
    induction h with
    | eoi r =>
      intro _ h hn
      cases h
      exact absurd hn he
    | none r p c hp h1 h2 =>
      intro _ h _
      cases h
      obtain ⟨xs, g1, g2, g3, g4⟩ := h1
      exact ⟨_, xs, g1, Nat.le_refl _, hp, rfl, g2, g3, g4, fun hf hb => by simp only [LexEnv.atLine, hf, Bool.true_and]; exact hb,
        fun hf => by simp only [LexEnv.atLine, hf, Bool.false_and]⟩
    | throw => intro _ h; cases h
    | skip r r1 p x k next b o hp h1 h2 h3 h4 ih =>
      intro _ g hn
      have hk := (Line.picks_choice E).le h1 (Nat.le_of_lt hp)
      have a3 := (accept_fields h2).2.2.1
      obtain ⟨b, xs, c1, c2, c3, c4, c5, c6, c7, c8, c9⟩ := ih (by simp only [a3]; exact hk.2) g hn
      simp only [a3] at c3 c5 c6
      exact ⟨b, xs, c1, Nat.le_trans hk.1 c2, c3, c4, c5, c6, c7, fun hf hb => c8 hf (picks_bol (r' := r1) hf h1 h2 hb), c9⟩
    | again r r1 p x k next b o hp h1 h2 h3 hc h4 ih =>
      intro _ g hn
      have hk := (Line.picks_choice E).le h1 (Nat.le_of_lt hp)
      have a3 := (accept_fields h2).2.2.1
      obtain ⟨b, xs, c1, c2, c3, c4, c5, c6, c7, c8, c9⟩ := ih (by simp only [a3]; exact hk.2) g hn
      simp only [a3] at c3 c5 c6
      exact ⟨b, xs, c1, Nat.le_trans hk.1 c2, c3, c4, c5, c6, c7, fun hf hb => c8 hf (picks_bol (r' := r1) hf h1 h2 hb), c9⟩
    | token r r1 p x k next b hp h1 h2 h3 hc =>
      intro _ g hn
      cases g
      obtain ⟨xs, m1, m2⟩ := (Line.picks_choice E).mem h1
      exact absurd hn (hi xs m1 x m2)
  obtain ⟨b, xs, c⟩ := key (C35_lookup_allowed_partial B hp hr h) heoi hid hp rfl hnone
  exact ⟨xs, b, c⟩

namespace Ex

def tEol : Tok := ⟨.eol, [], []⟩

/-- `a$` -/
def rADollar : Rule := ⟨[tBegin, tA, tEol, tEnd], 4, 65535, 0, 65535, false⟩

/-- `a$`, `a`, `\n` -/
def rulesDollar : List SRule :=
  [(rADollar, some (.seq (.chars [(97, 97)]) .eol)), (rA, some (.chars [(97, 97)])), (rNl, some (.chars [(10, 10)]))]

theorem denADollar : Denotes rADollar.regex (some (.seq (.chars [(97, 97)]) .eol)) :=
  .re tBegin tEnd [tA, tEol] _ rfl rfl
    (.alt1 _ _ (.seq [tA] [tEol] _ _ (.seq1 _ _ (.item _ _ (.charset _ _))) (.item _ _ (.eol _ _))))

theorem chr_iff {c : Nat} {w : List Sym} : RMatches (some (.chars [(c, c)])) w ↔ w = [.ch c] := by
  constructor
  · rintro ⟨d, hd, rfl⟩
    have : d = c := by
      simp [Mem] at hd
      omega
    rw [this]
  · rintro rfl
    exact ⟨c, by simp [Mem], rfl⟩

/-- `x$`, `x` and `\n` for a character `x`. -/
def esDollar (x : Nat) : List (Option Re) :=
  [some (.seq (.chars [(x, x)]) .eol), some (.chars [(x, x)]), some (.chars [(10, 10)])]

theorem dollarOk (tr : Traits) (x : Nat) (hx : x % 256 ≠ 13) : DollarOk tr (esDollar x) := by
  have hall : ∀ e ∈ esDollar x, NoBol e ∧ ∀ w, RMatches e w →
      w = [.ch x, .eol] ∨ w = [.ch x] ∨ w = [.ch 10] := by
    simp only [esDollar, List.mem_cons, List.not_mem_nil, or_false, forall_eq_or_imp,
      forall_eq]
    refine ⟨⟨rfl, fun w h => ?_⟩, ⟨rfl, fun w h => .inr (.inl (chr_iff.1 h))⟩, rfl, fun w h => .inr (.inr (chr_iff.1 h))⟩
    obtain ⟨u, rfl, hu⟩ := dollar_iff.1 h
    rw [chr_iff.1 hu]
    exact .inl rfl
  have key : ∀ e ∈ esDollar x, ∀ (b : Bool) w, LineMatch b e w → w = [.ch x, .eol] ∨ w = [.ch x] ∨ w = [.ch 10] := by
    intro e he b w h
    exact (hall e he).2 w ((line_noBol (hall e he).1 w).1 h)
  have csx : ∀ {cs : List Nat} {v : List Sym}, cs.map Sym.ch ++ [.eol] = [.ch x, .eol] → cs = [x] := by
    intro cs _ h
    match cs, h with
    | [c], h => simp at h; rw [h]
    | _ :: _ :: _, h => simp at h
  have eolx : ∀ e ∈ esDollar x, ∀ (b : Bool) (cs : List Nat), LineMatch b e (cs.map .ch ++ [.eol]) → cs = [x] := by
    intro e he b cs h
    rcases key e he b _ h with h | h | h
    · exact csx (v := []) h
    · exfalso
      cases cs with
      | nil => simp at h
      | cons c cs => cases cs <;> simp at h
    · exfalso
      cases cs with
      | nil => simp at h
      | cons c cs => cases cs <;> simp at h
  refine ⟨?_, ?_, ?_, ?_, ?_⟩
  · simp only [esDollar, List.mem_cons, List.not_mem_nil, or_false, forall_eq_or_imp,
      forall_eq]
    exact ⟨.inr rfl, .inl rfl, .inl rfl⟩
  · intro e he u c hc h
    have := (hall e he).2 _ h
    match u, this with
    | [], h =>
      simp at h
      rcases hc with hc | ⟨_, hc⟩ <;> omega
    | [_], h => simp at h
    | _ :: _ :: u, h => simp at h
  · intro e he e' he' b cs c w hc h1 h2
    rw [eolx e he b cs h1] at h2
    rcases key e' he' b _ h2 with h | h | h <;> simp at h
  · have only : ∀ (i : Nat) (e : Option Re) (b : Bool) (cs : List Nat), (esDollar x)[i]? = some e →
        LineMatch b e (cs.map .ch ++ [.eol]) → i = 0 := by
      intro i e b cs h1 h2
      have he := List.mem_of_getElem? h1
      have h2 := (line_noBol (hall e he).1 _).1 h2
      match i, h1 with
      | 0, _ => rfl
      | 1, h1 =>
        cases h1
        have := chr_iff.1 h2
        cases cs with
        | nil => simp at this
        | cons c cs => cases cs <;> simp at this
      | 2, h1 =>
        cases h1
        have := chr_iff.1 h2
        cases cs with
        | nil => simp at this
        | cons c cs => cases cs <;> simp at this
      | i + 3, h1 => simp [esDollar] at h1
    intro i j e e' b cs h1 h2 h3 h4
    rw [only i e b cs h1 h3, only j e' b cs h2 h4]
  · intro hc
    refine ⟨_, List.mem_cons_of_mem _ (List.mem_cons_of_mem _ List.mem_cons_self), 10, ?_, ?_⟩
    · simp [Mem]
    · simp only [firstByte, hc, if_true]
      split <;> rfl

theorem anyDollar : AnyRules tr RDollar [rulesDollar] where
  states := rfl
  den := by
    simp only [rulesDollar, List.mem_cons, List.not_mem_nil, or_false, forall_eq_or_imp, forall_eq]
    exact ⟨denADollar, denA, denNl⟩
  sets := by
    simp only [rulesDollar, List.mem_cons, List.not_mem_nil, or_false, forall_eq_or_imp, forall_eq, CharSets, Re.AllChars]
    decide
  bolHead := by
    simp only [rulesDollar, List.mem_cons, List.not_mem_nil, or_false, forall_eq_or_imp, forall_eq]
    exact ⟨rfl, rfl, rfl⟩
  dollar := by
    intro xs hxs
    simp only [List.mem_singleton] at hxs
    subst hxs
    exact .inr ⟨by decide, dollarOk tr 97 (by decide)⟩
  lazy := by
    intro xs hxs
    simp only [List.mem_singleton] at hxs
    subst hxs
    left
    simp only [rulesDollar, List.mem_cons, List.not_mem_nil, or_false, forall_eq_or_imp, forall_eq]
    exact ⟨rfl, rfl, rfl⟩
  count := by
    intro xs hxs
    simp only [List.mem_singleton] at hxs
    subst hxs
    decide
  bolBit := by
    intro i xs hxs ⟨x, hx, hn⟩
    have hxs := List.mem_of_getElem? hxs
    simp only [List.mem_singleton] at hxs
    subst hxs
    simp only [rulesDollar, List.mem_cons, List.not_mem_nil, or_false] at hx
    rcases hx with rfl | rfl | rfl <;> exact absurd rfl hn

/-- `b[a-c]*?c`, id 1 -/
def rLazy : SRule :=
  (⟨[tBegin, ⟨.charset, [], [(98, 98)]⟩, ⟨.charset, [], [(97, 99)]⟩, ⟨.azeroormore, [], []⟩, tC, tEnd], 1, 65535, 0, 65535, false⟩,
   some (.seq (.seq (.chars [(98, 98)]) (.star (.chars [(97, 99)]) true)) (.chars [(99, 99)])))

def rulesLazy : List SRule := [rLazy, chr 97 2, chr 99 3]

def RLazy : Rules := ⟨[rulesLazy.map (·.1)], [0], 0, false, false⟩

theorem anyLazy : AnyRules tr RLazy [rulesLazy] where
  states := rfl
  den := by
    simp only [rulesLazy, List.mem_cons, List.not_mem_nil, or_false, forall_eq_or_imp, forall_eq]
    refine ⟨?_, (one_chr (tr := tr) (by decide) ..).den, (one_chr (tr := tr) (by decide) ..).den⟩
    exact .re tBegin tEnd [⟨.charset, [], [(98, 98)]⟩, ⟨.charset, [], [(97, 99)]⟩, ⟨.azeroormore, [], []⟩, tC] _ rfl rfl
      (.alt1 _ _ (.seq [⟨.charset, [], [(98, 98)]⟩, ⟨.charset, [], [(97, 99)]⟩, ⟨.azeroormore, [], []⟩] [tC] _ _
        (.seq [⟨.charset, [], [(98, 98)]⟩] [⟨.charset, [], [(97, 99)]⟩, ⟨.azeroormore, [], []⟩] _ _
          (.seq1 _ _ (.item _ _ (.charset _ _)))
          (.postfix_ [⟨.charset, [], [(97, 99)]⟩] _ _ _ (.charset _ _) (.astar _ _ _)))
        (.item _ _ (.charset _ _))))
  sets := by
    simp only [rulesLazy, rLazy, chr, List.mem_cons, List.not_mem_nil, or_false, forall_eq_or_imp, forall_eq, CharSets, Re.AllChars]
    decide
  bolHead := by
    simp only [rulesLazy, List.mem_cons, List.not_mem_nil, or_false, forall_eq_or_imp, forall_eq]
    exact ⟨rfl, rfl, rfl⟩
  dollar := by
    intro xs hxs
    simp only [List.mem_singleton] at hxs
    subst hxs
    left
    simp only [rulesLazy, List.mem_cons, List.not_mem_nil, or_false, forall_eq_or_imp, forall_eq]
    exact ⟨rfl, rfl, rfl⟩
  lazy := by
    intro xs hxs
    simp only [List.mem_singleton] at hxs
    subst hxs
    left
    simp only [rulesLazy, List.mem_cons, List.not_mem_nil, or_false, forall_eq_or_imp, forall_eq]
    exact ⟨rfl, rfl, rfl⟩
  count := by
    intro xs hxs
    simp only [List.mem_singleton] at hxs
    subst hxs
    decide
  bolBit := by
    intro i xs hxs ⟨x, hx, hn⟩
    have hxs := List.mem_of_getElem? hxs
    simp only [List.mem_singleton] at hxs
    subst hxs
    simp only [rulesLazy, List.mem_cons, List.not_mem_nil, or_false] at hx
    rcases hx with rfl | rfl | rfl <;> exact absurd rfl hn

/-- The first calls on a text: id, start and end of the tokens. -/
def tokens (R : Rules) (inp : List Nat) (n : Nat) : Option (List (Nat × Nat × Nat)) :=
  (calls ⟨fAll, 65535, 1, machine R, inp⟩ 20 n (.mk' 65535 0 inp.length)).map (·.map fun r => (r.id, r.first, r.second))

/-- A rule from the tokens of its regex. -/
def rule (ts : List Tok) (id : Nat) : Rule := ⟨[tBegin] ++ ts ++ [tEnd], id, 65535, 0, 65535, false⟩

def tSet (a b : Nat) : Tok := ⟨.charset, [], [(a, b)]⟩

end Ex

namespace Ex

/-- `x$` (id 4), `x` (id 1) and `\n` (id 5) for a character `x`. -/
def rulesEolOf (x : Nat) : List SRule :=
  [(rule [tSet x x, tEol] 4, some (.seq (.chars [(x, x)]) .eol)), chr x 1, chr 10 5]

def REolOf (x : Nat) : Rules := ⟨[(rulesEolOf x).map (·.1)], [2], 0, false, false⟩

theorem anyEolOf (tr : Traits) (x : Nat) (h13 : x % 256 ≠ 13) (hx : x < charsOf tr) (h10 : 10 < charsOf tr) (hn : 264 ≤ tr.npos)
    (hc : setsOf tr (some (.chars [(x, x)])) + setsOf tr (some (.chars [(x, x)])) + setsOf tr (some (.chars [(10, 10)])) + 4 ≤ tr.npos) :
    AnyRules tr (REolOf x) [rulesEolOf x] where
  states := rfl
  den := by
    simp only [rulesEolOf, List.mem_cons, List.not_mem_nil, or_false, forall_eq_or_imp, forall_eq]
    exact ⟨.re tBegin tEnd [tSet x x, tEol] _ rfl rfl
      (.alt1 _ _ (.seq [tSet x x] [tEol] _ _ (.seq1 _ _ (.item _ _ (.charset _ _))) (.item _ _ (.eol _ _)))),
      (one_chr hx ..).den, (one_chr h10 ..).den⟩
  sets := by
    simp only [rulesEolOf, List.mem_cons, List.not_mem_nil, or_false, forall_eq_or_imp, forall_eq]
    exact ⟨⟨(one_chr hx 0 0 0 false).sets, trivial⟩, (one_chr hx ..).sets, (one_chr h10 ..).sets⟩
  bolHead := by
    simp only [rulesEolOf, List.mem_cons, List.not_mem_nil, or_false, forall_eq_or_imp, forall_eq]
    exact ⟨rfl, rfl, rfl⟩
  dollar := by
    intro xs hxs
    simp only [List.mem_singleton] at hxs
    subst hxs
    exact .inr ⟨hn, dollarOk tr x h13⟩
  lazy := by
    intro xs hxs
    simp only [List.mem_singleton] at hxs
    subst hxs
    left
    simp only [rulesEolOf, List.mem_cons, List.not_mem_nil, or_false, forall_eq_or_imp, forall_eq]
    exact ⟨rfl, rfl, rfl⟩
  count := by
    intro xs hxs
    simp only [List.mem_singleton] at hxs
    subst hxs
    simp only [rulesEolOf, chr, List.map_cons, List.map_nil, List.sum_cons, List.sum_nil, setsOf, dollarsOf, Re.dollars, Re.slots] at hc ⊢
    omega
  bolBit := by
    intro i xs hxs ⟨y, hy, hn⟩
    have hxs := List.mem_of_getElem? hxs
    simp only [List.mem_singleton] at hxs
    subst hxs
    simp only [rulesEolOf, List.mem_cons, List.not_mem_nil, or_false] at hy
    rcases hy with rfl | rfl | rfl <;> exact absurd rfl hn

end Ex

/-- The hypotheses of C35 are met by lexers over 16 bit characters: with the rules `x$`
(id 4), `x` (id 1) and `\n` (id 5) where `x` is U+4E2D, the text `xx\nx` is cut into `x`,
`x$`, `\n`, `x$`. -/
example : (∃ sm, BuiltAny Ex.tr16 (Ex.REolOf 0x4e2d) [Ex.rulesEolOf 0x4e2d] Ex.fAll [0x4e2d, 0x4e2d, 10, 0x4e2d] sm) ∧
    Ex.lexed Ex.tr16 2 (Ex.REolOf 0x4e2d) [0x4e2d, 0x4e2d, 10, 0x4e2d] 5 =
      some [(1, 0, 1), (4, 1, 2), (5, 2, 3), (4, 3, 4), (0, 4, 4)] := by
  have hl : Ex.lexed Ex.tr16 2 (Ex.REolOf 0x4e2d) [0x4e2d, 0x4e2d, 10, 0x4e2d] 5 =
      some [(1, 0, 1), (4, 1, 2), (5, 2, 3), (4, 3, 4), (0, 4, 4)] := by
    decide +kernel
  obtain ⟨sm, h⟩ := Ex.get hl
  exact ⟨⟨sm, by decide, Ex.anyEolOf _ _ (by decide) (by decide) (by decide) (by decide) (by decide),
    ⟨by decide, by decide⟩, ⟨_, h⟩, by decide⟩, hl⟩

/-- The same over code points, with U+1F600. -/
example : (∃ sm, BuiltAny Ex.tr24 (Ex.REolOf 0x1f600) [Ex.rulesEolOf 0x1f600] Ex.fAll [0x1f600, 0x1f600, 10, 0x1f600] sm) ∧
    Ex.lexed Ex.tr24 3 (Ex.REolOf 0x1f600) [0x1f600, 0x1f600, 10, 0x1f600] 5 =
      some [(1, 0, 1), (4, 1, 2), (5, 2, 3), (4, 3, 4), (0, 4, 4)] := by
  have hl : Ex.lexed Ex.tr24 3 (Ex.REolOf 0x1f600) [0x1f600, 0x1f600, 10, 0x1f600] 5 =
      some [(1, 0, 1), (4, 1, 2), (5, 2, 3), (4, 3, 4), (0, 4, 4)] := by
    decide +kernel
  obtain ⟨sm, h⟩ := Ex.get hl
  exact ⟨⟨sm, by decide, Ex.anyEolOf _ _ (by decide +kernel) (by decide +kernel) (by decide +kernel) (by decide) (by decide +kernel),
    ⟨by decide +kernel, by decide +kernel⟩, ⟨_, h⟩, by decide +kernel⟩, hl⟩

/-- The hypotheses of C35 are met, and the calls do what it says: with the rules `a$` (id 4),
`a` (id 1) and `\n` (id 5), "aa\na" is cut into `a`, `a$`, `\n`, `a$`. -/
example : BuiltAny Ex.tr Ex.RDollar [Ex.rulesDollar] Ex.fAll [97, 97, 10, 97] (Ex.machine Ex.RDollar) ∧
    ROk ⟨[Ex.rulesDollar], Ex.tr.npos, Ex.RDollar.eoi, Ex.fAll, [97, 97, 10, 97]⟩ (.mk' 65535 0 4) ∧
    (∀ xs ∈ [Ex.rulesDollar], ∀ x ∈ xs, AllGreedy x.2) ∧
    Ex.tokens Ex.RDollar [97, 97, 10, 97] 5 = some [(1, 0, 1), (4, 1, 2), (5, 2, 3), (4, 3, 4), (0, 4, 4)] := by
  refine ⟨⟨by decide, Ex.anyDollar, ⟨by decide, by decide⟩, ⟨_, Ex.machine_ok (by decide +kernel)⟩, by decide⟩,
    ⟨by decide, by decide, by decide⟩, ?_, by decide +kernel⟩
  simp only [Ex.rulesDollar, List.mem_cons, List.not_mem_nil, or_false, forall_eq_or_imp, forall_eq]
  exact ⟨rfl, rfl, rfl⟩

/-- `C35_taken_at_line_end_partial` on the second `a` of "aa\na". -/
example : ∃ r', (∀ o, Returns Ex.fAll Ex.tr.npos 1 (Ex.machine Ex.RDollar) [97, 97, 10, 97]
      { (Results.mk' 65535 0 4) with second := 1, bol := false } o ↔ o = .ok r') ∧ r'.second = 2 ∧ r'.id = 4 := by
  obtain ⟨r', h1, h2, h3, h4, _⟩ := C35_taken_at_line_end_partial (f := Ex.fAll) (inp := [97, 97, 10, 97])
    ⟨by decide, Ex.anyDollar, ⟨by decide, by decide⟩, ⟨_, Ex.machine_ok (by decide +kernel)⟩, by decide⟩ (by
      simp only [Ex.rulesDollar, List.mem_cons, List.not_mem_nil, or_false, forall_eq_or_imp, forall_eq]
      exact ⟨rfl, rfl, rfl⟩) rfl (r := { (Results.mk' 65535 0 4) with second := 1, bol := false })
    (by decide) ⟨by decide, by decide, by decide⟩ (xs := Ex.rulesDollar) rfl (j := 0) rfl rfl (k := 2) (by decide) (by decide)
    (.inr (.inr rfl)) ((line_noBol (show NoBol (some (.chars [(97, 97)])) from rfl) _).2 (Ex.chr_iff.2 rfl)) (by
      intro k' h1 h2
      have hx : ∀ e ∈ Ex.rulesDollar.map (·.2), NoBol e ∧ ∀ w, RMatches e w → w = [.ch 97, .eol] ∨ w = [.ch 97] ∨ w = [.ch 10] := by
        simp only [Ex.rulesDollar, List.map_cons, List.map_nil, List.mem_cons, List.not_mem_nil, or_false, forall_eq_or_imp,
          forall_eq]
        refine ⟨⟨rfl, fun w h => ?_⟩, ⟨rfl, fun w h => .inr (.inl (Ex.chr_iff.1 h))⟩, rfl, fun w h => .inr (.inr (Ex.chr_iff.1 h))⟩
        obtain ⟨u, rfl, hu⟩ := dollar_iff.1 h
        rw [Ex.chr_iff.1 hu]
        exact .inl rfl
      have h2 : k' ≤ 4 := h2
      have : k' = 3 ∨ k' = 4 := by omega
      constructor
      · intro e he h
        have := (hx e he).2 _ ((line_noBol (hx e he).1 _).1 h)
        rcases ‹k' = 3 ∨ k' = 4› with rfl | rfl <;> simp [text] at this
      · rintro ⟨_, _, e, he, h⟩
        have := (hx e he).2 _ ((line_noBol (hx e he).1 _).1 h)
        rcases ‹k' = 3 ∨ k' = 4› with rfl | rfl <;> simp [text] at this)
    (by decide) (by decide) (.inl rfl)
  exact ⟨r', h1, h3, h4⟩

/-- The condition that no rule goes on with a line end where another one ends by `$` is
needed: with the rules `[a-z]*$` (id 1) and `\n` (id 3) the text "a\n" is reported as a
match of the second rule, which does not match it. -/
theorem C35_line_end_rule_takes_more : ∃ r',
    Returns Ex.fAll 65535 1 (Ex.machine ⟨[[Ex.rule [Ex.tSet 97 122, ⟨.zeroormore, [], []⟩, Ex.tEol] 1, Ex.rule [Ex.tSet 10 10] 3]], [2],
      0, false, false⟩) [97, 10] (.mk' 65535 0 2) (.ok r') ∧
    r'.id = 3 ∧ r'.first = 0 ∧ r'.second = 2 ∧ ¬ RMatches (some (.chars [(10, 10)])) (text [97, 10] 0 2) := by
  have h : ((lookupFuel Ex.fAll 65535 1 (Ex.machine ⟨[[Ex.rule [Ex.tSet 97 122, ⟨.zeroormore, [], []⟩, Ex.tEol] 1,
      Ex.rule [Ex.tSet 10 10] 3]], [2], 0, false, false⟩) [97, 10] 5 (.mk' 65535 0 2)).toOption.map fun r' =>
        (r'.id, r'.first, r'.second)) = some (3, 0, 2) := by
    decide +kernel
  generalize hl : lookupFuel _ _ _ _ _ _ _ = o at h
  cases o with
  | error e => simp [Except.toOption] at h
  | ok r' =>
    simp [Except.toOption] at h
    refine ⟨r', ⟨by simp, 5, hl⟩, h.1, h.2.1, h.2.2, ?_⟩
    rw [Ex.chr_iff]
    decide

/-- The condition that a text is matched before `$` by one rule only is needed, and so is
the condition that no rule matches a text ending in CR before `$`: building a machine from
`[a-b]$` and `a$`, or from `a\r$`, reads outside a vector. -/
theorem C35_build_undefined :
    (match buildTemp Ex.tr (fun n => n) ⟨[[Ex.rule [Ex.tSet 97 98, Ex.tEol] 1, Ex.rule [Ex.tSet 97 97, Ex.tEol] 2,
      Ex.rule [Ex.tSet 10 10] 3]], [2], 0, false, false⟩ with | .error (.ub _) => true | _ => false) = true ∧
    (match buildTemp Ex.tr (fun n => n) ⟨[[Ex.rule [Ex.tSet 97 97, Ex.tSet 13 13, Ex.tEol] 1]], [2], 0, false, false⟩ with
      | .error (.ub _) => true | _ => false) = true := by
  constructor <;> decide +kernel

/-- With 16 bit characters the conditions on characters sharing a byte with CR, and on a
character whose first byte is 0, are needed: building a machine from `[\x{100}-\x{1ff}]$`
and `\n` reads outside a vector, and building one from `\x{4e2d}$` alone dereferences the
end of a map. -/
theorem C35_wide_build_undefined :
    (match buildTemp Ex.tr16 (fun n => n) ⟨[[Ex.rule [Ex.tSet 0x100 0x1ff, Ex.tEol] 1, Ex.rule [Ex.tSet 10 10] 2]], [2], 0,
      false, false⟩ with | .error (.ub _) => true | _ => false) = true ∧
    (match buildTemp Ex.tr16 (fun n => n) ⟨[[Ex.rule [Ex.tSet 0x4e2d 0x4e2d, Ex.tEol] 1]], [2], 0, false, false⟩ with
      | .error (.ub _) => true | _ => false) = true := by
  constructor <;> decide +kernel

/-- With 16 bit characters, a rule for other texts changes what is returned for a text: with
`b$` (id 2), `b\n` (id 3) and `\n` (id 4), "b\n" is one token of the second rule; with the
rule `a$` put before them, `b$` takes the `b` only, although `b\n` matches a longer text. -/
theorem C35_wide_other_rule_matters :
    Ex.lexed Ex.tr16 2 ⟨[[Ex.rule [Ex.tSet 98 98, Ex.tEol] 2, Ex.rule [Ex.tSet 98 98, Ex.tSet 10 10] 3, Ex.rule [Ex.tSet 10 10] 4]],
      [2], 0, false, false⟩ [98, 10] 2 = some [(3, 0, 2), (0, 2, 2)] ∧
    Ex.lexed Ex.tr16 2 ⟨[[Ex.rule [Ex.tSet 97 97, Ex.tEol] 1, Ex.rule [Ex.tSet 98 98, Ex.tEol] 2,
      Ex.rule [Ex.tSet 98 98, Ex.tSet 10 10] 3, Ex.rule [Ex.tSet 10 10] 4]], [2], 0, false, false⟩ [98, 10] 3 =
        some [(2, 0, 1), (4, 1, 2), (0, 2, 2)] := by
  constructor <;> decide +kernel

/-- The hypotheses of C50 are met: `b[a-c]*?c` (id 1) takes "bac" of "bacca". -/
example : BuiltAny Ex.tr Ex.RLazy [Ex.rulesLazy] Ex.fAll [98, 97, 99, 99, 97] (Ex.machine Ex.RLazy) ∧
    ROk ⟨[Ex.rulesLazy], Ex.tr.npos, Ex.RLazy.eoi, Ex.fAll, [98, 97, 99, 99, 97]⟩ (.mk' 65535 0 5) ∧
    Ex.tokens Ex.RLazy [98, 97, 99, 99, 97] 4 = some [(1, 0, 3), (3, 3, 4), (2, 4, 5), (0, 5, 5)] :=
  ⟨⟨by decide, Ex.anyLazy, ⟨by decide, by decide⟩, ⟨_, Ex.machine_ok (by decide +kernel)⟩, by decide⟩,
    ⟨by decide, by decide, by decide⟩, by decide +kernel⟩

/-- A rule with a non-greedy operator does not always take the shortest text it matches:
`a??a` takes both characters of "aa", although it matches "a". -/
theorem C50_not_shortest : ∃ r',
    Returns Ex.fAll 65535 1 (Ex.machine ⟨[[Ex.rule [Ex.tA, ⟨.aopt, [], []⟩, Ex.tA] 1]], [0], 0, false, false⟩) [97, 97]
      (.mk' 65535 0 2) (.ok r') ∧
    r'.id = 1 ∧ r'.first = 0 ∧ r'.second = 2 ∧
    Denotes (Ex.rule [Ex.tA, ⟨.aopt, [], []⟩, Ex.tA] 1).regex
      (some (.seq (.opt (.chars [(97, 97)]) true) (.chars [(97, 97)]))) ∧
    RMatches (some (.seq (.opt (.chars [(97, 97)]) true) (.chars [(97, 97)]))) (text [97, 97] 0 1) := by
  have h : ((lookupFuel Ex.fAll 65535 1 (Ex.machine ⟨[[Ex.rule [Ex.tA, ⟨.aopt, [], []⟩, Ex.tA] 1]], [0], 0, false, false⟩)
      [97, 97] 5 (.mk' 65535 0 2)).toOption.map fun r' => (r'.id, r'.first, r'.second)) = some (1, 0, 2) := by
    decide +kernel
  generalize hl : lookupFuel _ _ _ _ _ _ _ = o at h
  cases o with
  | error e => simp [Except.toOption] at h
  | ok r' =>
    simp [Except.toOption] at h
    refine ⟨r', ⟨by simp, 5, hl⟩, h.1, h.2.1, h.2.2, ?_, [], [.ch 97], rfl, .inl rfl, Ex.chr_iff.2 rfl⟩
    exact .re Ex.tBegin Ex.tEnd [Ex.tA, ⟨.aopt, [], []⟩, Ex.tA] _ rfl rfl
      (.alt1 _ _ (.seq [Ex.tA, ⟨.aopt, [], []⟩] [Ex.tA] _ _ (.seq1 _ _ (.postfix_ [Ex.tA] _ _ _ (.charset _ _) (.aopt _ _ _)))
        (.item _ _ (.charset _ _))))

end Lexertl.Props
