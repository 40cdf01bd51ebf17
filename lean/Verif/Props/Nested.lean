import Verif.Spec.Nested
import Verif.Props.States
import Verif.Props.Eol

/-
Property C68: nested text, such as a nested comment, is one token.
-/
namespace Lexertl.Props
open Spec

namespace Nest

theorem opens {E : LexEnv} {x : Rule} {r r' : Results} {p k : Nat} (hrec : E.flags.recursive = true)
    (hx : E.Opens x) (h : E.At r p x k r') :
    r'.stack = (x.pushDfa, E.eoi) :: r.stack ∧ r'.first = r.first ∧ r'.eoi = r.eoi ∧ r'.second = k := by
  obtain ⟨_, e, next, b, _, h2⟩ := h
  unfold LexEnv.accept at h2
  rw [if_neg (by rw [hx.2.1]; simp)] at h2
  injection h2 with h2
  subst h2
  exact ⟨by simp only; rw [if_pos ⟨hrec, hx.2.2⟩, hx.1], rfl, rfl, rfl⟩

theorem plain {E : LexEnv} {x : Rule} {r r' : Results} {p k : Nat}
    (hx : E.Plain x) (h : E.At r p x k r') :
    r'.stack = r.stack ∧ r'.first = r.first ∧ r'.eoi = r.eoi ∧ r'.second = k := by
  obtain ⟨_, e, next, b, _, h2⟩ := h
  unfold LexEnv.accept at h2
  rw [if_neg (by rw [hx.2.1]; simp)] at h2
  injection h2 with h2
  subst h2
  exact ⟨by simp only; rw [if_neg (by rw [hx.2.2]; simp)], rfl, rfl, rfl⟩

theorem closes {E : LexEnv} {x : Rule} {r r' : Results} {p k d i : Nat} {st : List (Nat × Nat)}
    (hrec : E.flags.recursive = true) (hx : E.Closes x) (h : E.At r p x k r') (hs : r.stack = (d, i) :: st) :
    r'.stack = st ∧ r'.first = r.first ∧ r'.eoi = r.eoi ∧ r'.second = k ∧
      (E.flags.multiState = true → r'.state = d) := by
  obtain ⟨_, e, next, b, _, h2⟩ := h
  unfold LexEnv.accept at h2
  rw [if_pos ⟨hrec, hx.1⟩, hs] at h2
  injection h2 with h2
  subst h2
  exact ⟨rfl, rfl, rfl, rfl, fun h => by simp only; rw [if_pos h]⟩

/-- Nested text leaves the stack as it is, and the call goes on after it. -/
theorem through {E : LexEnv} (hrec : E.flags.recursive = true) (hskip : E.eoi ≠ E.npos - 1)
    {r r' : Results} {p q : Nat} (h : Nested E r p r' q) : ∀ {d : Nat} {st : List (Nat × Nat)},
    r.stack = (d, E.eoi) :: st → r'.stack = r.stack ∧ r'.first = r.first ∧ r'.eoi = r.eoi ∧
      (r.second = p → r'.second = q) ∧ ∀ o, E.Lex r' q o → E.Lex r p o := by
  induction h with
  | nil r p => exact fun _ => ⟨rfl, rfl, rfl, id, fun _ h => h⟩
  | plain r r1 r' p k q x hx hat _ ih =>
    intro d st hs
    obtain ⟨a1, a2, a3, a4⟩ := plain hx hat
    obtain ⟨i1, i2, i3, i4, i5⟩ := ih (a1.trans hs)
    obtain ⟨h1, e, next, b, h2, h3⟩ := hat
    exact ⟨i1.trans a1, i2.trans a2, i3.trans a3, fun _ => i4 a4, fun o ho =>
      .again r r1 p (x, e) k next b o h1 h2 h3 (by rw [hx.1]; exact hskip) (.inl hx.1) (i5 o ho)⟩
  | pair r r1 r2 r3 r' p k l m q x y hx hy hat _ hat2 _ ih1 ih2 =>
    intro d st hs
    obtain ⟨a1, a2, a3, a4⟩ := opens hrec hx hat
    obtain ⟨i1, i2, i3, i4, i5⟩ := ih1 a1
    obtain ⟨c1, c2, c3, c4, _⟩ := closes hrec hy hat2 (i1.trans a1)
    obtain ⟨j1, j2, j3, j4, j5⟩ := ih2 (c1.trans hs)
    obtain ⟨h1, e, next, b, h2, h3⟩ := hat
    obtain ⟨g1, e', next', b', g2, g3⟩ := hat2
    refine ⟨j1.trans c1, by rw [j2, c2, i2, a2], by rw [j3, c3, i3, a3], fun _ => j4 c4, fun o ho => ?_⟩
    refine .again r r1 p (x, e) k next b o h1 h2 h3 (by rw [hx.1]; exact hskip) (.inl hx.1) (i5 o ?_)
    exact .again r2 r3 l (y, e') m next' b' o g1 g2 g3 hy.2
      (.inr ⟨hrec, hy.1, _, _, c1.trans hs, rfl⟩) (j5 o ho)

end Nest

/-- C68.  Nested text is one token.  If, where the call starts, a rule is chosen that
opens, nested text follows and then a rule that closes and has an id, then the call
returns everything from the opening to the closing as one token with that id.  The stack
is as before the call and the lexer is in the state that the opening rule pushed.  (The
call must not itself start inside an opening without id.) -/
theorem C68_nested_one_token {tr : Traits} {R : Rules} {xss : List (List SRule)} {f : Flags}
    {inp : List Nat} {sm : Internals} (B : BuiltFor tr R xss f inp sm) (hrec : f.recursive = true)
    (hms : f.multiState = true) (hskip : R.eoi ≠ tr.npos - 1) {r r1 r2 r3 : Results}
    (hr : ROk ⟨xss, tr.npos, R.eoi, f, inp⟩ r) (hout : ∀ e ∈ r.stack.head?, e.2 ≠ R.eoi)
    {x y : Rule} {k l m : Nat}
    (hx : LexEnv.Opens ⟨xss, tr.npos, R.eoi, f, inp⟩ x)
    (hy : LexEnv.Closes ⟨xss, tr.npos, R.eoi, f, inp⟩ y) (hid : y.id ≠ R.eoi)
    (hopen : LexEnv.At ⟨xss, tr.npos, R.eoi, f, inp⟩ { r with first := r.second } r.second x k r1)
    (hnest : Nested ⟨xss, tr.npos, R.eoi, f, inp⟩ r1 k r2 l)
    (hclose : LexEnv.At ⟨xss, tr.npos, R.eoi, f, inp⟩ r2 l y m r3) :
    ∃ r', (∀ o, Returns f tr.npos (bytesOf tr) sm inp r o ↔ o = .ok r') ∧ r'.first = r.second ∧ r'.second = m ∧
      r'.id = y.id ∧ r'.userId = y.userId ∧ r'.stack = r.stack ∧ r'.state = x.pushDfa := by
  obtain ⟨a1, a2, a3, a4⟩ := Nest.opens hrec hx hopen
  obtain ⟨i1, i2, i3, i4, i5⟩ := Nest.through hrec hskip hnest a1
  obtain ⟨c1, c2, c3, c4, c5⟩ := Nest.closes hrec hy hclose (i1.trans a1)
  obtain ⟨h1, e, next, b, h2, h3⟩ := hopen
  obtain ⟨g1, e', next', b', g2, g3⟩ := hclose
  have hL : LexEnv.Lex ⟨xss, tr.npos, R.eoi, f, inp⟩ { r with first := r.second } r.second
      (.ok { r3 with id := y.id, userId := y.userId }) := by
    refine .again _ r1 _ (x, e) k next b _ h1 h2 h3 (by rw [hx.1]; exact hskip) (.inl hx.1) (i5 _ ?_)
    refine .token r2 r3 l (y, e') m next' b' g1 g2 g3 hy.2 ?_
    rintro (h | ⟨_, _, e, st, h, h'⟩)
    · exact hid h
    · rw [c1] at h
      exact hout e (by rw [show r.stack = e :: st from h]; rfl) h'
  have hret := (call_iff B (Nat.le_of_lt h1) hr _).2 hL
  refine ⟨_, fun o => ⟨fun ho => ?_, fun ho => ho ▸ hret⟩, ?_, c4, rfl, rfl, c1, c5 hms⟩
  · exact returns_unique ho hret
  · rw [show ({ r3 with id := y.id, userId := y.userId } : Results).first = r3.first from rfl, c2, i2, a2]

/-- C68.  Text that is opened and not closed before the end of the input: the call reports
the end of the input, but the text from the opening to the end as its token, and it leaves
the opening on the stack. -/
theorem C68_unclosed {tr : Traits} {R : Rules} {xss : List (List SRule)} {f : Flags}
    {inp : List Nat} {sm : Internals} (B : BuiltFor tr R xss f inp sm) (hrec : f.recursive = true)
    (hskip : R.eoi ≠ tr.npos - 1) {r r1 r2 : Results}
    (hr : ROk ⟨xss, tr.npos, R.eoi, f, inp⟩ r) {x : Rule} {k : Nat}
    (hx : LexEnv.Opens ⟨xss, tr.npos, R.eoi, f, inp⟩ x)
    (hopen : LexEnv.At ⟨xss, tr.npos, R.eoi, f, inp⟩ { r with first := r.second } r.second x k r1)
    (hnest : Nested ⟨xss, tr.npos, R.eoi, f, inp⟩ r1 k r2 r.eoi) :
    ∃ r', (∀ o, Returns f tr.npos (bytesOf tr) sm inp r o ↔ o = .ok r') ∧ r'.id = R.eoi ∧
      r'.first = r.second ∧ r'.second = r.eoi ∧ r.second < r.eoi ∧
      r'.stack = (x.pushDfa, R.eoi) :: r.stack := by
  obtain ⟨a1, a2, a3, a4⟩ := Nest.opens hrec hx hopen
  obtain ⟨i1, i2, i3, i4, i5⟩ := Nest.through hrec hskip hnest a1
  obtain ⟨h1, e, next, b, h2, h3⟩ := hopen
  have heoi : r2.eoi = r.eoi := i3.trans a3
  have hL : LexEnv.Lex ⟨xss, tr.npos, R.eoi, f, inp⟩ { r with first := r.second } r.second
      (.ok { r2 with id := R.eoi, userId := tr.npos }) := by
    refine .again _ r1 _ (x, e) k next b _ h1 h2 h3 (by rw [hx.1]; exact hskip) (.inl hx.1) (i5 _ ?_)
    rw [← heoi]
    exact .eoi r2
  have hret := (call_iff B (Nat.le_of_lt h1) hr _).2 hL
  refine ⟨_, fun o => ⟨fun ho => returns_unique ho hret, fun ho => ho ▸ hret⟩, rfl, ?_, i4 a4, h1, i1.trans a1⟩
  rw [show ({ r2 with id := R.eoi, userId := tr.npos } : Results).first = r2.first from rfl, i2, a2]

namespace Nest

/-- `a` and the opening `(` in state 0; `(`, `)` and plain `c` in state 1; only `)` has an
id. -/
def rules : List (List SRule) :=
  [[Ex.chr 97 1, Ex.chr 40 0 1 0], [Ex.chr 40 0 1 1, Ex.chr 41 3 65535 65535 true, Ex.chr 99 0 1]]

def R : Rules := ⟨rules.map (·.map (·.1)), [48, 48], 0, false, false⟩

theorem ruleSet : RuleSet Ex.tr R rules := by
  refine Ex.ruleSet_of rfl ?_ (by decide)
  simp only [rules, List.mem_cons, List.not_mem_nil, or_false, forall_eq_or_imp, forall_eq]
  exact ⟨⟨Ex.one_chr (by decide) .., Ex.one_chr (by decide) ..⟩, Ex.one_chr (by decide) ..,
    Ex.one_chr (by decide) .., Ex.one_chr (by decide) ..⟩

theorem built (inp : List Nat) (h : ∀ c ∈ inp, c < charsOf Ex.tr) :
    BuiltFor Ex.tr R rules Ex.fRec inp (Ex.machine R) where
  wide := by decide
  rules := ruleSet
  states := by
    refine ⟨?_, ?_⟩
    · show ∀ xs ∈ rules, ∀ x ∈ xs, (true = true ∧ x.1.popDfa = true) ∨ x.1.nextDfa < rules.length
      decide
    · show ∀ xs ∈ rules, ∀ x ∈ xs, x.1.pushDfa ≠ Ex.tr.npos → x.1.pushDfa < rules.length
      decide
  built := ⟨_, Ex.machine_ok (by decide +kernel)⟩
  chars := h

/-- `c` and balanced parentheses. -/
inductive Inside : List Nat → Prop
  | nil : Inside []
  | c (w : List Nat) : Inside w → Inside (99 :: w)
  | par (v w : List Nat) : Inside v → Inside w → Inside (40 :: (v ++ 41 :: w))

/-- The machine's environment on `inp`. -/
abbrev env (inp : List Nat) : LexEnv := ⟨rules, 65535, 0, Ex.fRec, inp⟩

theorem at_of {inp : List Nat} {r : Results} {p c j : Nat} (xs : List SRule) (cs : List Nat) (x : SRule)
    (hxs : rules[r.state]? = some xs) (hcs : xs.map (·.2) = cs.map fun c => some (.chars [(c, c)]))
    (hx : xs[j]? = some x) (hj : cs[j]? = some c) (hfirst : ∀ i < j, cs[i]? ≠ some c)
    (hc : inp[p]? = some c) (he : r.eoi = inp.length) {r' : Results}
    (hacc : (env inp).accept x.1 r (p + 1) x.1.nextDfa (inp[p]? == some 10) = .ok r') :
    (env inp).At r p x.1 (p + 1) r' := by
  have hp : p < r.eoi := by rw [he]; exact (List.getElem?_eq_some_iff.1 hc).1
  exact ⟨hp, _, _, _, chosen_chr (E := env inp) hxs hcs hx hj hfirst hc hp (Nat.le_of_eq he), hacc⟩

/-- What lies inside is nested text, in state 1. -/
theorem nested {w : List Nat} (h : Inside w) : ∀ (pre rest : List Nat) (r : Results), r.state = 1 →
    r.eoi = (pre ++ (w ++ rest)).length → ∃ r', Nested (env (pre ++ (w ++ rest))) r pre.length r' (pre ++ w).length ∧
      r'.state = 1 ∧ r'.eoi = r.eoi ∧ r'.stack = r.stack := by
  induction h with
  | nil =>
    intro pre rest r h1 h2
    refine ⟨r, ?_, h1, rfl, rfl⟩
    rw [List.append_nil]
    exact .nil _ _
  | c w _ ih =>
    intro pre rest r h1 h2
    obtain ⟨r', i1, i2, i3, i4⟩ := ih (pre ++ [99]) rest
      { r with second := pre.length + 1, bol := false, state := 1 } rfl (by simpa using h2)
    simp only [List.append_assoc, List.cons_append] at i1 h2 ⊢
    refine ⟨r', .plain _ _ _ _ (pre.length + 1) _ (Ex.chr 99 0 1).1 ⟨rfl, rfl, rfl⟩
      (at_of (j := 2) (c := 99) _ [40, 41, 99] (Ex.chr 99 0 1) (by rw [h1]; rfl) rfl rfl rfl (by decide)
        (by simp) h2 (r' := { r with second := pre.length + 1, bol := false, state := 1 }) ?_) ?_, i2, i3, i4⟩
    · simp [LexEnv.accept, Ex.chr, Ex.fRec]
    · simpa using i1
  | par v w _ _ ih1 ih2 =>
    intro pre rest r h1 h2
    obtain ⟨r2, i1, i2, i3, i4⟩ := ih1 (pre ++ [40]) (41 :: (w ++ rest))
      { r with second := pre.length + 1, bol := false, state := 1, stack := (1, 0) :: r.stack } rfl
      (by simpa using h2)
    obtain ⟨r', j1, j2, j3, j4⟩ := ih2 (pre ++ 40 :: (v ++ [41])) rest
      { r2 with second := (pre ++ 40 :: v).length + 1, bol := false, state := 1, stack := r.stack } rfl
      (by rw [show ({ r2 with second := (pre ++ 40 :: v).length + 1, bol := false, state := 1, stack := r.stack } : Results).eoi
            = r2.eoi from rfl, i3]; simpa using h2)
    simp only [List.append_assoc, List.cons_append] at i1 i3 j1 j3 h2 ⊢
    refine ⟨r', .pair r _ r2 { r2 with second := (pre ++ 40 :: v).length + 1, bol := false, state := 1, stack := r.stack }
      r' _ (pre.length + 1) (pre ++ 40 :: v).length
      ((pre ++ 40 :: v).length + 1) _ (Ex.chr 40 0 1 1).1 (Ex.chr 41 3 65535 65535 true).1
      ⟨rfl, rfl, show (1 : Nat) ≠ 65535 by decide⟩ ⟨rfl, show (3 : Nat) ≠ 65534 by decide⟩
      (at_of (j := 0) (c := 40) _ [40, 41, 99] (Ex.chr 40 0 1 1) (by rw [h1]; rfl) rfl rfl rfl (by decide)
        (by simp) h2
        (r' := { r with second := pre.length + 1, bol := false, state := 1, stack := (1, 0) :: r.stack }) ?_)
      ?_
      (at_of (j := 1) (c := 41) _ [40, 41, 99] (Ex.chr 41 3 65535 65535 true) (by rw [i2]; rfl) rfl rfl rfl
        (by decide) ?_ (i3.trans h2) ?_) ?_, j2, j3.trans i3, j4⟩
    · simp [LexEnv.accept, Ex.chr, Ex.fRec]
    · simpa using i1
    · rw [show pre ++ 40 :: (v ++ 41 :: (w ++ rest)) = (pre ++ 40 :: v) ++ 41 :: (w ++ rest) by simp]
      simp only [List.getElem?_append_right (Nat.le_refl _), Nat.sub_self, List.getElem?_cons_zero]
    · have hc : (pre ++ 40 :: (v ++ 41 :: (w ++ rest)))[(pre ++ 40 :: v).length]? = some 41 := by
        rw [show pre ++ 40 :: (v ++ 41 :: (w ++ rest)) = (pre ++ 40 :: v) ++ 41 :: (w ++ rest) by simp]
        simp only [List.getElem?_append_right (Nat.le_refl _), Nat.sub_self, List.getElem?_cons_zero]
      rw [hc]
      simp [LexEnv.accept, Ex.chr, Ex.fRec, i4]
    · simpa [Nat.add_assoc] using j1

end Nest

/-- For the example's rules: whatever balanced text stands inside, the outermost
parentheses are one token. -/
example (w rest : List Nat) (hw : Nest.Inside w) (hrest : ∀ c ∈ 40 :: (w ++ 41 :: rest), c < charsOf Ex.tr) :
    ∃ r', (∀ o, Returns Ex.fRec 65535 1 (Ex.machine Nest.R) (40 :: (w ++ 41 :: rest))
        (.mk' 65535 0 (40 :: (w ++ 41 :: rest)).length) o ↔ o = .ok r') ∧
      r'.first = 0 ∧ r'.second = w.length + 2 ∧ r'.id = 3 ∧ r'.stack = [] ∧ r'.state = 0 := by
  have h0 := Nest.nested hw [40] (41 :: rest)
    { Results.mk' 65535 0 (40 :: (w ++ 41 :: rest)).length with
      second := 1, bol := false, state := 1, stack := [(0, 0)] } rfl (by simp [Results.mk'])
  obtain ⟨r2, i1, i2, i3, i4⟩ := h0
  simp only [List.singleton_append] at i1
  have hc : (40 :: (w ++ 41 :: rest))[(40 :: w).length]? = some 41 := by
    rw [show 40 :: (w ++ 41 :: rest) = (40 :: w) ++ 41 :: rest by simp]
    simp only [List.getElem?_append_right (Nat.le_refl _), Nat.sub_self, List.getElem?_cons_zero]
  obtain ⟨r', k1, k2, k3, k4, _, k5, k6⟩ := C68_nested_one_token (Nest.built _ hrest) rfl rfl (by decide)
    (r := .mk' 65535 0 (40 :: (w ++ 41 :: rest)).length)
    (r3 := { r2 with second := (40 :: w).length + 1, bol := false, state := 0, stack := [] })
    ⟨show (0 : Nat) < 2 by decide, by simp [Results.mk'], by simp [Results.mk']⟩ (by simp [Results.mk'])
    (x := (Ex.chr 40 0 1 0).1) (y := (Ex.chr 41 3 65535 65535 true).1) ⟨rfl, rfl, show (0 : Nat) ≠ 65535 by decide⟩
    ⟨rfl, show (3 : Nat) ≠ 65534 by decide⟩ (by decide)
    (Nest.at_of (j := 1) (c := 40) _ [97, 40] (Ex.chr 40 0 1 0) rfl rfl rfl rfl (by decide) rfl rfl
      (r' := { Results.mk' 65535 0 (40 :: (w ++ 41 :: rest)).length with
        second := 1, bol := false, state := 1, stack := [(0, 0)] }) (by simp [LexEnv.accept, Ex.chr, Ex.fRec, Results.mk']))
    i1
    (Nest.at_of (j := 1) (c := 41) _ [40, 41, 99] (Ex.chr 41 3 65535 65535 true) (by rw [i2]; rfl) rfl rfl rfl
      (by decide) hc i3 (by rw [hc]; simp [LexEnv.accept, Ex.chr, Ex.fRec, i4]))
  exact ⟨r', k1, k2, by rw [k3]; simp, k4, k5, k6⟩

/-- The parenthesis of `"(c"` is not closed: the call reports the end of the input, with
the text `(c`. -/
example : ∃ r', (∀ o, Returns Ex.fRec 65535 1 (Ex.machine Nest.R) [40, 99] (.mk' 65535 0 2) o ↔ o = .ok r') ∧
    r'.id = 0 ∧ r'.first = 0 ∧ r'.second = 2 ∧ r'.stack = [(0, 0)] := by
  obtain ⟨r2, i1, _, _, _⟩ := Nest.nested (.c [] .nil) [40] []
    { Results.mk' 65535 0 2 with second := 1, bol := false, state := 1, stack := [(0, 0)] } rfl rfl
  obtain ⟨r', k1, k2, k3, k4, _, k5⟩ := C68_unclosed (Nest.built [40, 99] (by decide)) rfl (by decide)
    (r := .mk' 65535 0 2) ⟨by decide, by simp [Results.mk'], by decide⟩
    (x := (Ex.chr 40 0 1 0).1) ⟨rfl, rfl, by decide⟩
    (Nest.at_of (j := 1) (c := 40) _ [97, 40] (Ex.chr 40 0 1 0) rfl rfl rfl rfl (by decide) rfl rfl
      (r' := { Results.mk' 65535 0 2 with second := 1, bol := false, state := 1, stack := [(0, 0)] }) rfl)
    i1
  exact ⟨r', k1, k2, k3, k4, k5⟩

end Lexertl.Props
