import Verif.Proofs.Shape
import Verif.Props.Example

/-
Properties C09-C12 and C44: transition sets, repetition, copying, precedence, and
which token sequences are accepted.
-/
namespace Lexertl.Props
open Spec

namespace Ex

def tOr : Tok := ⟨.or_, [], []⟩
def tStar : Tok := ⟨.zeroormore, [], []⟩
def tRep : Tok := ⟨.repeatn, [50, 44, 51], []⟩
def tOpen : Tok := ⟨.openparen, [], []⟩
def tClose : Tok := ⟨.closeparen, [], []⟩

/-- `c|ac*` -/
def rPrec : Rule := ⟨[tBegin, tC, tOr, tA, tC, tStar, tEnd], 1, 65535, 0, 65535, false⟩
def ePrec : Re := .alt (.chars [(99, 99)]) (.seq (.chars [(97, 97)]) (.star (.chars [(99, 99)]) false))
def RPrec : Rules := ⟨[[rPrec]], [0], 0, false, false⟩

/-- `[a-b]{2,3}` -/
def rRep : Rule := ⟨[tBegin, tAB, tRep, tEnd], 1, 65535, 0, 65535, false⟩
def eRep : Re := .rep (.chars [(97, 98)]) 2 (some 3) false
def RRep : Rules := ⟨[[rRep]], [0], 0, false, false⟩

theorem count23 : Count [50, 44, 51] 2 (some 3) :=
  .between [50] [51] (by decide) ⟨by decide, by decide⟩ (by decide) (by decide)

theorem derPrec : Derives .alt [tC, tOr, tA, tC, tStar] ePrec :=
  .alt [tC] [tA, tC, tStar] tOr _ _ rfl (.alt1 _ _ (.seq1 _ _ (.item _ _ (.charset _ _))))
    (.seq [tA] [tC, tStar] _ _ (.seq1 _ _ (.item _ _ (.charset _ _)))
      (.postfix_ [tC] _ _ _ (.charset _ _) (.star _ _ _)))

theorem ruleSetOne {r : Rule} {e : Re} (hd : Denotes r.regex (some e)) (hs : CharSets tr (some e))
    (hb : e.noBol = true) (hbh : e.bolHead = true) (he : e.noEol = true) (hg : e.greedy = true)
    (hc : e.slots tr + 2 ≤ tr.npos) :
    RuleSet tr ⟨[[r]], [0], 0, false, false⟩ [[(r, some e)]] where
  states := rfl
  den := by simpa using hd
  sets := by simpa using hs
  bolHead := by simpa [ROpt] using hbh
  noEol := by simpa [NoEol] using he
  greedy := by simpa [AllGreedy] using hg
  count := by exact fun xs h => by simp only [List.mem_singleton] at h; subst h; simpa [setsOf] using hc
  bolBit := by
    intro i xs h
    cases i with
    | zero =>
      simp only [List.getElem?_cons_zero, Option.some.injEq] at h
      subst h
      simp [NoBol, hb]
    | succ i => simp at h

theorem ruleSetPrec : RuleSet tr RPrec [[(rPrec, some ePrec)]] :=
  ruleSetOne (.re tBegin tEnd _ _ rfl rfl derPrec) (by simp only [CharSets, ePrec, Re.AllChars]; decide)
    rfl rfl rfl rfl (by decide)

theorem ruleSetRep : RuleSet tr RRep [[(rRep, some eRep)]] :=
  ruleSetOne (.re tBegin tEnd [tAB, tRep] _ rfl rfl
    (.alt1 _ _ (.seq1 _ _ (.postfix_ [tAB] _ _ _ (.charset _ _) (.rep _ _ _ _ _ count23)))))
    (by simp only [CharSets, eRep, Re.AllChars]; decide) rfl rfl rfl rfl (by decide)

theorem builtPrec : ∃ sm, buildTemp tr (fun n => n) RPrec = .ok sm := by
  have h : (buildTemp tr (fun n => n) RPrec).isOk = true := by decide +kernel
  cases hb : buildTemp tr (fun n => n) RPrec with
  | ok sm => exact ⟨sm, rfl⟩
  | error e => rw [hb] at h; cases h

theorem builtRep : ∃ sm, buildTemp tr (fun n => n) RRep = .ok sm := by
  have h : (buildTemp tr (fun n => n) RRep).isOk = true := by decide +kernel
  cases hb : buildTemp tr (fun n => n) RRep with
  | ok sm => exact ⟨sm, rfl⟩
  | error e => rw [hb] at h; cases h

end Ex

/-- C12.  Lexer with one rule (greedy, no anchors).  If the tokens of the regex derive
the expression `e` in the grammar of `Verif.Spec.Regex`, the lexer takes the whole of
a non-empty input exactly if the input is a word of `e`. -/
theorem C12_grammar_decides_matches {tr : Traits} (hnpos : 263 ≤ tr.npos)
    {R : Rules} {x : SRule} (hR : RuleSet tr R [[x]]) (hbol : NoBol x.2) {addr : Nat → Nat}
    {sm : Internals} (hsm : buildTemp tr addr R = .ok sm) (f : Flags) {inp : List Nat}
    (hinp : ∀ c ∈ inp, c < charsOf tr) (hne : inp ≠ [])
    (hid : x.1.id ≠ tr.npos) (hskip : x.1.id ≠ tr.npos - 1) (hcont : x.1.id ≠ R.eoi)
    (hpop : x.1.popDfa = false) {ts : List Tok} {b t : Tok} {e : Re}
    (hx : x.1.regex = b :: ts ++ [t]) (hb : b.type = .begin) (ht : t.type = .end_) (hd : Derives .alt ts e) :
    (∃ r', lookup f tr.npos (bytesOf tr) sm inp (.mk' tr.npos 0 inp.length) = .ok r' ∧ r'.id = x.1.id ∧ r'.first = 0 ∧
      r'.second = inp.length) ↔ e.Matches (inp.map .ch) := by
  rw [whole_match hnpos hR hbol hsm f hinp hne hid hskip hcont hpop]
  have hden := hR.den [x] (by simp) x (by simp)
  have : x.2 = some e := by
    have h2 : Denotes x.1.regex (some e) := by rw [hx]; exact .re b t ts e hb ht hd
    exact denotes_unique hden h2
  rw [this]
  rfl

/-- C12: the grammar is unambiguous, so the expression in the theorem above is the only
one the tokens can stand for. -/
theorem C12_grammar_unambiguous {ts : List Tok} {e e' : Re} (h : Derives .alt ts e) (h' : Derives .alt ts e') :
    e = e' := derives_unique h h'

/-- C12 on `c|ac*`: the hypotheses hold and "acc" is taken, "cc" is not. -/
example : ∃ sm, buildTemp Ex.tr (fun n => n) Ex.RPrec = .ok sm ∧
    (∃ r', lookup ⟨false, false, false, false, true⟩ Ex.tr.npos 1 sm [97, 99, 99] (.mk' Ex.tr.npos 0 3) = .ok r' ∧
      r'.id = 1 ∧ r'.first = 0 ∧ r'.second = 3) ∧
    ¬ (∃ r', lookup ⟨false, false, false, false, true⟩ Ex.tr.npos 1 sm [99, 99] (.mk' Ex.tr.npos 0 2) = .ok r' ∧
      r'.id = 1 ∧ r'.first = 0 ∧ r'.second = 2) := by
  obtain ⟨sm, hsm⟩ := Ex.builtPrec
  have H := fun inp h1 h2 => C12_grammar_decides_matches (tr := Ex.tr) (by decide) Ex.ruleSetPrec
    (show NoBol (some Ex.ePrec) from rfl) hsm ⟨false, false, false, false, true⟩ (inp := inp) h1 h2
    (by decide) (by decide) (by decide) rfl (ts := [Ex.tC, Ex.tOr, Ex.tA, Ex.tC, Ex.tStar]) (b := Ex.tBegin)
    (t := Ex.tEnd) (e := Ex.ePrec) rfl rfl rfl Ex.derPrec
  refine ⟨sm, hsm, (H [97, 99, 99] (by decide) (by simp)).2 ?_, fun h => ?_⟩
  · exact .inr ⟨[.ch 97], [.ch 99, .ch 99], rfl, ⟨97, by decide, rfl⟩, 2, [.ch 99], [.ch 99], rfl,
      ⟨99, by decide, rfl⟩, [.ch 99], [], rfl, ⟨99, by decide, rfl⟩, rfl⟩
  · rcases (H [99, 99] (by decide) (by simp)).1 h with ⟨c, _, h⟩ | ⟨u, v, h1, ⟨c, h2, rfl⟩, _⟩
    · cases h
    · cases h1
      revert h2; decide

/-- C10.  Lexer with one rule made of an operand (charset or parenthesised regex) and a
greedy repetition operator.  It takes the whole of a non-empty input exactly if the
input is a concatenation of `k` words of the operand for some number `k` the operator
allows. -/
theorem C10_repetition {tr : Traits} (hnpos : 263 ≤ tr.npos)
    {R : Rules} {x : SRule} (hR : RuleSet tr R [[x]]) (hbol : NoBol x.2) {addr : Nat → Nat}
    {sm : Internals} (hsm : buildTemp tr addr R = .ok sm) (f : Flags) {inp : List Nat}
    (hinp : ∀ c ∈ inp, c < charsOf tr) (hne : inp ≠ [])
    (hid : x.1.id ≠ tr.npos) (hskip : x.1.id ≠ tr.npos - 1) (hcont : x.1.id ≠ R.eoi)
    (hpop : x.1.popDfa = false) {ts : List Tok} {b t d : Tok} {e q : Re}
    (hx : x.1.regex = b :: (ts ++ [d]) ++ [t]) (hb : b.type = .begin) (ht : t.type = .end_)
    (hd : Derives .atom ts e) (hq : Postfix d e q) :
    (∃ r', lookup f tr.npos (bytesOf tr) sm inp (.mk' tr.npos 0 inp.length) = .ok r' ∧ r'.id = x.1.id ∧ r'.first = 0 ∧
      r'.second = inp.length) ↔ ∃ k, Reps d k ∧ Pow e.Matches k (inp.map .ch) := by
  have hder : Derives .alt (ts ++ [d]) q := .alt1 _ _ (.seq1 _ _ (.postfix_ _ _ _ _ hd hq))
  rw [C12_grammar_decides_matches hnpos hR hbol hsm f hinp hne hid hskip hcont hpop hx hb ht hder]
  refine postfix_reps hq ?_ _
  have hden := hR.den [x] (by simp) x (by simp)
  have : x.2 = some q := by
    have h2 : Denotes x.1.regex (some q) := by rw [hx]; exact .re b t _ q hb ht hder
    exact denotes_unique hden h2
  have hg := hR.greedy [x] (by simp) x (by simp)
  rw [this] at hg
  exact hg

/-- C10 on `[a-b]{2,3}`: the hypotheses hold and "abb" is taken. -/
example : ∃ sm, buildTemp Ex.tr (fun n => n) Ex.RRep = .ok sm ∧
    (∃ r', lookup ⟨false, false, false, false, true⟩ Ex.tr.npos 1 sm [97, 98, 98] (.mk' Ex.tr.npos 0 3) = .ok r' ∧
      r'.id = 1 ∧ r'.first = 0 ∧ r'.second = 3) := by
  obtain ⟨sm, hsm⟩ := Ex.builtRep
  refine ⟨sm, hsm, (C10_repetition (tr := Ex.tr) (by decide) Ex.ruleSetRep
    (show NoBol (some Ex.eRep) from rfl) hsm ⟨false, false, false, false, true⟩ (inp := [97, 98, 98]) (by decide)
    (by simp) (by decide) (by decide) (by decide) rfl (ts := [Ex.tAB]) (b := Ex.tBegin) (t := Ex.tEnd)
    (d := Ex.tRep) (q := Ex.eRep) rfl rfl rfl (.charset _ _) (.rep _ _ _ _ _ Ex.count23)).2 ?_⟩
  exact ⟨3, .rep _ _ 2 (some 3) 3 Ex.count23 (by decide) (by intro h hh; cases hh; decide),
    [.ch 97], [.ch 98, .ch 98], rfl, ⟨97, by decide, rfl⟩, [.ch 98], [.ch 98], rfl, ⟨98, by decide, rfl⟩,
    [.ch 98], [], rfl, ⟨98, by decide, rfl⟩, rfl⟩

/-- C11.  Whatever the parser state `p` and the regex (charsets of any character width): the
parser returns with one new tree `t`, and copying it yields a tree with the same shape
(operators, charsets, greediness), made of new and pairwise different nodes only; the
old store, and with it `t`, is as before. -/
theorem C11_copy {tr : Traits} {ts : List Tok} {e : Re}
    (hd : Derives .alt ts e) (hs : CharSets tr (some e)) {b t1 : Tok} {rest : List Tok} (hb : b.type = .begin)
    (hts : ∃ t, t.type = .end_ ∧ ts ++ [t] = t1 :: rest) (p : PState) (fuel : Nat)
    (hf : 10 * ts.length + 3 ≤ fuel) :
    ∃ p' t s new t', PState.parseLoop tr fuel p [b] t1 (if rest = [] then [t1] else rest) = .ok p' ∧
      p'.trees = t :: p.trees ∧ shape p'.heap t = some s ∧
      p'.heap.copy tr.nullToken t = .ok (p'.heap ++ new, t') ∧
      shape (p'.heap ++ new) t' = some s ∧ shape (p'.heap ++ new) t = some s ∧
      (nodes t').Nodup ∧ ∀ n ∈ nodes t', ∀ m ∈ nodes t, m < n := by
  obtain ⟨z, hz, hz'⟩ := hts
  obtain ⟨p', t, h1, h2, h3, _⟩ := Wide.act_wide tr e hs (derives_counts hd) p
  obtain ⟨s, new, t', g1, g2, g3, g4, g5, g6, g7⟩ := copy_shape h3
  refine ⟨p', t, s, new, t', ?_, h2, g1, g2, g3, g4, g5, fun n hn m hm => ?_⟩
  · have := PState.parseLoop_derives tr ts e hd b z hb hz p fuel hf
    rw [hz', h1] at this
    cases rest with
    | nil => exact this
    | cons r rest => exact this
  · have := g6 n hn
    have := g7 m hm
    omega

/-- C11 on `c|ac*`. -/
example : ∃ p' t s new t', PState.parseLoop Ex.tr 100 ⟨[], [], 65535, 65535, []⟩ [Ex.tBegin] Ex.tC
      [Ex.tOr, Ex.tA, Ex.tC, Ex.tStar, Ex.tEnd] = .ok p' ∧
      p'.trees = [t] ∧ shape p'.heap t = some s ∧
      p'.heap.copy Ex.tr.nullToken t = .ok (p'.heap ++ new, t') ∧
      shape (p'.heap ++ new) t' = some s ∧ new.length = 3 := by
  have h := C11_copy (tr := Ex.tr) Ex.derPrec (by simp only [CharSets, Ex.ePrec, Re.AllChars]; decide)
    (b := Ex.tBegin) (t1 := Ex.tC) (rest := [Ex.tOr, Ex.tA, Ex.tC, Ex.tStar, Ex.tEnd]) rfl
    ⟨Ex.tEnd, rfl, rfl⟩ ⟨[], [], 65535, 65535, []⟩ 100 (by decide)
  obtain ⟨p', t, s, new, t', h1, h2, h3, h4, h5, _⟩ := h
  refine ⟨p', t, s, new, t', h1, h2, h3, h4, h5, ?_⟩
  have h6 : (((PState.parseLoop Ex.tr 100 ⟨[], [], 65535, 65535, []⟩ [Ex.tBegin] Ex.tC
      [Ex.tOr, Ex.tA, Ex.tC, Ex.tStar, Ex.tEnd]).toOption.bind fun p => p.trees.head?.bind fun t =>
        (p.heap.copy Ex.tr.nullToken t).toOption.map fun x => (p.heap.length, x.1.length))) = some (3, 6) := by
    decide +kernel
  have h1' : PState.parseLoop Ex.tr 100 ⟨[], [], 65535, 65535, []⟩ [Ex.tBegin] Ex.tC
      [Ex.tOr, Ex.tA, Ex.tC, Ex.tStar, Ex.tEnd] = .ok p' := h1
  rw [h1'] at h6
  simp only [Except.toOption, h2, Option.bind, List.head?, h4, Option.map, Option.some.injEq, Prod.mk.injEq,
    List.length_append] at h6
  omega

/-- C44.  If `build` returns on rules made of terminals (charsets, `^`, `$`, `|`,
parentheses, repetition operators with legal counts) in which no prefix has a surplus
closing parenthesis, then every rule is in the grammar. -/
theorem C44_built_only_if_in_grammar {tr : Traits} {addr : Nat → Nat} {R : Rules} {sm : Internals}
    (hreg : ∀ rs ∈ R.states, ∀ r ∈ rs, FromTokeniser r.regex) (h : buildTemp tr addr R = .ok sm) :
    ∀ rs ∈ R.states, ∀ r ∈ rs, ∃ e, Denotes r.regex e :=
  buildTemp_sound hreg h

/-- C44 has content: the regexes `|a` and `a)`.  The second one is refused by the
tokeniser only; the parser takes it (it silently drops the parenthesis), which is why
the theorem needs its hypothesis. -/
example : FromTokeniser [Ex.tBegin, Ex.tOr, Ex.tA, Ex.tEnd] ∧
    (buildTemp Ex.tr (fun n => n)
      ⟨[[⟨[Ex.tBegin, Ex.tOr, Ex.tA, Ex.tEnd], 1, 0, 0, 65535, false⟩]], [0], 0, false, false⟩).isOk = false ∧
    (buildTemp Ex.tr (fun n => n)
      ⟨[[⟨[Ex.tBegin, Ex.tA, Ex.tClose, Ex.tEnd], 1, 0, 0, 65535, false⟩]], [0], 0, false, false⟩).isOk = true := by
  refine ⟨⟨Ex.tBegin, Ex.tEnd, [Ex.tOr, Ex.tA], rfl, rfl, rfl, ?_, ?_⟩, by decide +kernel, by decide +kernel⟩
  · intro t ht
    simp only [List.mem_cons, List.not_mem_nil, or_false] at ht
    rcases ht with rfl | rfl
    · exact .inl rfl
    · exact .inr (.inl rfl)
  · intro u v h
    have : ∀ t ∈ u, t.type ≠ .closeparen := by
      intro t ht
      have : t ∈ [Ex.tOr, Ex.tA] := by rw [h]; simp [ht]
      simp only [List.mem_cons, List.not_mem_nil, or_false] at this
      rcases this with rfl | rfl <;> decide
    rw [List.countP_eq_zero.2 (by intro t ht; simp [this t ht])]
    omega

/-- C09.  `v`: the positions of a DFA state, each an end node or a leaf whose charset
has classes.  The transitions `es` computed for it:
* an index has a transition exactly if some position of `v` accepts it, and then
  exactly one;
* the transition leads to the positions that follow some position of `v` accepting the
  index;
* in the order in which these positions and their followers are listed. -/
theorem C09_transition_sets {tr : Traits} {sm : List (List Nat)} {ncls : Nat} {h : Heap} {v : List Nat}
    (hv : ∀ n ∈ v, NodeOk tr sm ncls h n) :
    ∃ es, buildEquivList tr h sm v = .ok es ∧
      (∀ x, (∃ n ∈ v, AcceptsIdx tr sm h n x) ↔ ∃ e ∈ es, x ∈ e.indexVector) ∧
      es.Pairwise (fun e e' => ∀ x ∈ e.indexVector, x ∉ e'.indexVector) ∧
      (∀ e ∈ es, ∀ x ∈ e.indexVector, ∀ q, q ∈ e.followpos ↔ ∃ n ∈ v, AcceptsIdx tr sm h n x ∧ Follows h n q) ∧
      ∀ e ∈ es, ∀ x ∈ e.indexVector, ∃ (ns : List Nat) (fs : List (List Nat)), ns.Sublist v ∧ (∀ n, n ∈ ns ↔ n ∈ v ∧ AcceptsIdx tr sm h n x) ∧
        ns.map (fun n => h[n]?.map (·.follow)) = fs.map some ∧ firsts e.followpos = firsts fs.flatten := by
  obtain ⟨es, h1, h2, h3, h4⟩ := buildEquivList_spec tr sm ncls h v hv
  have hm : ∀ x n, n ∈ hitsOf tr sm h v x ↔ n ∈ v ∧ AcceptsIdx tr sm h n x := by
    intro x n
    simp only [hitsOf, List.mem_filter, decide_eq_true_eq, mem_idxOf]
  refine ⟨es, h1, fun x => ⟨?_, ?_⟩, h3, ?_, ?_⟩
  · rintro ⟨n, hn, ha⟩
    exact h4 x (List.ne_nil_of_mem ((hm x n).2 ⟨hn, ha⟩))
  · rintro ⟨e, he, hx⟩
    obtain ⟨n, hn⟩ := List.exists_mem_of_ne_nil _ ((h2 e he).2.2 x hx).1
    exact ⟨n, (hm x n).1 hn⟩
  · intro e he x hx q
    rw [((h2 e he).2.2 x hx).2.1, mem_follAll]
    constructor
    · rintro ⟨n, hn, hq⟩
      exact ⟨n, ((hm x n).1 hn).1, ((hm x n).1 hn).2, mem_fol.1 hq⟩
    · rintro ⟨n, hn, ha, hq⟩
      exact ⟨n, (hm x n).2 ⟨hn, ha⟩, mem_fol.2 hq⟩
  · intro e he x hx
    refine ⟨hitsOf tr sm h v x, (hitsOf tr sm h v x).map h.fol, List.filter_sublist, hm x, ?_, ?_⟩
    · rw [List.map_map]
      refine List.map_congr_left fun n hn => ?_
      obtain ⟨tk, g, fol, hc, _⟩ := ((hm x n).1 hn).2
      simp [Heap.fol, hc]
    · rw [((h2 e he).2.2 x hx).2.1, firsts_follAll, List.flatMap_def]

/-- C09 on a state with two overlapping leaves: classes 0, 1 lead to position 2, classes
1, 2 to position 3. -/
example : (∀ n ∈ [0, 1], NodeOk Ex.tr [[0, 1], [1, 2]] 3
      [⟨.leaf 0 .yes, [2]⟩, ⟨.leaf 1 .yes, [3]⟩, ⟨.leaf 0 .yes, []⟩, ⟨.leaf 0 .yes, []⟩] n) ∧
    ((buildEquivList Ex.tr [⟨.leaf 0 .yes, [2]⟩, ⟨.leaf 1 .yes, [3]⟩, ⟨.leaf 0 .yes, []⟩, ⟨.leaf 0 .yes, []⟩]
      [[0, 1], [1, 2]] [0, 1]).toOption.map fun es => es.map fun e => (e.indexVector, e.followpos)) =
      some [([0], [2]), ([1], [2, 3]), ([2], [3])] := by
  refine ⟨?_, by decide +kernel⟩
  intro n hn
  simp only [List.mem_cons, List.not_mem_nil, or_false] at hn
  rcases hn with rfl | rfl
  · exact .inr ⟨0, rfl, .inr (.inr (.inr ⟨[0, 1], rfl, by decide, by decide, by decide⟩))⟩
  · exact .inr ⟨1, rfl, .inr (.inr (.inr ⟨[1, 2], rfl, by decide, by decide, by decide⟩))⟩

end Lexertl.Props
