import Verif.Proofs.LazyProgram
import Verif.Props.Eol
import Verif.Props.Regexes

/-
Rules with non-greedy operators, given as texts (C59).
-/
namespace Lexertl.Props
open Spec Reading

/-- C59: the shortened expression matches only texts the expression matches, and some
beginning of every text the expression matches: the texts of which the expression matches no
shorter beginning are those of which the shortened expression matches none. -/
theorem C59_shortened_shortest {r s : Re} (h : Shortened r s) :
    (∀ w, s.Matches w → r.Matches w) ∧ (∀ w, r.Matches w → ∃ u v, w = u ++ v ∧ s.Matches u) ∧ s.endsLazy = false := by
  induction h with
  | done r hr => exact ⟨fun _ h => h, fun w h => ⟨w, [], by simp, h⟩, hr⟩
  | step r s t h1 _ ih =>
    obtain ⟨g1, g2, g3⟩ := ih
    refine ⟨fun w h => Lazy.shorter_sub h1 (g1 w h), fun w h => ?_, g3⟩
    obtain ⟨u, v, rfl, hu⟩ := Lazy.shorter_prefix h1 h
    obtain ⟨a, b, rfl, ha⟩ := g2 u hu
    exact ⟨a, b ++ v, by simp, ha⟩

/-- C59: `push` accepts a text that means an expression; the non-greedy operators that are
last are replaced by the fewest repetitions they allow, and `push` adds one rule for each
alternative of the resulting expression (or for several of them together), in their order,
whose tokens denote them. -/
theorem C59_push_partial {E : TokEnv} (hE : TokEnvOk E) (hC : CharsOk E) {tr : Traits} {M : List (List Nat × Re)} {o : RulesObj}
    (hM : MacrosMean E o.macros M) {w : List Nat} {r s : Re} {id uid : Nat} (hid : id ≠ 0) (hid' : id ≠ tr.npos) (ho : o.states ≠ [])
    (hw : TextOk E w) (h : Means E M o.flags w r) (hg : Shortened r s) :
    ∃ (ps : List (List Tok × Re)) (n : Nat),
      o.pushInitial E tr w id uid = (o.extend 0 (ps.map fun p => ⟨p.1, id, uid, 0, tr.npos, false⟩) n, .ok ()) ∧
      (∀ p ∈ ps, Denotes p.1 (some p.2)) ∧ Alternatives s (ps.map (·.2)) := by
  obtain ⟨ps, n, h1, h2, h3, _⟩ := Lazy.pushInitial_lazy hE hC hM (uid := uid) hid hid' ho hw h hg
  exact ⟨ps, n, h1, h2, h3⟩

/-- C59: from texts to lexers.  A program of macros and rules, all with a meaning, is
accepted.  Non-greedy operators that are last are replaced by the fewest repetitions they
allow (`es`: the resulting expressions).  If a machine is built from the program, then,
whatever a call of `lookup` returns: if it is `npos`, no expression matches any text there;
if it is a token, then it is the token of the first expression to match its text, and if this
expression has no non-greedy operators, then no expression matches a longer text. -/
theorem C59_program_lexes_partial {E : TokEnv} (hE : TokEnvOk E) (hC : CharsOk E) {tr : Traits} (hmax : E.max + 1 = charsOf tr)
    (hnpos : 263 ≤ tr.npos) {f : ReFlags} {cs : List Call} {M : List (List Nat × Re)} {es : List (Re × Nat × Nat)}
    (h : LazyProgram E tr.npos f cs M es) (hbol : ∀ e ∈ es, e.1.noBol = true) (heol : ∀ e ∈ es, e.1.noEol = true)
    (hplanes : tr.compressed = true → tr.char24 = true → ∀ e ∈ es, e.1.AllChars fun t => ∀ x ∈ t, FewPlanes x)
    (hcount : (es.map fun e => e.1.slots tr).sum + 2 ≤ tr.npos) :
    (∃ o, AllOk E tr (RulesObj.new tr f) cs o) ∧
    ∀ o, AllOk E tr (RulesObj.new tr f) cs o → ∀ addr sm, buildTemp tr addr o.rules = .ok sm →
      ∀ (fl : Flags) (inp : List Nat), (∀ c ∈ inp, c < charsOf tr) →
      ∀ r : Results, r.state = 0 → r.stack = [] → r.second ≤ r.eoi → r.eoi ≤ inp.length →
      ∀ r', Returns fl tr.npos (bytesOf tr) sm inp r (.ok r') →
        (r'.id = tr.npos → r.second ≤ r'.first ∧ r'.first < r.eoi ∧
          ∀ e ∈ es, ∀ k, r'.first ≤ k → k ≤ r.eoi → ¬ e.1.Matches (text inp r'.first k)) ∧
        (r'.id ≠ tr.npos → r'.id ≠ 0 → r.second ≤ r'.first ∧ r'.first ≤ r'.second ∧ r'.second ≤ r.eoi ∧
          ∃ (j : Nat) (e : Re × Nat × Nat), es[j]? = some e ∧ r'.id = e.2.1 ∧ r'.userId = e.2.2 ∧ e.1.Matches (text inp r'.first r'.second) ∧
            (∀ (i : Nat) (e' : Re × Nat × Nat), i < j → es[i]? = some e' → ¬ e'.1.Matches (text inp r'.first r'.second)) ∧
            (e.1.greedy = true → ∀ e' ∈ es, ∀ k, r'.second < k → k ≤ r.eoi → ¬ e'.1.Matches (text inp r'.first k))) := by
  obtain ⟨o, xs, h1, h2⟩ := Lazy.program_run hE hC h
  refine ⟨⟨o, h1⟩, ?_⟩
  intro o' ho' addr sm hsm fl inp hinp r hr hst hp he r' hret
  rw [allOk_unique ho' h1] at hsm
  have hA := Lazy.program_anyRules hmax h2 hbol heol hplanes hcount
  have nb : ∀ x ∈ xs, NoBol x.2 := by
    intro x hx
    obtain ⟨e, he, rs, q, ha, hq, hxq⟩ := Lazy.grouped_mem h2.rules x hx
    rw [hxq]
    exact Lazy.alts_noBol ha (hbol e he) q hq
  have B : BuiltAny tr o.rules [xs] fl inp sm := by
    refine ⟨hnpos, hA, ⟨?_, ?_⟩, ⟨addr, hsm⟩, hinp⟩
    · intro ys hys x hx
      simp at hys; subst hys
      exact .inr (by rw [(h2.each x hx).2.1]; simp)
    · intro ys hys x hx hne
      simp at hys; subst hys
      exact absurd (h2.each x hx).2.2.1 hne
  have hR : ROk ⟨[xs], tr.npos, o.rules.eoi, fl, inp⟩ r := ⟨by rw [hr]; simp, by simp [hst], he⟩
  have line : ∀ {b : Bool} {x : SRule} {w : List Sym}, x ∈ xs → (LineMatch b x.2 w ↔ RMatches x.2 w) := fun hx => line_noBol (nb _ hx) _
  have none_of : ∀ {b : Bool} {p k : Nat}, (∀ e ∈ xs.map (·.2), ¬ LineMatch b e (text inp p k)) → ∀ e ∈ es, ¬ e.1.Matches (text inp p k) := by
    intro b p k hn e he hm
    obtain ⟨x, hx, hxm⟩ := Lazy.grouped_cover h2.rules e he hm
    exact hn x.2 (List.mem_map_of_mem hx) ((line hx).2 hxm)
  constructor
  · intro hid
    obtain ⟨ys, b, g1, g2, g3, _, g5, _, g7, _⟩ := C50_reported_only_if_no_match_partial B (by simp [RulesObj.rules]; omega)
      (by
        intro ys hys x hx
        simp at hys; subst hys
        exact (h2.each x hx).2.2.2.2.2.1) hp hR hret hid
    have hys : ys = xs := by
      have := List.mem_of_getElem? g1
      simpa using this
    subst hys
    refine ⟨g2, g3, fun e he k hk hk' => ?_⟩
    rcases Nat.lt_or_eq_of_le hk with hk | rfl
    · exact none_of (g5 k hk hk').1 e he
    · intro hm
      obtain ⟨x, hx, hxm⟩ := Lazy.grouped_cover h2.rules e he hm
      rw [show text inp r'.first r'.first = [] by simp [text]] at hxm
      exact g7 x.2 (List.mem_map_of_mem hx) hxm
  · intro hid h0
    obtain ⟨ys, hys, j, x, hx, e1, e2, p, b, p1, p2, p3, p4, p5, m1, m2, m3, _⟩ := C50_longest_unless_lazy_partial B hp hR hret hid h0
    simp at hys
    subst hys
    have hfp : r'.first = p := m3 (by
      intro zs hzs z hz
      simp at hzs; subst hzs
      exact (h2.each z hz).2.2.2.2.1) (by simp [hst])
    subst hfp
    have hxm := List.mem_of_getElem? hx
    have hfirst : RMatches x.2 (text inp r'.first r'.second) ∧
        ∀ (i : Nat) (y : SRule), i < j → ys[i]? = some y → ¬ RMatches y.2 (text inp r'.first r'.second) := by
      rcases m1 with m | ⟨_, _, m⟩ | ⟨m0, m⟩
      · refine ⟨?_, fun i y hi hy hym => m.earliest i y.2 hi (by simp [hy]) ((line (List.mem_of_getElem? hy)).2 hym)⟩
        obtain ⟨e, k1, k2⟩ := m.hit
        simp [hx] at k1
        subst k1
        exact (line hxm).1 k2
      · exfalso
        obtain ⟨e, k1, k2⟩ := m.hit
        simp [hx] at k1
        subst k1
        have k2 := (line hxm).1 k2
        obtain ⟨e, he, rs, q, ha, hq, hxq⟩ := Lazy.grouped_mem h2.rules x hxm
        rw [hxq] at k2
        exact Lazy.noEol_words (Lazy.alts_noEol ha (heol e he) q hq) k2 (by simp)
      · rw [m0, show text inp r'.second r'.second = [] by simp [text]]
        refine ⟨?_, fun i y hi hy hym => m.earliest i y.2 hi (by simp [hy]) hym⟩
        obtain ⟨e, k1, k2⟩ := m.hit
        simp [hx] at k1
        subst k1
        exact k2
    obtain ⟨i, e, g1, g2, g3, g4, g5, rs, q, ha, hq, hxq⟩ := Lazy.grouped_first h2.rules hx hfirst.1 hfirst.2
    refine ⟨p1, p4, p5, i, e, g1, e1.trans g2, e2.trans g3, g4, g5, fun hg e' he' k hk hk' => ?_⟩
    exact none_of (m2 (by rw [hxq]; exact Lazy.alts_greedy ha hg q hq) k hk hk').1 e' he'

/-! ### Operators that are last -/

/-- Texts with the same tokens take the same inputs. -/
theorem takes_same {E : TokEnv} {tr : Traits} {f : ReFlags} {w v : List Nat} {P : List Nat → Prop}
    (hs : tokenise E f [] false w = tokenise E f [] false v) (h : TextTakes E tr f v P) : TextTakes E tr f w P := by
  have hf : (RulesObj.new tr f).flags = f := by
    unfold RulesObj.new RulesObj.pushState
    split
    · rfl
    split
    · rfl
    dsimp only
    split <;> rfl
  have hm := (new_statesOk tr f).2.2.1
  have hp : (RulesObj.new tr f).pushInitial E tr w 1 0 = (RulesObj.new tr f).pushInitial E tr v 1 0 := by
    unfold RulesObj.pushInitial
    rw [hm, hf, hs]
  obtain ⟨⟨o, h1⟩, h2⟩ := h
  refine ⟨⟨o, .snoc _ [] _ _ _ (.nil _) ?_⟩, fun o' ho' => h2 o' (.snoc _ [] _ _ _ (.nil _) ?_)⟩
  · exact hp.trans (oneRule_run h1)
  · exact hp.symm.trans (oneRule_run ho')

theorem same_ok {α : Type} {x y : M α} (h : x.toOption = y.toOption ∧ x.isOk = true) : x = y := by
  obtain ⟨h, h'⟩ := h
  cases x with
  | error _ => cases h'
  | ok a =>
    cases y with
    | error _ => cases h
    | ok b => cases h; rfl

namespace Ex

def one (c : Nat) : Re := .chars [(c, c)]

theorem reads_one {start : Bool} {fs : List ReFlags} (c : Nat) {w : List Nat} {ls : List Lx} (h1 : c ∉ metaChars)
    (hw : Spec.Reads env false {} fs false w ls) : Spec.Reads env start {} fs false (c :: w) (.chars [(c, c)] :: ls) :=
  .atom start {} fs false [c] _ _ w _ (.plain _ _ _ h1 (by simp)) (isSet_chr c) hw

theorem item_one {M : List (List Nat × Re)} (c : Nat) : Parses M .item [.chars [(c, c)]] (one c) := .item _ _ (.set _ _ (.chars _))

/-- `xa??|b` -/
theorem means_xab : Means env [] {} (chars "xa??|b") (.alt (.seq (one 120) (.opt (one 97) true)) (one 98)) :=
  ⟨[.chars [(120, 120)], .chars [(97, 97)], .rep 0 (some 1) true, .bar, .chars [(98, 98)]],
    reads_one 120 (by decide) (reads_one 97 (by decide) (.repLazy _ _ _ [63] _ _ _ _ (by decide) (.bar _ _ _ _ _ (reads_one 98 (by decide) (.done _ _))))),
    .alt [.chars [(120, 120)], .chars [(97, 97)], .rep 0 (some 1) true] [.chars [(98, 98)]] _ _
      (.alt1 _ _ (.seq [.chars [(120, 120)]] [.chars [(97, 97)], .rep 0 (some 1) true] _ _ (.seq1 _ _ (item_one 120))
        (.rep [.chars [(97, 97)]] _ _ _ _ (.set _ _ (.chars _))))) (.seq1 _ _ (item_one 98))⟩

theorem means_xb : Means env [] {} (chars "xb") (.seq (one 120) (one 98)) :=
  ⟨[.chars [(120, 120)], .chars [(98, 98)]], reads_one 120 (by decide) (reads_one 98 (by decide) (.done _ _)),
    .alt1 _ _ (.seq [.chars [(120, 120)]] [.chars [(98, 98)]] _ _ (.seq1 _ _ (item_one 120)) (item_one 98))⟩

end Ex

theorem one_iff (c : Nat) (w : List Sym) : (Ex.one c).Matches w ↔ w = [.ch c] := by
  constructor
  · rintro ⟨d, hd, rfl⟩
    simp [Mem] at hd
    rw [show d = c by omega]
  · rintro rfl
    exact ⟨c, by simp [Mem], rfl⟩

theorem two_takes {w : List Nat} {a b : Nat} (hw : TextOk Ex.env w) (h : Means Ex.env [] {} w (.seq (Ex.one a) (Ex.one b))) :
    TextTakes Ex.env Ex.tr {} w (fun inp => inp = [a, b]) := by
  have := C49_text_decides Ex.envOk Ex.charsOk (tr := Ex.tr) (by decide) (by decide) (f := {}) hw h rfl rfl rfl
    (fun h => by cases h) (show 1 + 1 + 2 ≤ 65535 by decide)
  have he : (fun inp : List Nat => (Re.seq (Ex.one a) (Ex.one b)).Matches (inp.map .ch)) = fun inp => inp = [a, b] := by
    funext inp
    refine propext ⟨?_, ?_⟩
    · rintro ⟨u, v, huv, hu, hv⟩
      rw [(one_iff _ _).1 hu, (one_iff _ _).1 hv] at huv
      match inp, huv with
      | [a, b], huv => simpa using huv
    · rintro rfl
      exact ⟨[.ch a], [.ch b], rfl, (one_iff _ _).2 rfl, (one_iff _ _).2 rfl⟩
  rwa [he] at this

/-- Non-greedy operators that are last are removed before the rule is read, and this can
change the expression: `xa??|b` matches "x", "xa" and "b", but the lexer with this rule takes
exactly the text "xb". -/
theorem C59_last_operator_joins_alternatives :
    Means Ex.env [] {} (chars "xa??|b") (.alt (.seq (Ex.one 120) (.opt (Ex.one 97) true)) (Ex.one 98)) ∧
    TextTakes Ex.env Ex.tr {} (chars "xa??|b") (fun inp => inp = chars "xb") ∧
    ¬ (Re.alt (.seq (Ex.one 120) (.opt (Ex.one 97) true)) (Ex.one 98)).Matches ((chars "xb").map .ch) := by
  refine ⟨Ex.means_xab, takes_same (v := chars "xb") (same_ok (by decide +kernel)) (two_takes (by unfold TextOk; decide) Ex.means_xb), ?_⟩
  rintro (⟨u, v, huv, hu, hv⟩ | h)
  · rw [(one_iff _ _).1 hu] at huv
    rcases hv with rfl | hv
    · simp [chars] at huv
    · rw [(one_iff _ _).1 hv] at huv
      simp [chars] at huv
  · have := (one_iff _ _).1 h
    simp [chars] at this

/-- `x(b??|a)` matches "x", but the lexer with this rule takes exactly the text "xa". -/
theorem C59_last_operator_loses_text :
    Means Ex.env [] {} (chars "x(b??|a)") (.seq (Ex.one 120) (.alt (.opt (Ex.one 98) true) (Ex.one 97))) ∧
    TextTakes Ex.env Ex.tr {} (chars "x(b??|a)") (fun inp => inp = chars "xa") ∧
    (Re.seq (Ex.one 120) (.alt (.opt (Ex.one 98) true) (Ex.one 97))).Matches ((chars "x").map .ch) := by
  refine ⟨?_, takes_same (v := chars "x(a)") (same_ok (by decide +kernel)) (two_takes (by unfold TextOk; decide) ?_), ?_⟩
  · refine ⟨[.chars [(120, 120)], .opn, .chars [(98, 98)], .rep 0 (some 1) true, .bar, .chars [(97, 97)], .cls],
      Ex.reads_one 120 (by decide) (.opn _ _ _ _ _ (by decide) (Ex.reads_one 98 (by decide) (.repLazy _ _ _ [63] _ _ _ _ (by decide)
        (.bar _ _ _ _ _ (Ex.reads_one 97 (by decide) (.cls _ _ _ _ _ _ (.done _ _))))))),
      .alt1 _ _ (.seq [.chars [(120, 120)]] (.opn :: [.chars [(98, 98)], .rep 0 (some 1) true, .bar, .chars [(97, 97)]] ++ [.cls]) _ _
        (.seq1 _ _ (Ex.item_one 120)) (.item _ _ (.paren _ _ ?_)))⟩
    exact .alt [.chars [(98, 98)], .rep 0 (some 1) true] [.chars [(97, 97)]] _ _
      (.alt1 _ _ (.seq1 _ _ (.rep [.chars [(98, 98)]] _ _ _ _ (.set _ _ (.chars _))))) (.seq1 _ _ (Ex.item_one 97))
  · exact ⟨[.chars [(120, 120)], .opn, .chars [(97, 97)], .cls],
      Ex.reads_one 120 (by decide) (.opn _ _ _ _ _ (by decide) (Ex.reads_one 97 (by decide) (.cls _ _ _ _ _ _ (.done _ _)))),
      .alt1 _ _ (.seq [.chars [(120, 120)]] (.opn :: [.chars [(97, 97)]] ++ [.cls]) _ _
        (.seq1 _ _ (Ex.item_one 120)) (.item _ _ (.paren _ _ (.alt1 _ _ (.seq1 _ _ (Ex.item_one 97))))))⟩
  · exact ⟨[.ch 120], [], rfl, (one_iff _ _).2 rfl, .inl (.inl rfl)⟩

namespace Ex

def lazyCalls : List Call := [.push (chars "xa*?b|c") 1 5, .push (chars "a+") 2 6, .push (chars "y(za+?)*?") 3 7, .push (chars "y(za+?)") 4 8]

def lazyRe : Re := .alt (.seq (.seq (one 120) (.star (one 97) true)) (one 98)) (one 99)

theorem means_lazy : Means env [] {} (chars "xa*?b|c") lazyRe :=
  ⟨[.chars [(120, 120)], .chars [(97, 97)], .rep 0 none true, .chars [(98, 98)], .bar, .chars [(99, 99)]],
    reads_one 120 (by decide) (reads_one 97 (by decide) (.repLazy _ _ _ [42] _ _ _ _ (by decide) (reads_one 98 (by decide)
      (.bar _ _ _ _ _ (reads_one 99 (by decide) (.done _ _)))))),
    .alt [.chars [(120, 120)], .chars [(97, 97)], .rep 0 none true, .chars [(98, 98)]] [.chars [(99, 99)]] _ _
      (.alt1 _ _ (.seq [.chars [(120, 120)], .chars [(97, 97)], .rep 0 none true] [.chars [(98, 98)]] _ _
        (.seq [.chars [(120, 120)]] [.chars [(97, 97)], .rep 0 none true] _ _ (.seq1 _ _ (item_one 120))
          (.rep [.chars [(97, 97)]] _ _ _ _ (.set _ _ (.chars _)))) (item_one 98))) (.seq1 _ _ (item_one 99))⟩

theorem means_as : Means env [] {} (chars "a+") (.plus (one 97) false) :=
  ⟨[.chars [(97, 97)], .rep 1 none false], reads_one 97 (by decide) (.rep _ _ _ [43] _ _ _ _ (by decide) (by decide) (.done _ _)),
    .alt1 _ _ (.seq1 _ _ (.rep [.chars [(97, 97)]] _ _ _ _ (.set _ _ (.chars _))))⟩

def lastRe : Re := .seq (one 122) (.plus (one 97) true)

theorem parses_last : Parses [] .alt [.chars [(122, 122)], .chars [(97, 97)], .rep 1 none true] lastRe :=
  .alt1 _ _ (.seq [.chars [(122, 122)]] [.chars [(97, 97)], .rep 1 none true] _ _ (.seq1 _ _ (item_one 122))
    (.rep [.chars [(97, 97)]] _ _ _ _ (.set _ _ (.chars _))))

theorem means_last1 : Means env [] {} (chars "y(za+?)*?") (.seq (one 121) (.star lastRe true)) :=
  ⟨[.chars [(121, 121)], .opn, .chars [(122, 122)], .chars [(97, 97)], .rep 1 none true, .cls, .rep 0 none true],
    reads_one 121 (by decide) (.opn _ _ _ _ _ (by decide) (reads_one 122 (by decide) (reads_one 97 (by decide) (.repLazy _ _ _ [43] _ _ _ _ (by decide)
      (.cls _ _ _ _ _ _ (.repLazy _ _ _ [42] _ _ _ _ (by decide) (.done _ _))))))),
    .alt1 _ _ (.seq [.chars [(121, 121)]] (.opn :: [.chars [(122, 122)], .chars [(97, 97)], .rep 1 none true] ++ [.cls] ++ [.rep 0 none true]) _ _
      (.seq1 _ _ (item_one 121)) (.rep _ _ _ _ _ (.paren _ _ parses_last)))⟩

theorem means_last2 : Means env [] {} (chars "y(za+?)") (.seq (one 121) lastRe) :=
  ⟨[.chars [(121, 121)], .opn, .chars [(122, 122)], .chars [(97, 97)], .rep 1 none true, .cls],
    reads_one 121 (by decide) (.opn _ _ _ _ _ (by decide) (reads_one 122 (by decide) (reads_one 97 (by decide) (.repLazy _ _ _ [43] _ _ _ _ (by decide)
      (.cls _ _ _ _ _ _ (.done _ _)))))),
    .alt1 _ _ (.seq [.chars [(121, 121)]] (.opn :: [.chars [(122, 122)], .chars [(97, 97)], .rep 1 none true] ++ [.cls]) _ _
      (.seq1 _ _ (item_one 121)) (.item _ _ (.paren _ _ parses_last)))⟩

def lazyRes : List (Re × Nat × Nat) :=
  [(lazyRe, 1, 5), (.plus (one 97) false, 2, 6), (one 121, 3, 7), (.seq (one 121) (.seq (one 122) (one 97)), 4, 8)]

theorem lazyProgram : LazyProgram env tr.npos {} lazyCalls [] lazyRes :=
  .rule (lazyCalls.take 3) _ (lazyRes.take 3) _ _ _ _ _
    (.rule (lazyCalls.take 2) _ (lazyRes.take 2) _ _ _ _ _
      (.rule (lazyCalls.take 1) _ (lazyRes.take 1) _ _ _ _ _
        (.rule [] _ [] _ _ _ _ _ .nil (by unfold TextOk; decide) means_lazy (.done _ rfl) (by decide) (by decide))
        (by unfold TextOk; decide) means_as (.done _ rfl) (by decide) (by decide))
      (by unfold TextOk; decide) means_last1 (.step _ _ _ (.star _ _) (.done _ rfl)) (by decide) (by decide))
    (by unfold TextOk; decide) means_last2 (.step _ _ _ (.seq _ _ _ (.seq _ _ _ (.plus _))) (.done _ rfl)) (by decide) (by decide)

end Ex

/-- The hypotheses of C59 are met: the rules `xa*?b|c` (id 1), `a+` (id 2), `y(za+?)*?` (id 3)
and `y(za+?)` (id 4) are accepted, the first as two rules; "xaabcaayyzaa" is lexed as "xaab",
"c", "aa", "y", "yza", "a". -/
example : LazyProgram Ex.env Ex.tr.npos {} Ex.lazyCalls [] Ex.lazyRes ∧ Ex.lazyRe.greedy = false ∧
    Ex.env.max + 1 = charsOf Ex.tr ∧
    (buildTemp Ex.tr (fun i => i) (Ex.runs Ex.lazyCalls Ex.obj0).rules).isOk = true ∧
    (Ex.runs Ex.lazyCalls Ex.obj0).rules.states.map (·.map (·.id)) = [[1, 1, 2, 3, 4]] ∧
    Ex.tokens (Ex.runs Ex.lazyCalls Ex.obj0).rules (chars "xaabcaayyzaa") 7 =
      some [(1, 0, 4), (1, 4, 5), (2, 5, 7), (3, 7, 8), (4, 8, 11), (2, 11, 12), (0, 12, 12)] :=
  ⟨Ex.lazyProgram, rfl, by decide, by decide +kernel, by decide +kernel, by decide +kernel⟩

end Lexertl.Props
