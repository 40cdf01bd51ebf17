import Verif.Proofs.AnchorProgram
import Verif.Props.Lazy

/-
Rules with `^` and `$`, given as texts (C60).
-/
namespace Lexertl.Props
open Spec Reading

/-- Expression `e` matches the input from `p` to `k`, without `$` (`dollar` false) or by `$`;
`^` is satisfied at the starts of lines, `$` at their ends. -/
def MatchesText (inp : List Nat) (eoi : Nat) (dollar : Bool) (e : Option Re) (p k : Nat) : Prop :=
  ∃ atLine : Bool, (atLine = true ↔ AtLineStart inp p) ∧
    if dollar then LineEnd inp eoi k ∧ LineMatch atLine e (text inp p k ++ [.eol]) else LineMatch atLine e (text inp p k)

theorem program_npos {E : TokEnv} {npos : Nat} {f : ReFlags} {cs : List Call} {M : List (List Nat × Re)} {es : List (Re × Nat × Nat)}
    (h : Program E npos f cs M es) : ∀ e ∈ es, e.2.1 ≠ npos := by
  induction h with
  | nil => simp
  | mac _ _ _ _ _ _ _ _ _ _ _ _ _ ih => exact ih
  | rule _ _ _ _ _ _ _ _ _ _ _ _ h0 ih =>
    intro e he
    simp only [List.mem_append, List.mem_cons, List.not_mem_nil, or_false] at he
    rcases he with he | rfl
    · exact ih e he
    · exact h0

/-- C60: a program of macros and rules, all with a meaning, without non-greedy operators, in
which `^` is only first and `$` is used as in C35, is accepted.  If a machine is built from
it, then, whatever a call of `lookup` returns:
- if it is `npos`, then no expression matches a text there, by `$` or without, that is not
  empty, and none matches the empty text by `$`;
- if it is a token, then its ids are those of an expression that matches its text: the first
  to match it by `$`, or the first to match it without; and no expression matches a longer
  text. -/
theorem C60_program_lexes_partial {E : TokEnv} (hE : TokEnvOk E) (hC : CharsOk E) {tr : Traits} (hmax : E.max + 1 = charsOf tr)
    (hnpos : 263 ≤ tr.npos) {f : ReFlags} {cs : List Call} {M : List (List Nat × Re)} {es : List (Re × Nat × Nat)}
    (h : Program E tr.npos f cs M es) (hbol : ∀ e ∈ es, e.1.bolHead = true)
    (heol : (∀ e ∈ es, e.1.noEol = true) ∨ (264 ≤ tr.npos ∧ DollarOk tr (es.map fun e => some e.1)))
    (hplanes : tr.compressed = true → tr.char24 = true → ∀ e ∈ es, e.1.AllChars fun t => ∀ x ∈ t, FewPlanes x)
    (hcount : (es.map fun e => e.1.slots tr + 2 * e.1.dollars).sum + 2 ≤ tr.npos) :
    (∃ o, AllOk E tr (RulesObj.new tr f) cs o) ∧
    ∀ o, AllOk E tr (RulesObj.new tr f) cs o → ∀ addr sm, buildTemp tr addr o.rules = .ok sm →
      ∀ (fl : Flags), fl.bol = true → fl.eol = true → ∀ (inp : List Nat), (∀ c ∈ inp, c < charsOf tr) →
      ∀ r : Results, r.state = 0 → r.stack = [] → r.second ≤ r.eoi → r.eoi ≤ inp.length → (r.bol = true ↔ AtLineStart inp r.second) →
      ∀ r', Returns fl tr.npos (bytesOf tr) sm inp r (.ok r') →
        (r'.id = tr.npos → r.second ≤ r'.first ∧ r'.first < r.eoi ∧ ∀ e ∈ es,
          ¬ MatchesText inp r.eoi true (some e.1) r'.first r'.first ∧ ¬ e.1.Matches [] ∧
          ∀ k, r'.first < k → k ≤ r.eoi → ∀ dollar, ¬ MatchesText inp r.eoi dollar (some e.1) r'.first k) ∧
        (r'.id ≠ tr.npos → r'.id ≠ 0 → r.second ≤ r'.first ∧ r'.first ≤ r'.second ∧ r'.second ≤ r.eoi ∧
          ∃ (j : Nat) (e : Re × Nat × Nat), es[j]? = some e ∧ r'.id = e.2.1 ∧ r'.userId = e.2.2 ∧
            ((∃ dollar, MatchesText inp r.eoi dollar (some e.1) r'.first r'.second ∧
              ∀ (i : Nat) (e' : Re × Nat × Nat), i < j → es[i]? = some e' → ¬ MatchesText inp r.eoi dollar (some e'.1) r'.first r'.second) ∨
             (r'.first = r'.second ∧ e.1.Matches [] ∧ ∀ (i : Nat) (e' : Re × Nat × Nat), i < j → es[i]? = some e' → ¬ e'.1.Matches [])) ∧
            ∀ e' ∈ es, ∀ k, r'.second < k → k ≤ r.eoi → ∀ dollar, ¬ MatchesText inp r.eoi dollar (some e'.1) r'.first k) := by
  obtain ⟨o, xs, h1, h2⟩ := program_run hE hC h
  refine ⟨⟨o, h1⟩, ?_⟩
  intro o' ho' addr sm hsm fl hfb hfe inp hinp r hr hst hp he hrb r' hret
  rw [allOk_unique ho' h1] at hsm
  have hA := Anchors.program_anyRules hmax h2 hbol heol hplanes hcount
  have hxe := Anchors.ran_exprs h2
  have hids : ∀ x ∈ xs, x.1.id ≠ 0 ∧ x.1.id ≠ tr.npos := by
    intro x hx
    have : (x.2, x.1.id, x.1.userId) ∈ es.map (fun e => (some e.1, e.2.1, e.2.2)) := h2.rules ▸ List.mem_map_of_mem hx
    obtain ⟨e, he, heq⟩ := List.mem_map.1 this
    injection heq with _ heq
    injection heq with heq _
    rw [← heq]
    exact ⟨program_ids h e he, program_npos h e he⟩
  have B : BuiltAny tr o.rules [xs] fl inp sm := by
    refine ⟨hnpos, hA, ⟨?_, ?_⟩, ⟨addr, hsm⟩, hinp⟩
    · intro ys hys x hx
      simp at hys; subst hys
      exact .inr (by rw [(h2.each x hx).2.1]; simp)
    · intro ys hys x hx hne
      simp at hys; subst hys
      exact absurd (h2.each x hx).2.2.1 hne
  have hR : ROk ⟨[xs], tr.npos, o.rules.eoi, fl, inp⟩ r := ⟨by rw [hr]; simp, by simp [hst], he⟩
  have same : ∀ {a b : Bool} {p : Nat}, (a = true ↔ AtLineStart inp p) → (b = true ↔ AtLineStart inp p) → a = b := by
    intro a b p ha hb
    rw [← hb] at ha
    cases a <;> cases b <;> simp_all
  have noLonger : ∀ {b : Bool} {p k : Nat}, (b = true ↔ AtLineStart inp p) → NoLonger fl.eol (LineMatch b) (xs.map (·.2)) inp p r.eoi k →
      ∀ e ∈ es, ∀ k', k < k' → k' ≤ r.eoi → ∀ dollar, ¬ MatchesText inp r.eoi dollar (some e.1) p k' := by
    rintro b p k hb hn e hem k' hk hk' dollar ⟨b', hb', hm⟩
    rw [same hb' hb] at hm
    have hmem : some e.1 ∈ xs.map (·.2) := hxe ▸ List.mem_map.2 ⟨e, hem, rfl⟩
    cases dollar with
    | false => exact (hn k' hk hk').1 _ hmem hm
    | true => exact (hn k' hk hk').2 ⟨hfe, hm.1, _, hmem, hm.2⟩
  constructor
  · intro hid
    obtain ⟨ys, b, g1, g2, g3, _, g5, g6, g7, g8, _⟩ := C50_reported_only_if_no_match_partial B (by simp [RulesObj.rules]; omega)
      (by
        intro ys hys x hx
        simp at hys; subst hys
        exact (hids x hx).2) hp hR hret hid
    have hys : ys = xs := by
      have := List.mem_of_getElem? g1
      simpa using this
    subst hys
    have hb := g8 hfb hrb
    refine ⟨g2, g3, fun e hem => ⟨?_, ?_, noLonger hb g5 e hem⟩⟩
    · rintro ⟨b', hb', hm⟩
      rw [same hb' hb] at hm
      exact g6 ⟨hfe, hm.1, _, hxe ▸ List.mem_map.2 ⟨e, hem, rfl⟩, hm.2⟩
    · exact g7 (some e.1) (hxe ▸ List.mem_map.2 ⟨e, hem, rfl⟩)
  · intro hid h0
    obtain ⟨ys, hys, j, x, hx, e1, e2, p, b, p1, p2, p3, p4, p5, m1, m2, m3, m4, _⟩ := C50_longest_unless_lazy_partial B hp hR hret hid h0
    simp at hys
    subst hys
    have hfp : r'.first = p := m3 (by
      intro zs hzs z hz
      simp at hzs; subst hzs
      exact (hids z hz).1) (by simp [hst])
    subst hfp
    have hb := m4 hfb hrb
    have hxm := List.mem_of_getElem? hx
    obtain ⟨e, hj, hxs⟩ : ∃ e, es[j]? = some e ∧ (x.2, x.1.id, x.1.userId) = (some e.1, e.2.1, e.2.2) := by
      have := congrArg (fun l : List (Option Re × Nat × Nat) => l[j]?) h2.rules
      simp only [List.getElem?_map, hx, Option.map_some] at this
      obtain ⟨e, hj, hxs⟩ := Option.map_eq_some_iff.1 this.symm
      exact ⟨e, hj, hxs.symm⟩
    injection hxs with h3 h4
    injection h4 with h4 h5
    have hget : ∀ {i : Nat} {e' : Re × Nat × Nat}, es[i]? = some e' → (ys.map (·.2))[i]? = some (some e'.1) := by
      intro i e' hi
      rw [hxe, List.getElem?_map, hi]
      rfl
    have hit : ∀ {a : Option Re}, (ys.map (·.2))[j]? = some a → a = some e.1 := by
      intro a ha
      rw [hget hj] at ha
      exact (Option.some.inj ha).symm
    refine ⟨p1, p4, p5, j, e, hj, e1.trans h4, e2.trans h5, ?_, ?_⟩
    · rcases m1 with m | ⟨_, hl, m⟩ | ⟨m0, m⟩
      · obtain ⟨a, k1, k2⟩ := m.hit
        rw [hit k1] at k2
        refine .inl ⟨false, ⟨b, hb, k2⟩, ?_⟩
        rintro i e' hi hei ⟨b', hb', hm⟩
        rw [same hb' hb] at hm
        exact m.earliest i _ hi (hget hei) hm
      · obtain ⟨a, k1, k2⟩ := m.hit
        rw [hit k1] at k2
        refine .inl ⟨true, ⟨b, hb, hl, k2⟩, ?_⟩
        rintro i e' hi hei ⟨b', hb', hm⟩
        rw [same hb' hb] at hm
        exact m.earliest i _ hi (hget hei) hm.2
      · obtain ⟨a, k1, k2⟩ := m.hit
        rw [hit k1] at k2
        exact .inr ⟨m0, k2, fun i e' hi hei hm => m.earliest i _ hi (hget hei) hm⟩
    · obtain ⟨a, ha, hg, _⟩ := (h2.each x hxm).2.2.2.2
      exact noLonger hb (m2 (by rw [ha]; exact hg))

namespace Ex

def anchorCalls : List Call := [.push (chars "^b") 1 5, .push (chars "a$") 2 6, .push (chars "a") 3 7, .push (chars "\n") 4 8]

def anchorRes : List (Re × Nat × Nat) := [(.seq .bol (one 98), 1, 5), (.seq (one 97) .eol, 2, 6), (one 97, 3, 7), (one 10, 4, 8)]

theorem means_one (c : Nat) (h : c ∉ metaChars) : Means env [] {} [c] (one c) :=
  ⟨[.chars [(c, c)]], reads_one c h (.done _ _), .alt1 _ _ (.seq1 _ _ (item_one c))⟩

theorem means_bol : Means env [] {} (chars "^b") (.seq .bol (one 98)) :=
  ⟨[.bol, .chars [(98, 98)]], .bol _ _ _ _ (reads_one 98 (by decide) (.done _ _)),
    .alt1 _ _ (.seq [.bol] [.chars [(98, 98)]] _ _ (.seq1 _ _ (.item _ _ .bol)) (item_one 98))⟩

theorem means_eol : Means env [] {} (chars "a$") (.seq (one 97) .eol) :=
  ⟨[.chars [(97, 97)], .eol], reads_one 97 (by decide) (.eol _ _ _ _ (.done _ _)),
    .alt1 _ _ (.seq [.chars [(97, 97)]] [.eol] _ _ (.seq1 _ _ (item_one 97)) (.item _ _ .eol))⟩

theorem anchorProgram : Program env tr.npos {} anchorCalls [] anchorRes :=
  .rule (anchorCalls.take 3) _ (anchorRes.take 3) _ _ _ _
    (.rule (anchorCalls.take 2) _ (anchorRes.take 2) _ _ _ _
      (.rule (anchorCalls.take 1) _ (anchorRes.take 1) _ _ _ _
        (.rule [] _ [] _ _ _ _ .nil (by unfold TextOk; decide) means_bol rfl (by decide) (by decide))
        (by unfold TextOk; decide) means_eol rfl (by decide) (by decide))
      (by unfold TextOk; decide) (means_one 97 (by decide)) rfl (by decide) (by decide))
    (by unfold TextOk; decide) (means_one 10 (by decide)) rfl (by decide) (by decide)

theorem anchorDollar : DollarOk tr (anchorRes.map fun e => some e.1) := by
  have hm : ∀ e ∈ anchorRes.map (fun e => some e.1), ∀ w, RMatches e w →
      w = [.bol, .ch 98] ∨ w = [.ch 97, .eol] ∨ w = [.ch 97] ∨ w = [.ch 10] := by
    simp only [anchorRes, List.map_cons, List.map_nil, List.mem_cons, List.not_mem_nil, or_false, forall_eq_or_imp, forall_eq]
    refine ⟨fun w h => ?_, fun w h => ?_, fun w h => .inr (.inr (.inl (chr_iff.1 h))), fun w h => .inr (.inr (.inr (chr_iff.1 h)))⟩
    · obtain ⟨u, v, rfl, hu, hv⟩ := h
      rw [show u = [.bol] from hu, (one_iff _ _).1 hv]
      exact .inl rfl
    · obtain ⟨u, rfl, hu⟩ := dollar_iff.1 h
      rw [chr_iff.1 hu]
      exact .inr (.inl rfl)
  have hl : ∀ e ∈ anchorRes.map (fun e => some e.1), ∀ b w, LineMatch b e w →
      w = [.bol, .ch 98] ∨ w = [.ch 97, .eol] ∨ w = [.ch 97] ∨ w = [.ch 10] ∨ w = [.ch 98] := by
    intro e he b w h
    rcases h with ⟨_, h⟩ | ⟨_, h⟩
    · rcases hm e he _ h with h | h | h | h <;> simp at h
      exact .inr (.inr (.inr (.inr h)))
    · rcases hm e he _ h with h | h | h | h
      · exact .inl h
      · exact .inr (.inl h)
      · exact .inr (.inr (.inl h))
      · exact .inr (.inr (.inr (.inl h)))
  have eolx : ∀ e ∈ anchorRes.map (fun e => some e.1), ∀ (b : Bool) (cs : List Nat), LineMatch b e (cs.map .ch ++ [.eol]) → cs = [97] := by
    intro e he b cs h
    match cs, hl e he b _ h with
    | [], h => simp at h
    | [c], h => simp at h; rw [h]
    | _ :: _ :: _, h => simp at h
  refine ⟨?_, ?_, ?_, ?_, ?_⟩
  · simp only [anchorRes, List.map_cons, List.map_nil, List.mem_cons, List.not_mem_nil, or_false, forall_eq_or_imp, forall_eq]
    exact ⟨.inl rfl, .inr rfl, .inl rfl, .inl rfl⟩
  · intro e he u c hc h
    match u, hm e he _ h with
    | [], h =>
      simp at h
      rcases hc with hc | ⟨hc, _⟩
      · omega
      · cases hc
    | [_], h => simp at h
    | _ :: _ :: u, h => simp at h
  · intro e he e' he' b cs c w hc h1 h2
    rw [eolx e he b cs h1] at h2
    rcases hl e' he' b _ h2 with h | h | h | h | h <;> simp at h
  · have only : ∀ (i : Nat) (e : Option Re) (b : Bool) (cs : List Nat), (anchorRes.map fun e => some e.1)[i]? = some e →
        LineMatch b e (cs.map .ch ++ [.eol]) → i = 1 := by
      intro i e b cs h1 h2
      have he := List.mem_of_getElem? h1
      have hc := eolx e he b cs h2
      subst hc
      have one_no : ∀ (c : Nat) (w : List Sym), LineMatch b (some (one c)) w → w = [.ch c] := fun c w h =>
        chr_iff.1 ((line_noBol (show NoBol (some (one c)) from rfl) w).1 h)
      match i, h1 with
      | 0, h1 =>
        cases h1
        exfalso
        rcases h2 with ⟨_, u, v, huv, hu, hv⟩ | ⟨_, u, v, huv, hu, hv⟩
        all_goals
          rw [show u = [.bol] from hu, (one_iff _ _).1 hv] at huv
          simp at huv
      | 1, _ => rfl
      | 2, h1 => cases h1; have := one_no _ _ h2; simp at this
      | 3, h1 => cases h1; have := one_no _ _ h2; simp at this
      | i + 4, h1 => simp [anchorRes] at h1
    intro i j e e' b cs h1 h2 h3 h4
    rw [only i e b cs h1 h3, only j e' b cs h2 h4]
  · intro hc
    cases hc

end Ex

/-- The hypotheses of C60 are met: with the rules `^b` (id 1), `a$` (id 2), `a` (id 3) and a
newline (id 4), "baa\nba\nb" is lexed as "b", "a", "a" before the end of a line, newline, and
so on; "ab" has no token at `b`. -/
example : Program Ex.env Ex.tr.npos {} Ex.anchorCalls [] Ex.anchorRes ∧ (∀ e ∈ Ex.anchorRes, e.1.bolHead = true) ∧
    DollarOk Ex.tr (Ex.anchorRes.map fun e => some e.1) ∧ 264 ≤ Ex.tr.npos ∧ Ex.env.max + 1 = charsOf Ex.tr ∧
    (Ex.anchorRes.map fun e => e.1.slots Ex.tr + 2 * e.1.dollars).sum + 2 ≤ Ex.tr.npos ∧
    (buildTemp Ex.tr (fun i => i) (Ex.runs Ex.anchorCalls Ex.obj0).rules).isOk = true ∧
    Ex.tokens (Ex.runs Ex.anchorCalls Ex.obj0).rules (chars "baa\nba") 6 =
      some [(1, 0, 1), (3, 1, 2), (2, 2, 3), (4, 3, 4), (1, 4, 5), (2, 5, 6)] ∧
    Ex.tokens (Ex.runs Ex.anchorCalls Ex.obj0).rules (chars "ab") 2 = some [(3, 0, 1), (65535, 1, 2)] :=
  ⟨Ex.anchorProgram, by decide, Ex.anchorDollar, by decide, by decide, by decide, by decide +kernel, by decide +kernel, by decide +kernel⟩

end Lexertl.Props
