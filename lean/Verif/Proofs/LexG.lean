import Verif.Proofs.Lex
import Verif.Proofs.ScanG
import Verif.Proofs.Suppress
import Verif.Spec.Line
import Verif.Proofs.EolWide

/-
`lookup` on a built machine with rules ending in `$` and rules with non-greedy
operators.
-/
namespace Lexertl.Line
open Spec

/-! Words of rules ending in `$`. -/

theorem chars_of : ∀ (u : List Sym), Sym.bol ∉ u → Sym.eol ∉ u → ∃ cs : List Nat, u = cs.map .ch
  | [], _, _ => ⟨[], rfl⟩
  | .ch c :: u, h1, h2 => by
    obtain ⟨cs, rfl⟩ := chars_of u (fun h => h1 (by simp [h])) (fun h => h2 (by simp [h]))
    exact ⟨c :: cs, rfl⟩
  | .bol :: u, h1, _ => absurd (by simp) h1
  | .eol :: u, _, h2 => absurd (by simp) h2

theorem split_eol {u w x : List Sym} (hx : Sym.eol ∉ x) (h : u ++ .eol :: w = x ++ [.eol]) : u = x ∧ w = [] := by
  induction u generalizing x with
  | nil =>
    cases x with
    | nil => simpa using h
    | cons s x =>
      simp only [List.nil_append, List.cons_append] at h
      injection h with h1 _
      exact absurd (by simp [h1]) hx
  | cons s u ih =>
    cases x with
    | nil =>
      simp only [List.nil_append, List.cons_append] at h
      injection h with _ h2
      cases u <;> cases h2
    | cons t x =>
      simp only [List.cons_append] at h
      injection h with h1 h2
      obtain ⟨rfl, rfl⟩ := ih (fun h => hx (by simp [h])) h2
      exact ⟨by rw [h1], rfl⟩

/-- `$` comes last in the words of a rule `r$`. -/
theorem eol_shape {e : Option Re} (h : NoEol e ∨ EndsDollar e) {u w : List Sym} (hm : RMatches e (u ++ .eol :: w)) :
    w = [] ∧ Sym.eol ∉ u := by
  rcases h with h | h
  · cases e with
    | none => exact absurd (show u ++ _ = [] from hm) (by simp)
    | some r => exact absurd (by simp) (noEol_words h hm)
  · match e, h with
    | some (.seq l .eol), h =>
      obtain ⟨x, y, hxy, hx, rfl⟩ := hm
      have h1 := noEol_words h hx
      obtain ⟨rfl, h2⟩ := split_eol h1 hxy
      exact ⟨h2, h1⟩

/-- The start of the words at, or away from, the start of a line. -/
def pre (b : Bool) : List Sym := if b then [.bol] else []

theorem fix_line {e : Option Re} {sb b : Bool} {v : List Sym} (hv : ∀ v', v ≠ .bol :: v')
    (h : FixBol sb (RMatches e) (pre b ++ v)) : LineMatch b e v := by
  cases b with
  | false =>
    rcases h with h | ⟨_, _, w', h, _⟩
    · exact .inr ⟨by simp, h⟩
    · exact absurd h (hv _)
  | true =>
    rcases h with h | ⟨_, h1, w', h, h2⟩
    · exact .inl ⟨rfl, h⟩
    · injection h with _ h
      exact .inr ⟨fun hh => h1 hh.2, by rw [show v = w' from h]; exact h2⟩

/-- Words of the table with `$`. -/
theorem fix_shape {e : Option Re} (he : NoEol e ∨ EndsDollar e) (hb : ROpt (fun r => r.bolHead = true) e) {sb : Bool}
    {u w : List Sym} (h : FixBol sb (RMatches e) (u ++ .eol :: w)) :
    w = [] ∧ ∃ (b : Bool) (cs : List Nat), u = pre b ++ cs.map .ch := by
  have key : ∀ {u w}, RMatches e (u ++ .eol :: w) → w = [] ∧ ∃ (b : Bool) (cs : List Nat), u = pre b ++ cs.map .ch ∧ (b = true → RMatches e (.bol :: (cs.map .ch ++ [.eol]))) := by
    intro u w hm
    obtain ⟨rfl, h1⟩ := eol_shape he hm
    refine ⟨rfl, ?_⟩
    have h2 : Sym.bol ∉ (u ++ [Sym.eol]).tail := by
      cases e with
      | none => exact absurd (show u ++ _ = [] from hm) (by simp)
      | some r => exact bolHead_words hb hm
    cases u with
    | nil => exact ⟨false, [], rfl, by simp⟩
    | cons s u =>
      have hu1 : Sym.bol ∉ u := fun h => h2 (by simp [h])
      have hu2 : Sym.eol ∉ u := fun h => h1 (by simp [h])
      obtain ⟨cs, rfl⟩ := chars_of u hu1 hu2
      cases s with
      | ch c => exact ⟨false, c :: cs, rfl, by simp⟩
      | bol => exact ⟨true, cs, rfl, fun _ => hm⟩
      | eol => exact absurd (by simp) h1
  rcases h with h | ⟨_, h1, w', h2, h3⟩
  · obtain ⟨rfl, b, cs, rfl, _⟩ := key h
    exact ⟨rfl, b, cs, rfl⟩
  · cases u with
    | nil => cases h2
    | cons s u =>
      simp only [List.cons_append] at h2
      injection h2 with h4 h5
      subst h4
      rw [← h5] at h3
      obtain ⟨rfl, b, cs, rfl, h6⟩ := key h3
      cases b with
      | false => exact ⟨rfl, true, cs, rfl⟩
      | true => exact absurd ⟨_, h6 rfl⟩ h1

/-- Single byte machines: words of the table are words of the rule. -/
theorem words_plain {tr : Traits} (hc : tr.compressed = false) (e : Option Re) : Wide.words tr e = RMatches e := by
  have e1 : Wide.accepts tr = id := by funext t; simp [Wide.accepts, hc]
  have e2 : Wide.encode tr = fun s => [s] := by funext s; cases s <;> simp [Wide.encode, hc]
  funext w
  unfold Wide.words Img
  rw [e1, e2]
  have e3 : e.map (Re.mapChars id) = e := by
    cases e with
    | none => rfl
    | some r => simp [Wide.mapChars_id]
  rw [e3]
  simp

theorem ne_bol (cs : List Nat) {t : List Sym} (ht : ∀ t', t ≠ .bol :: t') : ∀ v', cs.map Sym.ch ++ t ≠ .bol :: v' := by
  intro v'
  cases cs with
  | nil => exact ht v'
  | cons c cs => simp

theorem append_chars {v : List Sym} {f : Sym → Sym} {b : Bool} {cs : List Nat} {u : List Sym}
    (h : v.map f = pre b ++ cs.map .ch) : (v ++ u).map f = pre b ++ (cs.map .ch ++ u.map f) := by
  rw [List.map_append, h, List.append_assoc]

/-- Words of the table with `$`, for all character widths. -/
theorem word_dollar {tr : Traits} {e : Option Re} (hs : CharSets tr e) (he : NoEol e ∨ EndsDollar e)
    (hb : ROpt (fun r => r.bolHead = true) e) {sb : Bool} {u w : List Sym}
    (h : FixBol sb (Wide.words tr e) (u ++ .eol :: w)) :
    w = [] ∧ ∃ (v : List Sym) (b : Bool) (cs : List Nat), u = v.flatMap (Wide.encode tr) ∧ (∀ s ∈ v, Wide.Fits tr s) ∧
      v.map (standS tr) = pre b ++ cs.map .ch ∧ FixBol sb (RMatches e) (v.map (standS tr) ++ [.eol]) := by
  obtain ⟨v, h1, h2, h3⟩ := fix_stand hs h
  obtain ⟨v1, v2, rfl, rfl, rfl⟩ := split_enc tr v u w h1.symm
  rw [List.map_append] at h3
  have h3 : FixBol sb (RMatches e) (v1.map (standS tr) ++ .eol :: v2.map (standS tr)) := h3
  obtain ⟨h4, b, cs, h5⟩ := fix_shape he hb h3
  have h6 : v2 = [] := by simpa using h4
  subst h6
  exact ⟨rfl, v1, b, cs, rfl, fun s hs => h2 s (by simp [hs]), h5, h3⟩

/-- What is assumed about `$` is what the generator needs. -/
theorem eolWords {tr : Traits} {xs : List SRule} (hd : DollarOk tr (xs.map (·.2))) (hs : ∀ x ∈ xs, CharSets tr x.2)
    (hb : ∀ x ∈ xs, ROpt (fun r => r.bolHead = true) x.2)
    (sb : Bool) : EolWords tr (ruleWords (Wide.words tr) sb xs) := by
  have hmem : ∀ {j x}, xs[j]? = some x → x ∈ xs ∧ x.2 ∈ xs.map (·.2) := fun h =>
    ⟨List.mem_of_getElem? h, List.mem_map.2 ⟨_, List.mem_of_getElem? h, rfl⟩⟩
  have key : ∀ u i j w w' c, LineLike tr c → Wide.Known tr (.ch c) → ruleWords (Wide.words tr) sb xs i (u ++ .eol :: w) →
      ¬ ruleWords (Wide.words tr) sb xs j (u ++ Wide.encode tr (.ch c) ++ w') := by
    rintro u i j w w' c hc hk ⟨x, hx, h⟩ ⟨y, hy, h'⟩
    obtain ⟨hxm, hxe⟩ := hmem hx
    obtain ⟨hym, hye⟩ := hmem hy
    obtain ⟨_, v, b, cs, rfl, hv, hcs, h1⟩ := word_dollar (hs x hxm) (hd.form x.2 hxe) (hb x hxm) h
    obtain ⟨v', g1, g2, g3⟩ := fix_stand (hs y hym) h'
    obtain ⟨v'', rfl, g4⟩ := prefix_enc tr (v ++ [.ch c]) v' w'
      (by
        intro s hs'
        rcases List.mem_append.1 hs' with hs' | hs'
        · exact hv s hs'
        · rw [List.mem_singleton] at hs'; rw [hs']; exact hk.fits) g2
      (by rw [← g1]; simp)
    have hst : stand tr c = c := if_pos hk
    rw [List.append_assoc, append_chars hcs] at g3
    rw [hcs, List.append_assoc] at h1
    have g3 : FixBol sb (RMatches y.2) (pre b ++ (cs.map .ch ++ .ch (stand tr c) :: v''.map (standS tr))) := g3
    rw [hst] at g3
    exact hd.noLine x.2 hxe y.2 hye b cs c _ hc (fix_line (ne_bol cs (by simp)) h1) (fix_line (ne_bol cs (by simp)) g3)
  refine ⟨?_, ?_, ?_, ?_⟩
  · rintro j u w ⟨x, hx, h⟩
    obtain ⟨hxm, hxe⟩ := hmem hx
    have hcr := hd.noCr x.2 hxe
    obtain ⟨_, v, b, cs, h1, _, _, h2⟩ := word_dollar (hs x hxm) (hd.form x.2 hxe) (hb x hxm) (u := u ++ [.ch 13])
      (w := w) (by simpa using h)
    obtain ⟨v1, s, rfl⟩ : ∃ v1 s, v = v1 ++ [s] := by
      rcases List.eq_nil_or_concat v with rfl | ⟨v1, s, rfl⟩
      · simp at h1
      · exact ⟨v1, s, by simp⟩
    have hlast : ∃ a, Wide.encode tr s = a ++ [.ch 13] := by
      rw [List.flatMap_append] at h1
      have h1 : u ++ [.ch 13] = v1.flatMap (Wide.encode tr) ++ Wide.encode tr s := by simpa using h1
      rcases List.eq_nil_or_concat (Wide.encode tr s) with h3 | ⟨a, t, h3⟩
      · exact absurd h3 (Wide.encode_ne tr s)
      · rw [List.concat_eq_append] at h3
        rw [h3, ← List.append_assoc] at h1
        have := (List.append_inj_right' h1 rfl)
        rw [← this] at h3
        exact ⟨a, h3⟩
    obtain ⟨a, ha⟩ := hlast
    obtain ⟨c, rfl, hc⟩ := encode_last ha
    have hcl : CrLike tr (stand tr c) := stand_cr (by
      rcases hc with ⟨_, h⟩ | h
      · exact .inl h
      · exact .inr h)
    rw [List.map_append, List.append_assoc] at h2
    have h2 : FixBol sb (RMatches x.2) (v1.map (standS tr) ++ [.ch (stand tr c), .eol]) := h2
    rcases h2 with h2 | ⟨_, _, w', h3, h4⟩
    · exact hcr _ _ hcl h2
    · cases v1 with
      | nil => cases h3
      | cons t v1 =>
        simp only [List.map_cons, List.cons_append] at h3
        injection h3 with _ h3
        rw [← h3] at h4
        exact hcr _ _ hcl h4
  · rintro u i j w w' c hc h ⟨y, hy, h'⟩
    obtain ⟨hym, hye⟩ := hmem hy
    obtain ⟨x, hx, h0⟩ := h
    obtain ⟨hxm, hxe⟩ := hmem hx
    obtain ⟨_, v, b, cs, rfl, hv, hcs, h1⟩ := word_dollar (hs x hxm) (hd.form x.2 hxe) (hb x hxm) h0
    obtain ⟨v', g1, g2, g3⟩ := fix_stand (hs y hym) h'
    obtain ⟨v'', rfl, g4⟩ := prefix_enc tr v v' _ hv g2 g1.symm
    cases v'' with
    | nil => cases g4
    | cons s v'' =>
      obtain ⟨d, rfl, hd1⟩ := encode_first (g2 s (by simp)) g4
      have hd2 : firstByte tr d = 13 ∨ firstByte tr d = 10 := by rw [hd1]; exact hc
      have hst := stand_line hd2
      rw [append_chars hcs] at g3
      have g3 : FixBol sb (RMatches y.2) (pre b ++ (cs.map .ch ++ .ch (stand tr d) :: v''.map (standS tr))) := g3
      rw [hst] at g3
      rw [hcs, List.append_assoc] at h1
      exact hd.noLine x.2 hxe y.2 hye b cs d _ (.inr (.inr hd2)) (fix_line (ne_bol cs (by simp)) h1)
        (fix_line (ne_bol cs (by simp)) g3)
  · rintro u i j w w' ⟨x, hx, h⟩ ⟨y, hy, h'⟩
    obtain ⟨hxm, hxe⟩ := hmem hx
    obtain ⟨hym, hye⟩ := hmem hy
    obtain ⟨_, v, b, cs, rfl, hv, hcs, h1⟩ := word_dollar (hs x hxm) (hd.form x.2 hxe) (hb x hxm) h
    obtain ⟨_, v', _, _, g0, hv', _, g1⟩ := word_dollar (hs y hym) (hd.form y.2 hye) (hb y hym) h'
    have := Wide.flatMap_inj tr hv hv' g0
    subst this
    rw [hcs, List.append_assoc] at h1 g1
    exact hd.one i j x.2 y.2 b cs (by rw [List.getElem?_map, hx]; rfl) (by rw [List.getElem?_map, hy]; rfl)
      (fix_line (ne_bol cs (by simp)) h1) (fix_line (ne_bol cs (by simp)) g1)
  · intro hcm u i j w w' c hc h h'
    have hk : Wide.Known tr (.ch c) := by
      show c < charsOf tr
      unfold charsOf
      split <;> (try split) <;> omega
    refine key u i j w w' c (hc.imp id .inl) hk h ?_
    rw [encode_small hcm (by omega)]
    simpa using h'

theorem lookups_dollars (tr : Traits) (r : Re) : r.lookups (slotsOf tr) = r.slots tr + 2 * r.dollars := by
  induction r with
  | chars | bol | eol => simp [Re.lookups, Re.slots, Re.dollars]
  | seq l r ihl ihr | alt l r ihl ihr => simp only [Re.lookups, Re.slots, Re.dollars, ihl, ihr]; omega
  | opt r _ ih | star r _ ih | plus r _ ih | rep r _ _ _ ih => exact ih

theorem noEol_iff (x : Option Re) : rNoEol x = true ↔ NoEol x := by
  cases x with
  | none => simp [rNoEol, NoEol]
  | some r => rfl

theorem greedy_iff (x : Option Re) : rGreedy x = true ↔ AllGreedy x := by
  cases x with
  | none => simp [rGreedy, AllGreedy]
  | some r => rfl

theorem _root_.Lexertl.Spec.AnyRules.stateOk {tr : Traits} {R : Rules} {xss : List (List SRule)} (h : AnyRules tr R xss) :
    ∀ xs ∈ xss, StateOk tr (Wide.words tr) (slotsOf tr) xs := by
  intro xs hxs
  refine ⟨⟨h.den xs hxs, ?_, Wide.words_none tr, ?_⟩, ?_, fun b => ?_⟩
  · intro x hx r' hr p
    have h1 := h.sets xs hxs x hx
    have h2 := h.den xs hxs x hx
    rw [hr] at h1 h2
    exact Wide.act_wide tr r' h1 (denotes_counts h2) p
  · intro x hx w hw
    exact Wide.words_tail (h.bolHead xs hxs x hx) hw
  · have := h.count xs hxs
    have e : xcost (slotsOf tr) xs = (xs.map fun x => setsOf tr x.2 + 2 * dollarsOf x.2).sum := by
      unfold xcost
      congr 1
      apply List.map_congr_left
      intro x hx
      cases hr : x.2 with
      | none => rfl
      | some r => exact lookups_dollars tr r
    omega
  · rcases h.dollar xs hxs with hd | ⟨hn, hd⟩
    · exact .inl fun x hx => (noEol_iff _).2 (hd x hx)
    · refine .inr ⟨fun hc => ?_, hn, fun x hx => ?_, eolWords hd (h.sets xs hxs) (h.bolHead xs hxs) b⟩
      · obtain ⟨e, he, hl⟩ := hd.low hc
        obtain ⟨x, hx, rfl⟩ := List.mem_map.1 he
        refine ⟨x, hx, ?_⟩
        have h1 := h.sets xs hxs x hx
        have h2 := h.den xs hxs x hx
        cases hx2 : x.2 with
        | none => rw [hx2] at hl; exact hl.elim
        | some r =>
          rw [hx2] at hl h1 h2
          exact adds_low tr hc r h1 (denotes_counts h2) hl
      · rcases hd.form x.2 (List.mem_map.2 ⟨x, hx, rfl⟩) with hf | hf
        · exact .inl ((noEol_iff _).2 hf)
        · have h1 := h.sets xs hxs x hx
          have h2 := h.den xs hxs x hx
          match hx2 : x.2, hf with
          | some (.seq l .eol), hf =>
            rw [hx2] at h1 h2
            refine .inr ⟨l, rfl, fun p => ?_⟩
            have h3 := Wide.act_wide tr l h1.1 (denotes_counts h2).1 p
            rw [show (!l.noEol) = false by rw [show l.noEol = true from hf]; rfl] at h3
            exact ⟨_, _, _, h3⟩

/-! Words at a position. -/

/-- The words of the table at a position. -/
theorem words_at {tr : Traits} {sb : Bool} {xs : List SRule} (hset : ∀ x ∈ xs, CharSets tr x.2)
    (hsb : sb = false → ∀ x ∈ xs, rNoBol x.2 = true) (atLine : Bool) (pre : List Sym)
    (hpre : (pre = [.bol] ∧ atLine = true ∧ ∃ j w, j < xs.length ∧ ruleWords (Wide.words tr) sb xs j (.bol :: w)) ∨
       (pre = [] ∧ (atLine = true → (∀ j w, j < xs.length → ¬ ruleWords (Wide.words tr) sb xs j (.bol :: w)) ∨
          ∀ x ∈ xs, NoBol x.2)))
    (j : Nat) {v : List Sym} (hk : ∀ s ∈ v, Wide.Known tr s) (hv : Sym.bol ∉ v) :
    ruleWords (Wide.words tr) sb xs j (pre ++ v.flatMap (Wide.encode tr)) ↔
      ∃ x, xs[j]? = some x ∧ LineMatch atLine x.2 v := by
  have plain : ∀ x ∈ xs, Wide.words tr x.2 (v.flatMap (Wide.encode tr)) ↔ RMatches x.2 v :=
    fun x hx => Wide.words_iff (hset x hx) hk
  have line : ∀ x ∈ xs, Wide.words tr x.2 (.bol :: v.flatMap (Wide.encode tr)) ↔ RMatches x.2 (.bol :: v) :=
    fun x hx => Wide.words_iff (v := .bol :: v) (hset x hx) (by
      intro s hs
      rcases List.mem_cons.1 hs with rfl | hs
      · trivial
      · exact hk s hs)
  have anch : ∀ x ∈ xs, (∃ v, Wide.words tr x.2 (.bol :: v)) ↔ ∃ v, RMatches x.2 (.bol :: v) :=
    fun x hx => Wide.words_anch (hset x hx)
  have nob : ∀ w, v.flatMap (Wide.encode tr) ≠ .bol :: w := by
    intro w hw
    have : Sym.bol ∈ v.flatMap (Wide.encode tr) := by rw [hw]; simp
    obtain ⟨s, hs, hs'⟩ := List.mem_flatMap.1 this
    rw [Wide.encode_bol tr hs'] at hs
    exact hv hs
  have hmem : ∀ {x}, xs[j]? = some x → x ∈ xs := fun h => List.mem_of_getElem? h
  rcases hpre with ⟨rfl, rfl, j', w', hj', x', hx', hm'⟩ | ⟨rfl, hno⟩
  · have hsb' : sb = true := by
      cases hs : sb with
      | true => rfl
      | false =>
        rw [hs] at hm'
        rcases hm' with hm' | ⟨h, _⟩
        · have hx := hsb hs x' (List.mem_of_getElem? hx')
          obtain ⟨v, hv⟩ := (anch x' (List.mem_of_getElem? hx')).1 ⟨_, hm'⟩
          cases hr : x'.2 with
          | none => rw [hr] at hv; cases hv
          | some r =>
            rw [hr] at hv hx
            exact absurd (List.mem_cons_self ..) (noBol_words hx hv)
        · cases h
    unfold ruleWords LineMatch
    constructor
    · rintro ⟨x, hx, h⟩
      refine ⟨x, hx, ?_⟩
      rcases h with h | ⟨_, h1, w, h2, h3⟩
      · exact .inl ⟨rfl, (line x (hmem hx)).1 h⟩
      · right
        rw [anch x (hmem hx)] at h1
        injection h2 with _ h2
        refine ⟨fun h => h1 h.2, (plain x (hmem hx)).1 ?_⟩
        rw [show v.flatMap (Wide.encode tr) = w from h2]
        exact h3
    · rintro ⟨x, hx, h⟩
      refine ⟨x, hx, ?_⟩
      rcases h with ⟨_, h⟩ | ⟨h1, h2⟩
      · exact .inl ((line x (hmem hx)).2 h)
      · right
        refine ⟨hsb', fun hh => h1 ⟨rfl, (anch x (hmem hx)).1 hh⟩, _, rfl, (plain x (hmem hx)).2 h2⟩
  · rw [List.nil_append]
    have e : ruleWords (Wide.words tr) sb xs j (v.flatMap (Wide.encode tr)) ↔ ∃ x, xs[j]? = some x ∧ RMatches x.2 v := by
      constructor
      · rintro ⟨x, hx, h | ⟨_, _, w, h2, _⟩⟩
        · exact ⟨x, hx, (plain x (hmem hx)).1 h⟩
        · exact absurd h2 (nob _)
      · rintro ⟨x, hx, h⟩
        exact ⟨x, hx, .inl ((plain x (hmem hx)).2 h)⟩
    rw [e]
    by_cases ha : atLine = true
    · rcases hno ha with hno | hno
      · have hx : ∀ x, xs[j]? = some x → ¬ ∃ v, RMatches x.2 (.bol :: v) := by
          intro x hx hh
          obtain ⟨v, hv⟩ := (anch x (hmem hx)).2 hh
          exact hno j v (List.getElem?_eq_some_iff.1 hx).1 ⟨x, hx, .inl hv⟩
        constructor
        · rintro ⟨x, h1, h2⟩
          exact ⟨x, h1, .inr ⟨fun h => hx x h1 h.2, h2⟩⟩
        · rintro ⟨x, h1, ⟨_, h2⟩ | ⟨_, h2⟩⟩
          · exact absurd ⟨_, h2⟩ (hx x h1)
          · exact ⟨x, h1, h2⟩
      · constructor
        · rintro ⟨x, h1, h2⟩
          exact ⟨x, h1, (line_noBol (hno x (hmem h1)) v).2 h2⟩
        · rintro ⟨x, h1, h2⟩
          exact ⟨x, h1, (line_noBol (hno x (hmem h1)) v).1 h2⟩
    · have ha : atLine = false := by simpa using ha
      subst ha
      constructor
      · rintro ⟨x, h1, h2⟩
        exact ⟨x, h1, .inr ⟨by simp, h2⟩⟩
      · rintro ⟨x, h1, ⟨h2, _⟩ | ⟨_, h2⟩⟩
        · cases h2
        · exact ⟨x, h1, h2⟩

theorem words_nil {tr : Traits} {sb : Bool} {xs : List SRule} (hset : ∀ x ∈ xs, CharSets tr x.2) (j : Nat) :
    ruleWords (Wide.words tr) sb xs j [] ↔ ∃ x, xs[j]? = some x ∧ RMatches x.2 [] := by
  have plain : ∀ x ∈ xs, Wide.words tr x.2 [] ↔ RMatches x.2 [] :=
    fun x hx => Wide.words_iff (v := []) (hset x hx) (by simp)
  constructor
  · rintro ⟨x, hx, h | ⟨_, _, w, h, _⟩⟩
    · exact ⟨x, hx, (plain x (List.mem_of_getElem? hx)).1 h⟩
    · cases h
  · rintro ⟨x, hx, h⟩
    exact ⟨x, hx, .inl ((plain x (List.mem_of_getElem? hx)).2 h)⟩

/-! Characters written as several bytes. -/

def isCh : Sym → Bool
  | .ch _ => true
  | _ => false

theorem encode_count {tr : Traits} (s : Sym) : (Wide.encode tr s).countP isCh = if isCh s then bytesOf tr else 0 := by
  cases s with
  | ch c =>
    cases hc : tr.compressed with
    | false => simp [Wide.encode, hc, isCh, bytesOf]
    | true => cases h24 : tr.char24 <;> simp [Wide.encode, hc, bytesOf, h24, Slice.charBytes2, Slice.charBytes3, isCh] <;> rfl
  | bol => simp [Wide.encode, isCh]
  | eol => simp [Wide.encode, isCh]

theorem flat_count {tr : Traits} (u : List Sym) : ∃ q, (u.flatMap (Wide.encode tr)).countP isCh = q * bytesOf tr := by
  induction u with
  | nil => exact ⟨0, by simp⟩
  | cons s u ih =>
    obtain ⟨q, hq⟩ := ih
    rw [List.flatMap_cons, List.countP_append, hq, encode_count]
    split
    · exact ⟨q + 1, by rw [Nat.succ_mul]; omega⟩
    · exact ⟨q, by omega⟩

theorem word_count {tr : Traits} {sb : Bool} {xs : List SRule} {j : Nat} {w : List Sym}
    (h : ruleWords (Wide.words tr) sb xs j w) : ∃ q, w.countP isCh = q * bytesOf tr := by
  obtain ⟨x, _, ⟨u, _, rfl⟩ | ⟨_, _, w', rfl, u, _, rfl⟩⟩ := h
  · exact flat_count u
  · obtain ⟨q, hq⟩ := flat_count (tr := tr) u
    exact ⟨q, by rw [List.countP_cons, hq]; simp [isCh]⟩

theorem words_noEol {tr : Traits} {sb : Bool} {xs : List SRule} (hn : ∀ x ∈ xs, NoEol x.2) {j : Nat} {w : List Sym}
    (h : ruleWords (Wide.words tr) sb xs j w) : Sym.eol ∉ w := by
  obtain ⟨x, hx, h⟩ := h
  have hx' := hn x (List.mem_of_getElem? hx)
  have key : ∀ {w}, Wide.words tr x.2 w → Sym.eol ∉ w := by
    rintro w ⟨u, hu, rfl⟩ hm
    obtain ⟨s, hs, hs'⟩ := List.mem_flatMap.1 hm
    rw [encode_eol tr hs'] at hs
    cases hr : x.2 with
    | none => rw [hr] at hu; rw [show u = [] from hu] at hs; simp at hs
    | some r =>
      rw [hr] at hu hx'
      exact noEol_words (r := r.mapChars (Wide.accepts tr)) (by rw [Wide.mapChars_noEol]; exact hx') hu hs
  rcases h with h | ⟨_, _, w', rfl, h⟩
  · exact key h
  · have := key h
    simpa using this

/-! One attempt. -/

theorem stateBol_of {tr : Traits} {R : Rules} {xss : List (List SRule)} (h : AnyRules tr R xss) {i : Nat}
    {xs : List SRule} (hi : xss[i]? = some xs) (hb : stateBol R.features i = false) :
    ∀ x ∈ xs, rNoBol x.2 = true := by
  intro x hx
  rw [rNoBol_iff]
  refine Classical.byContradiction fun hn => ?_
  obtain ⟨n, h1, h2⟩ := h.bolBit i xs hi ⟨x, hx, hn⟩
  unfold stateBol hasBit at hb
  rw [h1] at hb
  simp [h2] at hb

/-- Outcome of one match attempt in terms of the rules. -/
theorem built_attempt {tr : Traits} {R : Rules} {xss : List (List SRule)} (H : AnyRules tr R xss) {xs : List SRule}
    (hxs : xs ∈ xss) {inp : List Nat} (hinp : ∀ c ∈ inp, c < charsOf tr) {sb : Bool}
    (hsb : sb = false → ∀ x ∈ xs, rNoBol x.2 = true) {d : Dfa} {size off : Nat} {At : Nat → List Sym → Prop}
    (A : GAuto d size xs.length (ruleInfo xs off) (ruleWords (Wide.words tr) sb xs) At) (hrows : d.rows.length < tr.npos)
    (f : Flags) (sm : Internals) (r : Results) (p : Nat)
    (hd : sm.dfaAt r.state = .ok d) (hp : p < r.eoi) (heoi : r.eoi ≤ inp.length) :
    ∃ s endTok, attempt f tr.npos (bytesOf tr) sm inp r p p = .ok (s, endTok) ∧
      ((∃ k j x, xs[j]? = some x ∧ p ≤ k ∧ k ≤ r.eoi ∧ endTok = k ∧
          ((f.eol = true ∧ LineEnd inp r.eoi k ∧
              First (LineMatch (f.bol && r.bol)) (xs.map (·.2)) (text inp p k ++ [.eol]) j ∧
              NoLonger f.eol (LineMatch (f.bol && r.bol)) (xs.map (·.2)) inp p r.eoi k) ∨
           (p < k ∧ First (LineMatch (f.bol && r.bol)) (xs.map (·.2)) (text inp p k) j ∧
             (Early (LineMatch (f.bol && r.bol)) (xs.map (·.2)) inp p k ∨
              (NoLonger f.eol (LineMatch (f.bol && r.bol)) (xs.map (·.2)) inp p r.eoi k ∧
               ¬ ByDollar f.eol (LineMatch (f.bol && r.bol)) (xs.map (·.2)) inp p r.eoi k)))) ∧
          s.endState = true ∧ s.id = x.1.id ∧ s.uid = x.1.userId ∧
          s.endBol = (if f.bol then (if k = p then r.bol else inp[k - 1]? == some 10) else r.bol) ∧
          (f.recursive = true → s.pop = x.1.popDfa ∧ s.pushDfa = x.1.pushDfa) ∧
          s.startState = if f.multiState then x.1.nextDfa else r.state) ∨
       (endTok = p ∧
          ((s.endState = false ∧ NoEmpty (xs.map (·.2)) ∧
              NoLonger f.eol (LineMatch (f.bol && r.bol)) (xs.map (·.2)) inp p r.eoi p ∧
              ¬ ByDollar f.eol (LineMatch (f.bol && r.bol)) (xs.map (·.2)) inp p r.eoi p) ∨
           (∃ j x, xs[j]? = some x ∧ FirstEmpty (xs.map (·.2)) j ∧
              (Early (LineMatch (f.bol && r.bol)) (xs.map (·.2)) inp p p ∨
               (NoLonger f.eol (LineMatch (f.bol && r.bol)) (xs.map (·.2)) inp p r.eoi p ∧
                ¬ ByDollar f.eol (LineMatch (f.bol && r.bol)) (xs.map (·.2)) inp p r.eoi p)) ∧
              s.endState = true ∧ s.id = x.1.id ∧ s.uid = x.1.userId ∧ s.endBol = r.bol ∧
              s.pop = x.1.popDfa ∧ s.pushDfa = x.1.pushDfa ∧ s.startState = r.state)))) := by
  have hset := H.sets xs hxs
  have hinfo : ∀ j, j < xs.length → ∃ a b c d e f g, ruleInfo xs off j = .fin a b c d e f g := by
    intro j hj
    unfold ruleInfo
    rw [List.getElem?_eq_getElem hj]
    exact ⟨_, _, _, _, _, _, _, rfl⟩
  have hfin : ∀ {j x a b c d e f g}, xs[j]? = some x → ruleInfo xs off j = .fin a b c d e f g →
      a = x.1.id ∧ b = x.1.userId ∧ d = x.1.nextDfa ∧ e = x.1.pushDfa ∧ f = x.1.popDfa := by
    intro j x a b c d e f g hx h
    unfold ruleInfo at h
    rw [hx] at h
    simp only [endNode] at h
    injection h with h1 h2 h3 h4 h5 h6 h7
    exact ⟨h1.symm, h2.symm, h4.symm, h5.symm, h6.symm⟩
  have hlazy : ∀ {j}, LazyInfo (ruleInfo xs off j) → ∃ x, xs[j]? = some x ∧ ¬ AllGreedy x.2 := by
    intro j h
    obtain ⟨x, hx, hl⟩ := ruleInfo_lazy.1 h
    exact ⟨x, hx, fun hg => by rw [(greedy_iff _).2 hg] at hl; cases hl⟩
  -- `$` is last
  have hlast : ∀ j u w, j < xs.length → ruleWords (Wide.words tr) sb xs j (u ++ .eol :: w) → w = [] := by
    intro j u w _ hw
    rcases H.dollar xs hxs with hn | ⟨_, hn⟩
    · exact absurd (by simp) (words_noEol hn hw)
    · obtain ⟨x, hx, hw⟩ := hw
      have hm := List.mem_of_getElem? hx
      exact (word_dollar (hset x hm) (hn.form x.2 (List.mem_map.2 ⟨x, hm, rfl⟩)) (H.bolHead xs hxs x hm) hw).1
  have hline : ∀ pre, pre = [] ∨ pre = [.bol] → ∀ k c i j w, p ≤ k → k < r.eoi → inp[k]? = some c → c = 13 ∨ c = 10 →
      i < xs.length → j < xs.length →
      ruleWords (Wide.words tr) sb xs i (pre ++ segSyms (fun c => Wide.encode tr (.ch c)) inp p k ++ [.eol]) →
      ¬ ruleWords (Wide.words tr) sb xs j (pre ++ segSyms (fun c => Wide.encode tr (.ch c)) inp p k ++ Wide.encode tr (.ch c) ++ w) := by
    intro pre _ k c i j w _ _ _ hc _ _ h1 h2
    rcases H.dollar xs hxs with hn | ⟨_, hn⟩
    · exact absurd (by simp) (words_noEol hn h1)
    · have hK := eolWords hn hset (H.bolHead xs hxs) sb
      cases hcm : tr.compressed with
      | false =>
        have e : Wide.encode tr (.ch c) = [.ch c] := by simp [Wide.encode, hcm]
        rw [e, List.append_assoc] at h2
        exact hK.clash _ i j [] w c hc h1 h2
      | true =>
        rw [encode_small hcm (by omega)] at h2
        exact hK.zero hcm _ i j [] w c hc h1 (by simpa using h2)
  have hseg : ∀ k, segSyms (fun c => Wide.encode tr (.ch c)) inp p k = (text inp p k).flatMap (Wide.encode tr) :=
    fun k => segSyms_text (Wide.encode tr) inp p k
  have hnext : ∀ pre, pre = [] ∨ pre = [.bol] → ∀ k c, p ≤ k → k < r.eoi → inp[k]? = some c →
      NextOkG (bytesOf tr) d xs.length (ruleInfo xs off) (ruleWords (Wide.words tr) sb xs) At (fun c => Wide.encode tr (.ch c)) c
        (pre ++ segSyms (fun c => Wide.encode tr (.ch c)) inp p k) ∧
      NextOkG (bytesOf tr) d xs.length (ruleInfo xs off) (ruleWords (Wide.words tr) sb xs) At (fun c => Wide.encode tr (.ch c)) c
        (pre ++ segSyms (fun c => Wide.encode tr (.ch c)) inp p k ++ [.eol]) := by
    intro pre hpre k c _ _ hget
    have hc : c < charsOf tr := hinp c (List.mem_of_getElem? hget)
    cases hcm : tr.compressed with
    | false =>
      have e1 : bytesOf tr = 1 := by simp [bytesOf, hcm]
      have e2 : (fun c => Wide.encode tr (.ch c)) = fun c => [Sym.ch c] := by funext c; simp [Wide.encode, hcm]
      have e3 : charsOf tr = 256 := by simp [charsOf, hcm]
      rw [e1, e2]
      exact ⟨A.nextOk1 c (by omega) _, A.nextOk1 c (by omega) _⟩
    | true =>
      have e2 : (fun c => Wide.encode tr (.ch c)) = fun c => (charBytes (bytesOf tr) c).map .ch := by
        funext c; simp [Wide.encode, hcm]
      have hb : 2 ≤ bytesOf tr := by simp only [bytesOf, hcm, if_true]; split <;> omega
      have hu : ∃ q, (pre ++ segSyms (fun c => Wide.encode tr (.ch c)) inp p k).countP isCh = q * bytesOf tr := by
        rw [List.countP_append, hseg]
        obtain ⟨q, hq⟩ := flat_count (tr := tr) (text inp p k)
        refine ⟨q, ?_⟩
        rw [hq]
        rcases hpre with rfl | rfl <;> simp [isCh]
      obtain ⟨q, hq⟩ := hu
      have key : ∀ (u : List Sym), u.countP isCh = q * bytesOf tr → ∀ as b bs',
          charBytes (bytesOf tr) c = as ++ b :: bs' → as ≠ [] →
          ¬ StopAt xs.length (ruleInfo xs off) (ruleWords (Wide.words tr) sb xs) (u ++ as.map .ch) := by
        rintro u hu as b bs' hcb hne ⟨j, _, hw, _⟩
        obtain ⟨q', hq'⟩ := word_count hw
        have hl := congrArg List.length hcb
        have hl1 : (charBytes (bytesOf tr) c).length = bytesOf tr := by simp [charBytes]
        rw [hl1, List.length_append, List.length_cons] at hl
        have hl2 : 0 < as.length := List.length_pos_iff.2 hne
        have hl3 : (as.map Sym.ch).countP isCh = as.length := by
          rw [List.countP_map, List.countP_eq_length.2 (by intro a _; rfl)]
        rw [List.countP_append, hu, hl3] at hq'
        rcases Nat.lt_or_ge q q' with h | h
        · have : (q + 1) * bytesOf tr ≤ q' * bytesOf tr := Nat.mul_le_mul_right _ h
          rw [Nat.succ_mul] at this
          omega
        · have : q' * bytesOf tr ≤ q * bytesOf tr := Nat.mul_le_mul_right _ h
          omega
      rw [e2] at hq ⊢
      refine ⟨A.nextOkN (bytesOf tr) hb c _ (key _ hq), A.nextOkN (bytesOf tr) hb c _ (key _ ?_)⟩
      rw [List.countP_append, hq]
      simp [isCh]
  obtain ⟨pre, s, endTok, a1, a2, a3⟩ := A.attempt stopAt_hit hinfo f tr.npos (bytesOf tr) sm inp r p hd hp heoi hrows _
    (fun c => Wide.encode_ne tr (.ch c)) hlast hline hnext
  -- the start row
  have hstop : StopAt xs.length (ruleInfo xs off) (ruleWords (Wide.words tr) sb xs) [] → ∀ x ∈ xs, NoBol x.2 := by
    rintro ⟨j, _, hw, _, hl⟩
    obtain ⟨x, hx, hm⟩ := (words_nil hset j).1 hw
    obtain ⟨x', hx', hg⟩ := hlazy hl
    rw [hx] at hx'
    cases hx'
    rcases H.lazy xs hxs with h | h
    · exact h
    · exact absurd hm (h x (List.mem_of_getElem? hx) hg).1
  have hpre : (pre = [.bol] ∧ (f.bol && r.bol) = true ∧ ∃ j w, j < xs.length ∧ ruleWords (Wide.words tr) sb xs j (.bol :: w)) ∨
       (pre = [] ∧ ((f.bol && r.bol) = true → (∀ j w, j < xs.length → ¬ ruleWords (Wide.words tr) sb xs j (.bol :: w)) ∨
          ∀ x ∈ xs, NoBol x.2)) := by
    rcases a2 with ⟨h1, h2, h3, h4⟩ | ⟨h1, h2⟩
    · exact .inl ⟨h1, by rw [h2, h3]; rfl, h4⟩
    · refine .inr ⟨h1, fun h => ?_⟩
      rw [Bool.and_eq_true] at h
      rcases h2 h.1 h.2 with h | h
      · exact .inl h
      · exact .inr (hstop h)
  generalize hL : (f.bol && r.bol) = atLine at *
  have tk : ∀ k, ∀ s ∈ text inp p k, Wide.Known tr s := fun k => text_known hinp p k
  have Wj : ∀ (j k : Nat), ruleWords (Wide.words tr) sb xs j (pre ++ segSyms (fun c => Wide.encode tr (.ch c)) inp p k) ↔
      ∃ x, xs[j]? = some x ∧ LineMatch atLine x.2 (text inp p k) := fun j k => by
    rw [hseg]; exact words_at hset hsb _ pre hpre j (tk k) (text_noBol inp p k)
  have We : ∀ (j k : Nat), ruleWords (Wide.words tr) sb xs j (pre ++ segSyms (fun c => Wide.encode tr (.ch c)) inp p k ++ [.eol]) ↔
      ∃ x, xs[j]? = some x ∧ LineMatch atLine x.2 (text inp p k ++ [.eol]) := fun j k => by
    have := words_at hset hsb _ pre hpre j (v := text inp p k ++ [.eol]) (by
      intro s hs
      rcases List.mem_append.1 hs with hs | hs
      · exact tk k s hs
      · rw [List.mem_singleton.1 hs]; trivial) (by simp [text_noBol])
    rw [List.flatMap_append, ← List.append_assoc, ← hseg] at this
    simpa [Wide.encode] using this
  have lift : ∀ {w : List Sym} {v : List Sym}, (∀ j, ruleWords (Wide.words tr) sb xs j w ↔ ∃ x, xs[j]? = some x ∧ LineMatch atLine x.2 v) →
      (∀ j, j < xs.length → ¬ ruleWords (Wide.words tr) sb xs j w) → ∀ e ∈ xs.map (·.2), ¬ LineMatch atLine e v := by
    intro w v hw hno e he hm
    obtain ⟨x, hx, rfl⟩ := List.mem_map.1 he
    obtain ⟨j, hj⟩ := List.getElem?_of_mem hx
    exact hno j (List.getElem?_eq_some_iff.1 hj).1 ((hw j).2 ⟨x, hj, hm⟩)
  have first : ∀ {w : List Sym} {v : List Sym}, (∀ j, ruleWords (Wide.words tr) sb xs j w ↔ ∃ x, xs[j]? = some x ∧ LineMatch atLine x.2 v) →
      ∀ {j}, FirstM xs.length (ruleWords (Wide.words tr) sb xs) j w →
      ∃ x, xs[j]? = some x ∧ First (LineMatch atLine) (xs.map (·.2)) v j := by
    rintro w v hw j ⟨_, h1, h2⟩
    obtain ⟨x, hx, hm⟩ := (hw j).1 h1
    refine ⟨x, hx, ⟨x.2, by rw [List.getElem?_map, hx]; rfl, hm⟩, ?_⟩
    intro i e hi he hm'
    rw [List.getElem?_map] at he
    cases hxi : xs[i]? with
    | none => rw [hxi] at he; cases he
    | some y =>
      rw [hxi] at he
      simp only [Option.map_some, Option.some.injEq] at he
      subst he
      exact h2 i hi ((hw i).2 ⟨y, hxi, hm'⟩)
  have early : ∀ {k}, StopAt xs.length (ruleInfo xs off) (ruleWords (Wide.words tr) sb xs)
      (pre ++ segSyms (fun c => Wide.encode tr (.ch c)) inp p k) → Early (LineMatch atLine) (xs.map (·.2)) inp p k := by
    rintro k ⟨j, h1, h2, h3, h4⟩
    obtain ⟨x, hx, hf⟩ := first (fun j => Wj j k) ⟨h1, h2, h3⟩
    obtain ⟨x', hx', hg⟩ := hlazy h4
    rw [hx] at hx'
    cases hx'
    exact ⟨j, x.2, hf, by rw [List.getElem?_map, hx]; rfl, hg⟩
  have noDollar : ∀ {k}, NoEolAt xs.length (ruleWords (Wide.words tr) sb xs) f inp r.eoi
      (fun k => pre ++ segSyms (fun c => Wide.encode tr (.ch c)) inp p k) k →
      ¬ ByDollar f.eol (LineMatch atLine) (xs.map (·.2)) inp p r.eoi k := by
    rintro k h ⟨h1, h2, e, he, hm⟩
    exact lift (fun j => We j k) (h ⟨h1, h2⟩) e he hm
  have quiet : ∀ {k}, QuietG xs.length (ruleWords (Wide.words tr) sb xs) f inp r.eoi
      (fun k => pre ++ segSyms (fun c => Wide.encode tr (.ch c)) inp p k) k →
      NoLonger f.eol (LineMatch atLine) (xs.map (·.2)) inp p r.eoi k := by
    intro k h k' h1 h2
    obtain ⟨h3, h4⟩ := h k' h1 h2
    exact ⟨lift (fun j => Wj j k') h3, noDollar h4⟩
  have estart : pre = pre ++ segSyms (fun c => Wide.encode tr (.ch c)) inp p p := by
    rw [segSyms_self, List.append_nil]
  refine ⟨s, endTok, a1, ?_⟩
  rcases a3 with ⟨k, j, k1, k2, k3, k4, id, uid, u, next, push, pop, g, k8, k9, k10, k11, k12, k13, k14⟩ |
    ⟨b1, b2, b3⟩
  · left
    rcases k4 with ⟨⟨l1, l2⟩, l3, l4⟩ | ⟨l1, l2, l3⟩
    · obtain ⟨x, hx, hf⟩ := first (fun j => We j k) l3
      obtain ⟨e1, e2, e3, e4, e5⟩ := hfin hx k8
      exact ⟨k, j, x, hx, k1, k2, k3, .inl ⟨l1, l2, hf, quiet l4⟩, k9, by rw [k10, e1], by rw [k11, e2], k12,
        fun h => by rw [(k13 h).1, (k13 h).2, e5, e4]; exact ⟨rfl, rfl⟩, by rw [k14, e3]⟩
    · obtain ⟨x, hx, hf⟩ := first (fun j => Wj j k) l2
      obtain ⟨e1, e2, e3, e4, e5⟩ := hfin hx k8
      refine ⟨k, j, x, hx, k1, k2, k3, .inr ⟨l1, hf, ?_⟩, k9, by rw [k10, e1], by rw [k11, e2], k12,
        fun h => by rw [(k13 h).1, (k13 h).2, e5, e4]; exact ⟨rfl, rfl⟩, by rw [k14, e3]⟩
      rcases l3 with l3 | ⟨l3, l4⟩
      · exact .inl (early l3)
      · exact .inr ⟨quiet l3, noDollar l4⟩
  · right
    refine ⟨b2, ?_⟩
    have b1' : Early (LineMatch atLine) (xs.map (·.2)) inp p p ∨
        (NoLonger f.eol (LineMatch atLine) (xs.map (·.2)) inp p r.eoi p ∧
          ¬ ByDollar f.eol (LineMatch atLine) (xs.map (·.2)) inp p r.eoi p) := by
      rcases b1 with b1 | ⟨b1, b1'⟩
      · rw [estart] at b1; exact .inl (early b1)
      · exact .inr ⟨quiet b1, noDollar b1'⟩
    rcases b3 with ⟨c1, c2⟩ | ⟨j, c2, id, uid, u, next, push, pop, g, c4, c5, c6, c7, c8, c9, c10, c11⟩
    · left
      have hne : NoEmpty (xs.map (·.2)) := by
        intro e he hm
        obtain ⟨x, hx, rfl⟩ := List.mem_map.1 he
        obtain ⟨j, hj⟩ := List.getElem?_of_mem hx
        exact c2 j (List.getElem?_eq_some_iff.1 hj).1 ((words_nil hset j).2 ⟨x, hj, hm⟩)
      refine ⟨c1, hne, ?_⟩
      rcases b1' with ⟨j, e, h1, h2, h3⟩ | h
      · exfalso
        obtain ⟨e', h4, h5⟩ := h1.hit
        rw [h2] at h4
        cases h4
        obtain ⟨x, hx, rfl⟩ := List.mem_map.1 (List.mem_of_getElem? h2)
        rw [show text inp p p = [] by simp [text]] at h5
        rcases h5 with ⟨_, h5⟩ | ⟨_, h5⟩
        · rcases H.lazy xs hxs with h6 | h6
          · have h6 := h6 x hx
            cases hr : x.2 with
            | none => rw [hr] at h5; cases h5
            | some r => rw [hr] at h5 h6; exact noBol_words h6 h5 (by simp)
          · exact (h6 x hx h3).2 h5
        · exact hne _ (List.mem_of_getElem? h2) h5
      · exact h
    · right
      obtain ⟨d1, d2, d3⟩ := c2
      obtain ⟨x, hx, hm⟩ := (words_nil hset j).1 d2
      obtain ⟨e1, e2, e3, e4, e5⟩ := hfin hx c4
      refine ⟨j, x, hx, ⟨⟨x.2, by rw [List.getElem?_map, hx]; rfl, hm⟩, ?_⟩, b1', c5, by rw [c6, e1], by rw [c7, e2], c8,
        by rw [c9, e5], by rw [c10, e4], c11⟩
      intro i e hi he hm'
      rw [List.getElem?_map] at he
      cases hxi : xs[i]? with
      | none => rw [hxi] at he; cases he
      | some y =>
        rw [hxi] at he
        simp only [Option.map_some, Option.some.injEq] at he
        subst he
        exact d3 i hi ((words_nil hset i).2 ⟨y, hxi, hm'⟩)

/-! The calls. -/

/-- The machine `sm` chooses rules as `Ch` and `No` say, in every valid lexer state. -/
structure ImplW (E : LexEnv) (Ch : Results → Nat → SRule → Nat → Nat → Bool → Prop) (No : Results → Nat → Prop)
    (bytes : Nat) (sm : Internals) : Prop where
  eoi : sm.eoi = E.eoi
  att : ∀ (r : Results) (p : Nat), r.state < E.rules.length → p < r.eoi → r.eoi ≤ E.inp.length →
    ∃ s endTok, attempt E.flags E.npos bytes sm E.inp r p p = .ok (s, endTok) ∧
      ((∃ x k next b, Ch r p x k next b ∧ endTok = k ∧ s.endState = true ∧ s.id = x.1.id ∧
          s.uid = x.1.userId ∧ s.endBol = (if E.flags.bol then b else r.bol) ∧
          (E.flags.recursive = true → s.pop = x.1.popDfa ∧ s.pushDfa = x.1.pushDfa) ∧
          s.startState = if E.flags.multiState then next else r.state) ∨
       (s.endState = false ∧ endTok = p ∧ No r p))

/-- `Ch` chooses rules of the lexer and ends of texts inside the input. -/
structure Choice (E : LexEnv) (Ch : Results → Nat → SRule → Nat → Nat → Bool → Prop) : Prop where
  mem : ∀ {r p x k next b}, Ch r p x k next b → ∃ xs ∈ E.rules, x ∈ xs
  le : ∀ {r p x k next b}, Ch r p x k next b → p ≤ r.eoi → p ≤ k ∧ k ≤ r.eoi
  next : ∀ {r p x k next b}, StatesExist E → Ch r p x k next b → ROk E r →
    (E.flags.recursive = true ∧ x.1.popDfa = true) ∨ next < E.rules.length

theorem accept_ok {E : LexEnv} {Ch : Results → Nat → SRule → Nat → Nat → Bool → Prop} (C : Choice E Ch) (S : StatesExist E) {r r' : Results} {p : Nat} {x : SRule} {k next : Nat} {b : Bool}
    (h : Ch r p x k next b) (hr : ROk E r) (ha : E.accept x.1 r k next b = .ok r') :
    ROk E r' ∧ r'.eoi = r.eoi ∧ r'.second = k ∧ r'.first = r.first := by
  have hnext : (E.flags.recursive = true ∧ x.1.popDfa = true) ∨ next < E.rules.length := by
    exact C.next S h hr
  obtain ⟨xs, hxs, hx⟩ := C.mem h
  unfold LexEnv.accept at ha
  split at ha
  · split at ha
    · cases ha
    · rename_i e st hst
      injection ha with ha
      subst ha
      have := hr.stack
      rw [hst] at this
      refine ⟨⟨?_, fun e he => this e (by simp [he]), hr.eoi⟩, rfl, rfl, rfl⟩
      show (if _ then _ else _) < _
      split
      · exact this e (by simp)
      · exact hr.state
  · rename_i hnp
    injection ha with ha
    subst ha
    refine ⟨⟨?_, ?_, hr.eoi⟩, rfl, rfl, rfl⟩
    · show (if _ then _ else _) < _
      split
      · exact hnext.resolve_left hnp
      · exact hr.state
    · intro e he
      simp only at he
      split at he
      · rename_i hc
        rcases List.mem_cons.1 he with rfl | he
        · exact S.push xs hxs x hx hc.2
        · exact hr.stack e he
      · exact hr.stack e he

/-- One round of `next`, rephrased. -/
theorem nextLoop_step {E : LexEnv} {Ch : Results → Nat → SRule → Nat → Nat → Bool → Prop} {No : Results → Nat → Prop} {bytes : Nat} {sm : Internals} (I : ImplW E Ch No bytes sm) (r : Results) (p fuel : Nat)
    (hr : ROk E r) (hp : p < r.eoi) :
    (∃ x k next b, Ch r p x k next b ∧
      ((∃ e, E.accept x.1 r k next b = .error e ∧ e ≠ .fuel ∧
          nextLoop E.flags E.npos bytes sm E.inp (fuel + 1) r p p = .error e) ∨
       (∃ r', E.accept x.1 r k next b = .ok r' ∧
          ((x.1.id = E.npos - 1 ∧ nextLoop E.flags E.npos bytes sm E.inp (fuel + 1) r p p =
              nextLoop E.flags E.npos bytes sm E.inp fuel { r' with first := k } k k) ∨
           (x.1.id ≠ E.npos - 1 ∧ E.continues x.1 r' ∧ nextLoop E.flags E.npos bytes sm E.inp (fuel + 1) r p p =
              nextLoop E.flags E.npos bytes sm E.inp fuel r' k k) ∨
           (x.1.id ≠ E.npos - 1 ∧ ¬ E.continues x.1 r' ∧ nextLoop E.flags E.npos bytes sm E.inp (fuel + 1) r p p =
              .ok { r' with id := x.1.id, userId := x.1.userId }))))) ∨
    (∃ c, No r p ∧ E.inp[p]? = some c ∧ nextLoop E.flags E.npos bytes sm E.inp (fuel + 1) r p p =
        .ok { r with first := p, second := if E.flags.advance then p + 1 else p,
                     bol := c == 10, id := E.npos, userId := E.npos }) := by
  obtain ⟨s, endTok, a1, a2⟩ := I.att r p hr.state hp hr.eoi
  have hstep : nextLoop E.flags E.npos bytes sm E.inp (fuel + 1) r p p =
      (if s.endState then
        (s.popStep E.flags E.npos r.stack >>= fun (s', stack) =>
          if s'.id = E.npos - 1 then
            nextLoop E.flags E.npos bytes sm E.inp fuel { r with
              stack := stack
              state := if E.flags.multiState then s'.startState else r.state
              bol := if E.flags.bol then s'.endBol else r.bol
              second := endTok
              first := endTok } endTok endTok
          else if s'.isIdEoi E.flags sm.eoi stack then
            nextLoop E.flags E.npos bytes sm E.inp fuel { r with
              stack := stack
              state := if E.flags.multiState then s'.startState else r.state
              bol := if E.flags.bol then s'.endBol else r.bol
              second := endTok } endTok endTok
          else .ok { r with
              stack := stack
              state := if E.flags.multiState then s'.startState else r.state
              bol := if E.flags.bol then s'.endBol else r.bol
              second := endTok
              id := s'.id, userId := s'.uid })
      else
        charAt E.inp r.eoi endTok >>= fun c =>
        .ok { r with
          first := endTok
          second := if E.flags.advance then endTok + 1 else endTok
          bol := c == 10
          id := E.npos, userId := E.npos }) := by
    rw [nextLoop, if_neg (by omega), a1]
    simp only [bind, Except.bind]
  rcases a2 with ⟨x, k, next, b, c1, c2, c3, c4, c5, c6, c7, c8⟩ | ⟨c1, c2, c3⟩
  · left
    refine ⟨x, k, next, b, c1, ?_⟩
    subst c2
    rw [if_pos c3] at hstep
    rcases popStep_accept (k := endTok) c4 c6 c7 c8 with ⟨e, d1, d2, d3⟩ | ⟨r', s', stack, d1, d2, d3, d4, d5, d6⟩
    · left
      refine ⟨e, d1, d3, ?_⟩
      rw [hstep, d2]; rfl
    · right
      refine ⟨r', d1, ?_⟩
      rw [d2] at hstep
      simp only [bind, Except.bind] at hstep
      rw [I.eoi, d4] at hstep
      by_cases e1 : x.1.id = E.npos - 1
      · left
        refine ⟨e1, ?_⟩
        rw [hstep, if_pos e1, ← d3]
      · right
        rw [if_neg e1] at hstep
        by_cases e2 : s'.isIdEoi E.flags E.eoi stack = true
        · left
          refine ⟨e1, d6.1 e2, ?_⟩
          rw [hstep, if_pos e2, d3]
        · right
          refine ⟨e1, fun h => e2 (d6.2 h), ?_⟩
          rw [hstep, if_neg e2, d5, c5, ← d3]
  · right
    have hlt : p < E.inp.length := by have := hr.eoi; omega
    refine ⟨E.inp[p], c3, List.getElem?_eq_getElem hlt, ?_⟩
    rw [hstep, if_neg (by rw [c1]; decide), c2]
    unfold charAt
    rw [if_pos hp, List.getElem?_eq_getElem hlt]
    rfl

/-- Whatever `next` returns is what the rules say. -/
theorem nextLoop_sound {E : LexEnv} {Ch : Results → Nat → SRule → Nat → Nat → Bool → Prop} {No : Results → Nat → Prop} {bytes : Nat} {sm : Internals} (I : ImplW E Ch No bytes sm) (C : Choice E Ch) (S : StatesExist E)
    (fuel : Nat) : ∀ (r : Results) (p : Nat), ROk E r → p ≤ r.eoi →
    nextLoop E.flags E.npos bytes sm E.inp fuel r p p ≠ .error .fuel →
    E.LexWith Ch No r p (nextLoop E.flags E.npos bytes sm E.inp fuel r p p) := by
  induction fuel with
  | zero => intro r p _ _ h; exact absurd rfl h
  | succ fuel ih =>
    intro r p hr hp h
    by_cases he : p = r.eoi
    · subst he
      rw [nextLoop, if_pos rfl, I.eoi]
      exact .eoi r
    have hlt : p < r.eoi := by omega
    rcases nextLoop_step I r p fuel hr hlt with ⟨x, k, next, b, c1, ⟨e, c2, c3, c4⟩ | ⟨r', c2, c3⟩⟩ |
      ⟨c, c1, c2, c3⟩
    · rw [c4]; exact .throw r p x k next b e hlt c1 c2
    · obtain ⟨d1, d2, d3, d4⟩ := accept_ok C S c1 hr c2
      have hk := (C.le c1 hp).2
      rcases c3 with ⟨e1, e2⟩ | ⟨e1, e2, e3⟩ | ⟨e1, e2, e3⟩
      · rw [e2] at h ⊢
        exact .skip r r' p x k next b _ hlt c1 c2 e1 (ih _ k ⟨d1.state, d1.stack, d1.eoi⟩
          (by show k ≤ r'.eoi; rw [d2]; exact hk) h)
      · rw [e3] at h ⊢
        exact .again r r' p x k next b _ hlt c1 c2 e1 e2 (ih _ k d1 (by rw [d2]; exact hk) h)
      · rw [e3]; exact .token r r' p x k next b hlt c1 c2 e1 e2
    · rw [c3]; exact .none r p c hlt c1 c2

/-- What the rules say is what `next` returns. -/
theorem nextLoop_complete {E : LexEnv} {Ch : Results → Nat → SRule → Nat → Nat → Bool → Prop} {No : Results → Nat → Prop} {bytes : Nat} {sm : Internals} (I : ImplW E Ch No bytes sm)
    (C : Choice E Ch)
    (hu : ∀ {r p x k next b x' k' next' b'}, r.state < E.rules.length → Ch r p x k next b → Ch r p x' k' next' b' →
      x = x' ∧ k = k' ∧ next = next' ∧ b = b')
    (hexc : ∀ {r p x k next b}, Ch r p x k next b → No r p → False) (S : StatesExist E)
    {r : Results} {p : Nat} {o : M Results} (h : E.LexWith Ch No r p o) : ROk E r →
    ∃ N, ∀ n, N ≤ n → nextLoop E.flags E.npos bytes sm E.inp n r p p = o := by
  induction h with
  | eoi r =>
    intro _
    refine ⟨1, fun n hn => ?_⟩
    obtain ⟨n, rfl⟩ : ∃ m, n = m + 1 := ⟨n - 1, by omega⟩
    rw [nextLoop, if_pos rfl, I.eoi]
  | none r p c hp h1 h2 =>
    intro hr
    refine ⟨1, fun n hn => ?_⟩
    obtain ⟨n, rfl⟩ : ∃ m, n = m + 1 := ⟨n - 1, by omega⟩
    rcases nextLoop_step I r p n hr hp with ⟨x, k, next, b, c1, _⟩ | ⟨c', c1, c2, c3⟩
    · exact (hexc c1 h1).elim
    · rw [h2] at c2
      cases c2
      exact c3
  | throw r p x k next b e hp h1 h2 =>
    intro hr
    refine ⟨1, fun n hn => ?_⟩
    obtain ⟨n, rfl⟩ : ∃ m, n = m + 1 := ⟨n - 1, by omega⟩
    rcases nextLoop_step I r p n hr hp with ⟨x', k', next', b', c1, c2⟩ | ⟨c', c1, c2, c3⟩
    · obtain ⟨rfl, rfl, rfl, rfl⟩ := hu hr.state h1 c1
      rcases c2 with ⟨e', d1, _, d2⟩ | ⟨r', d1, _⟩
      · rw [h2] at d1
        cases d1
        exact d2
      · rw [h2] at d1; cases d1
    · exact (hexc h1 c1).elim
  | skip r r' p x k next b o hp h1 h2 h3 h4 ih =>
    intro hr
    obtain ⟨d1, d2, d3, d4⟩ := accept_ok C S h1 hr h2
    obtain ⟨N, hN⟩ := ih ⟨d1.state, d1.stack, d1.eoi⟩
    refine ⟨N + 1, fun n hn => ?_⟩
    obtain ⟨n, rfl⟩ : ∃ m, n = m + 1 := ⟨n - 1, by omega⟩
    rcases nextLoop_step I r p n hr hp with ⟨x', k', next', b', c1, c2⟩ | ⟨c', c1, c2, c3⟩
    · obtain ⟨rfl, rfl, rfl, rfl⟩ := hu hr.state h1 c1
      rcases c2 with ⟨e', e1, _, e2⟩ | ⟨r'', e1, e2⟩
      · rw [h2] at e1; cases e1
      · rw [h2] at e1
        cases e1
        rcases e2 with ⟨_, e3⟩ | ⟨e3, _⟩ | ⟨e3, _⟩
        · rw [e3]; exact hN n (by omega)
        · exact absurd h3 e3
        · exact absurd h3 e3
    · exact (hexc h1 c1).elim
  | again r r' p x k next b o hp h1 h2 h3 h4 h5 ih =>
    intro hr
    obtain ⟨d1, d2, d3, d4⟩ := accept_ok C S h1 hr h2
    obtain ⟨N, hN⟩ := ih d1
    refine ⟨N + 1, fun n hn => ?_⟩
    obtain ⟨n, rfl⟩ : ∃ m, n = m + 1 := ⟨n - 1, by omega⟩
    rcases nextLoop_step I r p n hr hp with ⟨x', k', next', b', c1, c2⟩ | ⟨c', c1, c2, c3⟩
    · obtain ⟨rfl, rfl, rfl, rfl⟩ := hu hr.state h1 c1
      rcases c2 with ⟨e', e1, _, e2⟩ | ⟨r'', e1, e2⟩
      · rw [h2] at e1; cases e1
      · rw [h2] at e1
        cases e1
        rcases e2 with ⟨e3, _⟩ | ⟨_, _, e3⟩ | ⟨_, e3, _⟩
        · exact absurd e3 h3
        · rw [e3]; exact hN n (by omega)
        · exact absurd h4 e3
    · exact (hexc h1 c1).elim
  | token r r' p x k next b hp h1 h2 h3 h4 =>
    intro hr
    refine ⟨1, fun n hn => ?_⟩
    obtain ⟨n, rfl⟩ : ∃ m, n = m + 1 := ⟨n - 1, by omega⟩
    rcases nextLoop_step I r p n hr hp with ⟨x', k', next', b', c1, c2⟩ | ⟨c', c1, c2, c3⟩
    · obtain ⟨rfl, rfl, rfl, rfl⟩ := hu hr.state h1 c1
      rcases c2 with ⟨e', e1, _, e2⟩ | ⟨r'', e1, e2⟩
      · rw [h2] at e1; cases e1
      · rw [h2] at e1
        cases e1
        rcases e2 with ⟨e3, _⟩ | ⟨_, e3, _⟩ | ⟨_, _, e3⟩
        · exact absurd e3 h3
        · exact absurd e3 h4
        · exact e3
    · exact (hexc h1 c1).elim


theorem picks_choice (E : LexEnv) : Choice E E.Picks where
  mem := by
    intro r p x k next b h
    cases h with
    | text xs x k j h1 h2 => exact ⟨xs, List.mem_of_getElem? h1, List.mem_of_getElem? h2⟩
    | line xs x k j h1 h2 => exact ⟨xs, List.mem_of_getElem? h1, List.mem_of_getElem? h2⟩
    | empty xs x j h1 h2 => exact ⟨xs, List.mem_of_getElem? h1, List.mem_of_getElem? h2⟩
  le := by
    intro r p x k next b h hp
    cases h with
    | text xs x k j h1 h2 h3 h4 => exact ⟨by omega, h4⟩
    | line xs x k j h1 h2 h3 h4 => exact ⟨h3, h4⟩
    | empty xs x j h1 h2 => exact ⟨Nat.le_refl _, hp⟩
  next := by
    intro r p x k next b S h hr
    cases h with
    | text xs x k j h1 h2 => exact S.next xs (List.mem_of_getElem? h1) x (List.mem_of_getElem? h2)
    | line xs x k j h1 h2 => exact S.next xs (List.mem_of_getElem? h1) x (List.mem_of_getElem? h2)
    | empty xs x j h1 h2 => exact .inr hr.state

/-- A machine built by the generator implements its rules. -/
theorem build_impl {tr : Traits} (hnpos : 263 ≤ tr.npos) {addr : Nat → Nat} {R : Rules}
    {xss : List (List SRule)} (h : AnyRules tr R xss) {sm : Internals}
    (hb : buildTemp tr addr R = .ok sm) (f : Flags) (inp : List Nat) (hinp : ∀ c ∈ inp, c < charsOf tr) :
    ImplW ⟨xss, tr.npos, R.eoi, f, inp⟩ (LexEnv.Picks ⟨xss, tr.npos, R.eoi, f, inp⟩)
      (LexEnv.Unmatched ⟨xss, tr.npos, R.eoi, f, inp⟩) (bytesOf tr) sm := by
  rcases buildTemp_spec tr _ _ addr hnpos R xss h.states h.stateOk with
    hspec | ⟨msg, b1, _⟩
  case inr => rw [b1] at hb; cases hb
  obtain ⟨sm', b1, b2, _, _, _, _, _, b3⟩ := hspec
  rw [b1] at hb
  injection hb with hb
  subst hb
  refine ⟨b2, fun r p hr hp heoi => ?_⟩
  simp only at hr heoi ⊢
  have hxs : xss[r.state]? = some xss[r.state] := List.getElem?_eq_getElem hr
  obtain ⟨d, size, At, c1, c2, c5, c3, c4, c6⟩ := b3 r.state _ hxs
  obtain ⟨s, endTok, a1, a2⟩ := built_attempt h (List.getElem_mem hr) hinp (stateBol_of h hxs) c3 c5 f sm' r p c1 hp heoi
  refine ⟨s, endTok, a1, ?_⟩
  rcases a2 with ⟨k, j, x, e1, e2, e3, e4, e5, e6, e7, e8, e9, e10, e11⟩ | ⟨e2, ⟨e3, e4, e5, e6⟩ |
    ⟨j, x, e3, e4, e0, e5, e6, e7, e8, e9, e10, e11⟩⟩
  · rcases e5 with ⟨f1, f2, f3, f4⟩ | ⟨f1, f2, f3⟩
    · exact .inl ⟨x, k, x.1.nextDfa, _, .line _ x k j hxs e1 e2 e3 f1 f2 f3 f4, e4, e6, e7, e8, e9, e10, e11⟩
    · refine .inl ⟨x, k, x.1.nextDfa, _, .text _ x k j hxs e1 f1 e3 f2 f3, e4, e6, e7, e8, ?_, e10, e11⟩
      rw [e9, if_neg (show ¬ k = p by omega)]
  · exact .inr ⟨e3, e2, _, hxs, e5, e6, e4⟩
  · refine .inl ⟨x, p, r.state, r.bol, .empty _ x j hxs e3 e4 e0, e2, e5, e6, e7, ?_, fun _ => ⟨e9, e10⟩, ?_⟩
    · rw [e8]; split <;> rfl
    · rw [e11]; split <;> rfl

theorem picks_unmatched {E : LexEnv} {r : Results} {p : Nat} {x : SRule} {k next : Nat} {b : Bool}
    (h : E.Picks r p x k next b) (hn : E.Unmatched r p) : False := by
  obtain ⟨xs', g1, g2, g3, g4⟩ := hn
  cases h with
  | text xs x k j h1 h2 h3 h4 h5 =>
    rw [h1] at g1; cases g1
    obtain ⟨e, e1, e2⟩ := h5.hit
    exact (g2 k h3 h4).1 e (List.mem_of_getElem? e1) e2
  | line xs x k j h1 h2 h3 h4 h5 h6 h7 =>
    rw [h1] at g1; cases g1
    obtain ⟨e, e1, e2⟩ := h7.hit
    have hby : ByDollar E.flags.eol (LineMatch (E.atLine r)) (xs'.map (·.2)) E.inp p r.eoi k :=
      ⟨h5, h6, e, List.mem_of_getElem? e1, e2⟩
    by_cases hk : k = p
    · rw [hk] at hby; exact g3 hby
    · exact (g2 k (by omega) h4).2 hby
  | empty xs x j h1 h2 h3 =>
    rw [h1] at g1; cases g1
    obtain ⟨e, e1, e2⟩ := h3.hit
    exact g4 e (List.mem_of_getElem? e1) e2

theorem first_unique {L : Option Re → List Sym → Prop} {es : List (Option Re)} {w : List Sym} {i j : Nat}
    (h : First L es w i) (h' : First L es w j) : i = j := by
  obtain ⟨e, e1, e2⟩ := h.hit
  obtain ⟨e', e1', e2'⟩ := h'.hit
  rcases Nat.lt_trichotomy i j with hlt | rfl | hlt
  · exact absurd e2 (h'.earliest i e hlt e1)
  · rfl
  · exact absurd e2' (h.earliest j e' hlt e1')

theorem not_early {es : List (Option Re)} (hg : ∀ e ∈ es, AllGreedy e) {L : Option Re → List Sym → Prop} {inp : List Nat}
    {p k : Nat} (h : Early L es inp p k) : False := by
  obtain ⟨j, e, _, h1, h2⟩ := h
  exact h2 (hg e (List.mem_of_getElem? h1))

/-- Without non-greedy operators the choice is unique. -/
theorem picks_unique {E : LexEnv} (hg : ∀ xs ∈ E.rules, ∀ x ∈ xs, AllGreedy x.2) {r : Results} {p : Nat}
    {x x' : SRule} {k k' next next' : Nat} {b b' : Bool}
    (h : E.Picks r p x k next b) (h' : E.Picks r p x' k' next' b') :
    x = x' ∧ k = k' ∧ next = next' ∧ b = b' := by
  have hg' : ∀ {xs}, E.rules[r.state]? = some xs → ∀ e ∈ xs.map (·.2), AllGreedy e := by
    intro xs hxs e he
    obtain ⟨x, hx, rfl⟩ := List.mem_map.1 he
    exact hg xs (List.mem_of_getElem? hxs) x hx
  have tt : ∀ {xs : List SRule} {k k' j j' : Nat}, p < k → p < k' → k ≤ r.eoi → k' ≤ r.eoi →
      First (LineMatch (E.atLine r)) (xs.map (·.2)) (text E.inp p k) j →
      First (LineMatch (E.atLine r)) (xs.map (·.2)) (text E.inp p k') j' →
      NoLonger E.flags.eol (LineMatch (E.atLine r)) (xs.map (·.2)) E.inp p r.eoi k → ¬ k < k' := by
    intro xs k k' j j' _ _ _ h4 _ h6 h7 hlt
    obtain ⟨e, e1, e2⟩ := h6.hit
    exact (h7 k' hlt h4).1 e (List.mem_of_getElem? e1) e2
  cases h with
  | text xs x k j h1 h2 h3 h4 h5 h6 =>
    have h6 := h6.resolve_left (not_early (hg' h1))
    cases h' with
    | text xs' x' k' j' g1 g2 g3 g4 g5 g6 =>
      rw [h1] at g1; cases g1
      have g6 := g6.resolve_left (not_early (hg' h1))
      have : k = k' := by
        have a1 := tt h3 g3 h4 g4 h5 g5 h6.1
        have a2 := tt g3 h3 g4 h4 g5 h5 g6.1
        omega
      subst this
      have := first_unique h5 g5
      subst this
      rw [h2] at g2; cases g2
      exact ⟨rfl, rfl, rfl, rfl⟩
    | line xs' x' k' j' g1 g2 g3 g4 g5 g6 g7 g8 =>
      rw [h1] at g1; cases g1
      exfalso
      obtain ⟨e, e1, e2⟩ := h5.hit
      obtain ⟨e', e1', e2'⟩ := g7.hit
      have hby : ByDollar E.flags.eol (LineMatch (E.atLine r)) (xs.map (·.2)) E.inp p r.eoi k' :=
        ⟨g5, g6, e', List.mem_of_getElem? e1', e2'⟩
      rcases Nat.lt_trichotomy k k' with hlt | rfl | hlt
      · exact (h6.1 k' hlt g4).2 hby
      · exact h6.2 hby
      · exact (g8 k hlt h4).1 e (List.mem_of_getElem? e1) e2
    | empty xs' x' j' g1 g2 g3 g4 =>
      rw [h1] at g1; cases g1
      have g4 := g4.resolve_left (not_early (hg' h1))
      obtain ⟨e, e1, e2⟩ := h5.hit
      exact absurd e2 ((g4.1 k h3 h4).1 e (List.mem_of_getElem? e1))
  | line xs x k j h1 h2 h3 h4 h5 h6 h7 h8 =>
    obtain ⟨e, e1, e2⟩ := h7.hit
    have hby : ByDollar E.flags.eol (LineMatch (E.atLine r)) (xs.map (·.2)) E.inp p r.eoi k :=
      ⟨h5, h6, e, List.mem_of_getElem? e1, e2⟩
    cases h' with
    | text xs' x' k' j' g1 g2 g3 g4 g5 g6 =>
      rw [h1] at g1; cases g1
      have g6 := g6.resolve_left (not_early (hg' h1))
      exfalso
      obtain ⟨e', e1', e2'⟩ := g5.hit
      rcases Nat.lt_trichotomy k' k with hlt | rfl | hlt
      · exact (g6.1 k hlt h4).2 hby
      · exact g6.2 hby
      · exact (h8 k' hlt g4).1 e' (List.mem_of_getElem? e1') e2'
    | line xs' x' k' j' g1 g2 g3 g4 g5 g6 g7 g8 =>
      rw [h1] at g1; cases g1
      obtain ⟨e', e1', e2'⟩ := g7.hit
      have hby' : ByDollar E.flags.eol (LineMatch (E.atLine r)) (xs.map (·.2)) E.inp p r.eoi k' :=
        ⟨g5, g6, e', List.mem_of_getElem? e1', e2'⟩
      have : k = k' := by
        rcases Nat.lt_trichotomy k k' with hlt | rfl | hlt
        · exact absurd hby' (h8 k' hlt g4).2
        · rfl
        · exact absurd hby (g8 k hlt h4).2
      subst this
      have := first_unique h7 g7
      subst this
      rw [h2] at g2; cases g2
      exact ⟨rfl, rfl, rfl, rfl⟩
    | empty xs' x' j' g1 g2 g3 g4 =>
      rw [h1] at g1; cases g1
      have g4 := g4.resolve_left (not_early (hg' h1))
      by_cases hk : k = p
      · rw [hk] at hby; exact absurd hby g4.2
      · exact absurd hby (g4.1 k (by omega) h4).2
  | empty xs x j h1 h2 h3 h4 =>
    have h4 := h4.resolve_left (not_early (hg' h1))
    cases h' with
    | text xs' x' k' j' g1 g2 g3 g4 g5 g6 =>
      rw [h1] at g1; cases g1
      obtain ⟨e, e1, e2⟩ := g5.hit
      exact absurd e2 ((h4.1 k' g3 g4).1 e (List.mem_of_getElem? e1))
    | line xs' x' k' j' g1 g2 g3 g4 g5 g6 g7 g8 =>
      rw [h1] at g1; cases g1
      obtain ⟨e', e1', e2'⟩ := g7.hit
      have hby' : ByDollar E.flags.eol (LineMatch (E.atLine r)) (xs.map (·.2)) E.inp p r.eoi k' :=
        ⟨g5, g6, e', List.mem_of_getElem? e1', e2'⟩
      by_cases hk : k' = p
      · rw [hk] at hby'; exact absurd hby' h4.2
      · exact absurd hby' (h4.1 k' (by omega) g4).2
    | empty xs' x' j' g1 g2 g3 g4 =>
      rw [h1] at g1; cases g1
      have : j = j' := by
        obtain ⟨e, e1, e2⟩ := h3.hit
        obtain ⟨e', e1', e2'⟩ := g3.hit
        rcases Nat.lt_trichotomy j j' with hlt | rfl | hlt
        · exact absurd e2 (g3.earliest j e hlt e1)
        · rfl
        · exact absurd e2' (h3.earliest j' e' hlt e1')
      subst this
      rw [h2] at g2; cases g2
      exact ⟨rfl, rfl, rfl, rfl⟩

/-- For greedy rules without `$` the choice is that of `Chosen`. -/
theorem picks_iff_chosen {E : LexEnv} (hg : ∀ xs ∈ E.rules, ∀ x ∈ xs, AllGreedy x.2)
    (he : ∀ xs ∈ E.rules, ∀ x ∈ xs, NoEol x.2) {r : Results} {p : Nat} {x : SRule} {k next : Nat} {b : Bool} :
    E.Picks r p x k next b ↔ E.Chosen r p x k next b := by
  have hg' : ∀ {xs}, E.rules[r.state]? = some xs → ∀ e ∈ xs.map (·.2), AllGreedy e := by
    intro xs hxs e he
    obtain ⟨x, hx, rfl⟩ := List.mem_map.1 he
    exact hg xs (List.mem_of_getElem? hxs) x hx
  have hno : ∀ {xs}, E.rules[r.state]? = some xs → ∀ e ∈ xs.map (·.2), ∀ b u, ¬ LineMatch b e (u ++ [.eol]) := by
    intro xs hxs e hm b u h
    obtain ⟨x, hx, rfl⟩ := List.mem_map.1 hm
    have hn := he xs (List.mem_of_getElem? hxs) x hx
    have : ∃ w, RMatches x.2 w ∧ Sym.eol ∈ w := by
      rcases h with ⟨_, h⟩ | ⟨_, h⟩
      · exact ⟨_, h, by simp⟩
      · exact ⟨_, h, by simp⟩
    obtain ⟨w, h1, h2⟩ := this
    cases hr : x.2 with
    | none => rw [hr] at h1; rw [show w = [] from h1] at h2; simp at h2
    | some r => rw [hr] at h1 hn; exact noEol_words hn h1 h2
  have hby : ∀ {xs}, E.rules[r.state]? = some xs → ∀ k,
      ¬ ByDollar E.flags.eol (LineMatch (E.atLine r)) (xs.map (·.2)) E.inp p r.eoi k := by
    rintro xs hxs k ⟨_, _, e, h1, h2⟩
    exact hno hxs e h1 _ _ h2
  constructor
  · intro h
    cases h with
    | text xs x k j h1 h2 h3 h4 h5 h6 =>
      have h6 := h6.resolve_left (not_early (hg' h1))
      exact .text xs x k j h1 h2 ⟨h3, h4, h5.hit, h5.earliest, fun k' a b => (h6.1 k' a b).1⟩
    | line xs x k j h1 h2 h3 h4 h5 h6 h7 h8 =>
      obtain ⟨e, e1, e2⟩ := h7.hit
      exact absurd e2 (hno h1 e (List.mem_of_getElem? e1) _ _)
    | empty xs x j h1 h2 h3 h4 =>
      have h4 := h4.resolve_left (not_early (hg' h1))
      exact .empty xs x j h1 h2 (fun k a b => (h4.1 k a b).1) h3
  · intro h
    cases h with
    | text xs x k j h1 h2 h3 =>
      exact .text xs x k j h1 h2 h3.nonempty h3.inside ⟨h3.hit, h3.earliest⟩
        (.inr ⟨fun k' a b => ⟨h3.longest k' a b, hby h1 k'⟩, hby h1 k⟩)
    | empty xs x j h1 h2 h3 h4 =>
      exact .empty xs x j h1 h2 h4 (.inr ⟨fun k' a b => ⟨h3 k' a b, hby h1 k'⟩, hby h1 p⟩)

end Lexertl.Line
