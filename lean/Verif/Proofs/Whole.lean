import Verif.Proofs.Lex
import Verif.Proofs.Sound
import Verif.Spec.Syntax

/-
A machine with one rule takes the whole input exactly if the rule matches it; and
a machine is built only if all its rules are in the grammar.
-/
namespace Lexertl
open Spec

theorem text_whole (inp : List Nat) : text inp 0 inp.length = inp.map .ch := by
  simp [text]

theorem whole_match {tr : Traits} (hnpos : 263 ≤ tr.npos) {R : Rules} {x : SRule}
    (hR : RuleSet tr R [[x]]) (hbol : NoBol x.2) {addr : Nat → Nat} {sm : Internals}
    (hsm : buildTemp tr addr R = .ok sm) (f : Flags) {inp : List Nat} (hinp : ∀ c ∈ inp, c < charsOf tr) (hne : inp ≠ [])
    (hid : x.1.id ≠ tr.npos) (hskip : x.1.id ≠ tr.npos - 1) (hcont : x.1.id ≠ R.eoi)
    (hpop : x.1.popDfa = false) :
    (∃ r', lookup f tr.npos (bytesOf tr) sm inp (.mk' tr.npos 0 inp.length) = .ok r' ∧ r'.id = x.1.id ∧ r'.first = 0 ∧
      r'.second = inp.length) ↔ RMatches x.2 (inp.map .ch) := by
  have hlen : 0 < inp.length := List.length_pos_iff.2 hne
  have hline : ∀ a w, LineMatch a x.2 w ↔ RMatches x.2 w := fun a w => line_noBol hbol w
  constructor
  · rintro ⟨r', h1, h2, h3, h4⟩
    rcases lookup_cases hnpos hR hsm f hinp (r := .mk' tr.npos 0 inp.length) hlen (Nat.le_refl _)
      (xs := [x]) rfl with ⟨y, k, next, b, h⟩ | ⟨_, _, c, _, h⟩
    · have hy : y = x := by
        cases h with
        | text xs y k j g1 g2 g3 =>
          cases g1
          have := List.mem_of_getElem? g2
          simpa using this
        | empty xs y j g1 g2 g3 g4 =>
          cases g1
          have := List.mem_of_getElem? g2
          simpa using this
      subst hy
      obtain ⟨r2, e1, e2, e3, _⟩ := lookup_chosen hnpos hR hsm f hinp (r := .mk' tr.npos 0 inp.length) hlen
        (Nat.le_refl _) (xs := [y]) rfl h hskip hcont (.inr hpop)
      rw [h1] at e1
      cases e1
      rw [h4] at e3
      cases h with
      | text xs _ _ j g1 g2 g3 =>
        cases g1
        rw [← e3] at g3
        obtain ⟨e, k1, k2⟩ := g3.hit
        have := List.mem_of_getElem? k1
        simp only [List.map_cons, List.map_nil, List.mem_singleton] at this
        subst this
        have := (hline _ _).1 k2
        simpa [Results.mk', text_whole] using this
      | empty xs _ j g1 g2 g3 g4 => simp only [Results.mk'] at e3; omega
    · rw [h1] at h
      cases h
      exact absurd h2.symm hid
  · intro h
    obtain ⟨r', e1, e2, e3, e4, _⟩ := lookup_chosen hnpos hR hsm f hinp (r := .mk' tr.npos 0 inp.length) hlen
      (Nat.le_refl _) (xs := [x]) rfl (x := x) (k := inp.length)
      (.text [x] x inp.length 0 rfl rfl
        ⟨hlen, Nat.le_refl _, ⟨x.2, rfl, (hline _ _).2 (by simpa [Results.mk', text_whole] using h)⟩,
          by intro i e hi; omega, by intro k' h1 h2; simp only [Results.mk'] at h2; omega⟩) hskip hcont (.inr hpop)
    exact ⟨r', e1, e4, e2, e3⟩

/-! ### Only the grammar is accepted -/

theorem terminal_term {t : Tok} (h : Terminal t) : PState.Term t := by
  rcases h with h | h | h | h | h | h | ⟨r, q, h⟩
  · exact .inl h
  · exact .inr (.inl h)
  · exact .inr (.inr (.inl h))
  · exact .inr (.inr (.inr (.inl h)))
  · exact .inr (.inr (.inr (.inr (.inl h))))
  · exact .inr (.inr (.inr (.inr (.inr (.inl h)))))
  · refine .inr (.inr (.inr (.inr (.inr (.inr ?_)))))
    intro r'
    cases h with
    | opt e s => exact ⟨_, .opt _ _ _⟩
    | aopt e s => exact ⟨_, .aopt _ _ _⟩
    | star e s => exact ⟨_, .star _ _ _⟩
    | astar e s => exact ⟨_, .astar _ _ _⟩
    | plus e s => exact ⟨_, .plus _ _ _⟩
    | aplus e s => exact ⟨_, .aplus _ _ _⟩
    | rep e s _ lo hi h => exact ⟨_, .rep _ _ _ _ _ h⟩
    | arep e s _ lo hi h => exact ⟨_, .arep _ _ _ _ _ h⟩

theorem depth_count (ts : List Tok) : depth ts =
    (ts.countP (·.type == .openparen) : Int) - (ts.countP (·.type == .closeparen) : Int) := by
  induction ts with
  | nil => rfl
  | cons t ts ih =>
    simp only [depth, List.countP_cons, ih]
    by_cases h1 : t.type = .openparen
    · simp [h1]; omega
    · by_cases h2 : t.type = .closeparen
      · simp [h2]; omega
      · simp [h1, h2]

/-- `parse` returns only on rules in the grammar. -/
theorem parse_sound {tr : Traits} {p : PState} {regex : List Tok} {info : RuleInfo} {seenBol : Bool}
    {r : PState × Tree} (hreg : FromTokeniser regex) (h : PState.parse tr p regex info seenBol = .ok r) :
    ∃ e, Denotes regex e := by
  obtain ⟨b, e, ts, rfl, hb, he, hterm, hsur⟩ := hreg
  obtain ⟨t1, rest, hrest⟩ : ∃ t1 rest, ts ++ [e] = t1 :: rest := by
    cases ts with
    | nil => exact ⟨_, _, rfl⟩
    | cons t ts => exact ⟨_, _, rfl⟩
  rw [List.cons_append, hrest, parse_eq] at h
  simp only [bind, Except.bind] at h
  split at h
  · cases h
  rename_i p' hp'
  have := PState.loop_sound tr hb he (mid := ts) (fun t ht => terminal_term (hterm t ht))
    (fun u v huv => by have := hsur u v huv; rw [depth_count]; omega) _ p [(b, [b])] t1 rest p' hp'
    (.normal [] (by simp)) (by rw [List.cons_append, hrest]; rfl)
  rcases this with h0 | ⟨q, hq⟩
  · subst h0; exact ⟨none, .empty b e hb he⟩
  · exact ⟨some q, .re b e ts q hb he hq⟩

theorem buildTreeRest_sound {tr : Traits} {seenBol : Bool} (rs : List Rule) : ∀ {p : PState} {root : Tree}
    {uid : Nat} {out : PState × Tree × Nat}, (∀ r ∈ rs, FromTokeniser r.regex) →
    buildTreeRest tr seenBol rs p root uid = .ok out → ∀ r ∈ rs, ∃ e, Denotes r.regex e := by
  induction rs with
  | nil => intro _ _ _ _ _ _ r hr; cases hr
  | cons r rs ih =>
    intro p root uid out hreg h x hx
    simp only [buildTreeRest, bind, Except.bind] at h
    split at h
    · cases h
    rename_i v hv
    rcases List.mem_cons.1 hx with rfl | hx
    · exact parse_sound (hreg x (by simp)) hv
    · exact ih (fun r hr => hreg r (by simp [hr])) h x hx

theorem buildTree_sound {tr : Traits} {seenBol : Bool} {rs : List Rule} {heap : Heap} {uid : Nat}
    {out : PState × Tree × Nat} (hreg : ∀ r ∈ rs, FromTokeniser r.regex)
    (h : buildTree tr seenBol rs heap uid = .ok out) : ∀ r ∈ rs, ∃ e, Denotes r.regex e := by
  cases rs with
  | nil => intro r hr; cases hr
  | cons r rs =>
    intro x hx
    simp only [buildTree, bind, Except.bind] at h
    split at h
    · cases h
    rename_i v hv
    rcases List.mem_cons.1 hx with rfl | hx
    · exact parse_sound (hreg x (by simp)) hv
    · exact buildTreeRest_sound rs (fun r hr => hreg r (by simp [hr])) h x hx

theorem buildLoop_sound {tr : Traits} {lk : Bool} {addr : Nat → Nat} {R : Rules} (rss : List (List Rule)) :
    ∀ {feats : List Nat} {B B' : BuildState}, (∀ rs ∈ rss, ∀ r ∈ rs, FromTokeniser r.regex) →
    buildLoop tr lk addr R rss feats B = .ok B' → ∀ rs ∈ rss, ∀ r ∈ rs, ∃ e, Denotes r.regex e := by
  induction rss with
  | nil => intro _ _ _ _ _ rs hrs; cases hrs
  | cons rs rss ih =>
    intro feats B B' hreg h xs hxs
    simp only [buildLoop, bind, Except.bind] at h
    split at h
    · cases h
    split at h
    · cases h
    rename_i v hv
    split at h
    · cases h
    split at h
    · cases h
    split at h
    · cases h
    rcases List.mem_cons.1 hxs with rfl | hxs
    · exact buildTree_sound (hreg xs (by simp)) hv
    · exact ih (fun rs hrs => hreg rs (by simp [hrs])) h xs hxs

theorem buildTemp_sound {tr : Traits} {addr : Nat → Nat} {R : Rules} {sm : Internals}
    (hreg : ∀ rs ∈ R.states, ∀ r ∈ rs, FromTokeniser r.regex) (h : buildTemp tr addr R = .ok sm) :
    ∀ rs ∈ R.states, ∀ r ∈ rs, ∃ e, Denotes r.regex e := by
  simp only [buildTemp, bind, Except.bind] at h
  split at h
  · cases h
  rename_i v hv
  exact buildLoop_sound _ hreg hv

end Lexertl
