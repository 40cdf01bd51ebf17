import Verif.Proofs.Lex

/-
Rules that can never win, and rules that match the empty text, in terms of the
expressions of the rules; independence of the generator from node addresses.
-/
namespace Lexertl
open Spec

/-- Without `$` no word contains the line end. -/
theorem noEol_words {r : Re} (hr : r.noEol = true) {w : List Sym} (h : r.Matches w) :
    Sym.eol ∉ w := by
  have pow : ∀ (L : List Sym → Prop), (∀ w, L w → Sym.eol ∉ w) → ∀ k w, Pow L k w → Sym.eol ∉ w := by
    intro L hL k
    induction k with
    | zero => rintro w rfl; simp
    | succ k ih =>
      rintro w ⟨u, v, rfl, h1, h2⟩
      simp only [List.mem_append, not_or]
      exact ⟨hL u h1, ih v h2⟩
  induction r generalizing w with
  | chars t => obtain ⟨c, _, rfl⟩ := h; simp
  | bol => rw [show w = [.bol] from h]; simp
  | eol => cases hr
  | seq l r ihl ihr =>
    simp only [Re.noEol, Bool.and_eq_true] at hr
    obtain ⟨u, v, rfl, h1, h2⟩ := h
    simp only [List.mem_append, not_or]
    exact ⟨ihl hr.1 h1, ihr hr.2 h2⟩
  | alt l r ihl ihr =>
    simp only [Re.noEol, Bool.and_eq_true] at hr
    rcases h with h | h
    · exact ihl hr.1 h
    · exact ihr hr.2 h
  | opt r lz ih =>
    rcases h with rfl | h
    · simp
    · exact ih hr h
  | star r lz ih => obtain ⟨k, h⟩ := h; exact pow _ (fun w hw => ih hr hw) k w h
  | plus r lz ih => obtain ⟨k, _, h⟩ := h; exact pow _ (fun w hw => ih hr hw) k w h
  | rep r lo hi lz ih => obtain ⟨k, _, _, h⟩ := h; exact pow _ (fun w hw => ih hr hw) k w h

/-- Words without anchors are texts. -/
theorem chars_of_word : ∀ {w : List Sym}, Sym.bol ∉ w → Sym.eol ∉ w → ∃ cs : List Nat, w = cs.map .ch := by
  intro w
  induction w with
  | nil => intro _ _; exact ⟨[], rfl⟩
  | cons a w ih =>
    intro h1 h2
    simp only [List.mem_cons, not_or] at h1 h2
    obtain ⟨cs, rfl⟩ := ih h1.2 h2.2
    cases a with
    | ch c => exact ⟨c :: cs, rfl⟩
    | bol => exact absurd rfl h1.1
    | eol => exact absurd rfl h2.1

theorem text_all (cs : List Nat) : text cs 0 cs.length = cs.map .ch := by
  simp [text]

/-- The characters of a matching word are characters of the machine. -/
theorem matches_known {tr : Traits} {e : Option Re} (he : CharSets tr e) {w : List Sym} (h : RMatches e w) :
    ∀ s ∈ w, Wide.Known tr s := by
  cases e with
  | none => rw [show w = [] from h]; simp
  | some r =>
    refine Wide.matches_forall (P := Wide.SetOk tr) (Q := Wide.Known tr) trivial trivial ?_ r he w h
    rintro t c ht ⟨x, hx, _, h2⟩
    have h3 : x.2 ≤ charsOf tr - 1 := ht.2.2.1 x hx
    have h4 : 0 < charsOf tr := by unfold charsOf; split <;> (try split) <;> decide
    show c < charsOf tr
    omega

/-- With ranges in two planes the table accepts exactly the charsets. -/
theorem accepts_two {tr : Traits} {t : Token}
    (h : tr.compressed = true → tr.char24 = true → ∀ x ∈ t, x.2 / 65536 ≤ x.1 / 65536 + 1) :
    Wide.accepts tr t = t := by
  unfold Wide.accepts Slice.accepted
  split
  · rename_i h1
    split
    · rename_i h2
      replace h := h h1 h2
      clear h1 h2
      induction t with
      | nil => rfl
      | cons x t ih =>
        rw [List.flatMap_cons, Wide.widen24_two (h x (by simp)), ih fun y hy => h y (by simp [hy])]
        rfl
    · rfl
  · rfl

theorem mapChars_two {tr : Traits} {r : Re} (h : TwoPlanes tr (some r)) : r.mapChars (Wide.accepts tr) = r := by
  have h : r.AllChars _ := h
  induction r with
  | chars t => rw [Re.mapChars, accepts_two h]
  | bol | eol => rfl
  | seq l r ihl ihr | alt l r ihl ihr => rw [Re.mapChars, ihl h.1 h.1, ihr h.2 h.2]
  | opt r _ ih | star r _ ih | plus r _ ih | rep r _ _ _ ih => rw [Re.mapChars, ih h h]

/-- The byte words of such a rule are the encodings of its words. -/
theorem words_two {tr : Traits} {e : Option Re} (h : TwoPlanes tr e) {w : List Sym} (hw : Wide.words tr e w) :
    ∃ u, RMatches e u ∧ w = u.flatMap (Wide.encode tr) := by
  obtain ⟨u, h1, h2⟩ := hw
  refine ⟨u, ?_, h2⟩
  cases e with
  | none => exact h1
  | some r => rwa [Option.map_some, mapChars_two h] at h1

/-- A rule counts as used by the generator exactly if it can win. -/
theorem earliest_canWin {tr : Traits} {R : Rules} {xss : List (List SRule)} (h : RuleSet tr R xss) {i : Nat}
    {xs : List SRule} (hi : xss[i]? = some xs) (htwo : ∀ x ∈ xs, TwoPlanes tr x.2) (j : Nat) :
    (∃ w, Earliest (Wide.words tr) (stateBol R.features i) xs j w) ↔ CanWin (xs.map (·.2)) j := by
  have hmem := List.mem_of_getElem? hi
  have key : ∀ (atLine : Bool) (pre : List Sym) (cs : List Nat), (∀ c ∈ cs, c < charsOf tr) →
      ((pre = [.bol] ∧ atLine = true ∧ ∃ j w, j < xs.length ∧
          ruleWords (Wide.words tr) (stateBol R.features i) xs j (.bol :: w)) ∨
       (pre = [] ∧ (atLine = true → ∀ j w, j < xs.length →
          ¬ ruleWords (Wide.words tr) (stateBol R.features i) xs j (.bol :: w)))) → ∀ j',
      (ruleWords (Wide.words tr) (stateBol R.features i) xs j' (pre ++ (cs.map .ch).flatMap (Wide.encode tr)) ↔
        ∃ x, xs[j']? = some x ∧ LineMatch atLine x.2 (cs.map .ch)) := by
    intro atLine pre cs hcs hpre j'
    have := words_at (h.decodes hmem hcs) (stateBol_of h hi) atLine pre hpre j' 0 cs.length
    rw [text_all] at this
    exact this
  have hat : ∀ (atLine : Bool) (pre : List Sym) (cs : List Nat), (∀ c ∈ cs, c < charsOf tr) →
      ((pre = [.bol] ∧ atLine = true ∧ ∃ j w, j < xs.length ∧
          ruleWords (Wide.words tr) (stateBol R.features i) xs j (.bol :: w)) ∨
       (pre = [] ∧ (atLine = true → ∀ j w, j < xs.length →
          ¬ ruleWords (Wide.words tr) (stateBol R.features i) xs j (.bol :: w)))) →
      (Earliest (Wide.words tr) (stateBol R.features i) xs j (pre ++ (cs.map .ch).flatMap (Wide.encode tr)) ↔
      (∃ e, (xs.map (·.2))[j]? = some e ∧ LineMatch atLine e (cs.map .ch)) ∧
      ∀ (i : Nat) (e : Option Re), i < j → (xs.map (·.2))[i]? = some e → ¬ LineMatch atLine e (cs.map .ch)) := by
    intro atLine pre cs hcs hpre
    have key := key atLine pre cs hcs hpre
    constructor
    · rintro ⟨h1, h2, h3⟩
      rw [key] at h2
      obtain ⟨x, g1, g2⟩ := h2
      refine ⟨⟨x.2, by simp [g1], g2⟩, fun i' e hi' he hm => ?_⟩
      rw [List.getElem?_map] at he
      cases hx' : xs[i']? with
      | none => rw [hx'] at he; cases he
      | some x' =>
        rw [hx'] at he
        cases he
        exact h3 i' hi' ((key i').2 ⟨x', hx', hm⟩)
    · rintro ⟨⟨e, h1, h2⟩, h3⟩
      rw [List.getElem?_map] at h1
      cases hx : xs[j]? with
      | none => rw [hx] at h1; cases h1
      | some x =>
        rw [hx] at h1
        cases h1
        refine ⟨(List.getElem?_eq_some_iff.1 hx).1, (key j).2 ⟨x, hx, h2⟩, fun i' hi' hm => ?_⟩
        obtain ⟨x', g1, g2⟩ := (key i').1 hm
        exact h3 i' x'.2 hi' (by simp [g1]) g2
  have hchars : ∀ cs : List Nat, (∀ s ∈ cs.map Sym.ch, Wide.Known tr s) → ∀ c ∈ cs, c < charsOf tr :=
    fun cs hk c hc => hk _ (List.mem_map.2 ⟨c, hc, rfl⟩)
  constructor
  · rintro ⟨w, hw⟩
    have hw0 := hw
    obtain ⟨hj, ⟨x, hx, hfx⟩, _⟩ := hw0
    have hxm := List.mem_of_getElem? hx
    have hwords : ∀ v, RMatches x.2 v → Sym.eol ∉ v ∧ Sym.bol ∉ v.tail := by
      intro v hv
      have n1 := h.noEol xs hmem x hxm
      have n2 := h.bolHead xs hmem x hxm
      cases hr : x.2 with
      | none => rw [hr] at hv; rw [show v = [] from hv]; simp
      | some r =>
        rw [hr] at hv n1 n2
        exact ⟨noEol_words n1 hv, bolHead_words n2 hv⟩
    have hknown : ∀ v, RMatches x.2 v → ∀ s ∈ v, Wide.Known tr s :=
      fun v hv => matches_known (h.sets xs hmem x hxm) hv
    have hcases : ∃ cs : List Nat, (∀ c ∈ cs, c < charsOf tr) ∧
        (w = .bol :: (cs.map Sym.ch).flatMap (Wide.encode tr) ∨ w = (cs.map Sym.ch).flatMap (Wide.encode tr)) := by
      rcases hfx with hfx | ⟨_, hno, w', rfl, hfx⟩
      · obtain ⟨v, hv, rfl⟩ := words_two (htwo x hxm) hfx
        obtain ⟨n1, n2⟩ := hwords v hv
        have hk := hknown v hv
        cases v with
        | nil => exact ⟨[], by simp, .inr rfl⟩
        | cons a v =>
          simp only [List.mem_cons, not_or] at n1
          obtain ⟨cs, rfl⟩ := chars_of_word n2 n1.2
          cases a with
          | ch c => exact ⟨c :: cs, hchars _ hk, .inr rfl⟩
          | bol => exact ⟨cs, hchars _ fun s hs => hk s (by simp [hs]), .inl rfl⟩
          | eol => exact absurd rfl n1.1
      · obtain ⟨v, hv, rfl⟩ := words_two (htwo x hxm) hfx
        obtain ⟨n1, n2⟩ := hwords v hv
        have hk := hknown v hv
        have n3 : Sym.bol ∉ v := by
          cases v with
          | nil => simp
          | cons a v =>
            simp only [List.mem_cons, not_or]
            refine ⟨fun ha => hno ⟨v.flatMap (Wide.encode tr), ?_⟩, n2⟩
            rw [← ha] at hfx
            exact hfx
        obtain ⟨cs, rfl⟩ := chars_of_word n3 n1
        exact ⟨cs, hchars _ hk, .inl rfl⟩
    obtain ⟨cs, hcs, rfl | rfl⟩ := hcases
    · exact ⟨true, cs, (hat true [.bol] cs hcs (.inl ⟨rfl, rfl, j, _, hj, hw.2.1⟩)).1 hw⟩
    · exact ⟨false, cs, (hat false [] cs hcs (.inr ⟨rfl, by simp⟩)).1 hw⟩
  · rintro ⟨atLine, cs, hcs⟩
    have hck : ∀ c ∈ cs, c < charsOf tr := by
      obtain ⟨⟨e, he, hm⟩, _⟩ := hcs
      rw [List.getElem?_map] at he
      cases hx : xs[j]? with
      | none => rw [hx] at he; cases he
      | some x =>
        rw [hx] at he
        cases he
        have hs := h.sets xs hmem x (List.mem_of_getElem? hx)
        apply hchars
        rcases hm with ⟨_, hm⟩ | ⟨_, hm⟩
        · exact fun s hs' => matches_known hs hm s (by simp only [List.mem_cons]; exact .inr hs')
        · exact matches_known hs hm
    by_cases hb : atLine = true ∧ ∃ j w, j < xs.length ∧
        ruleWords (Wide.words tr) (stateBol R.features i) xs j (.bol :: w)
    · exact ⟨_, (hat atLine [.bol] cs hck (.inl ⟨rfl, hb⟩)).2 hcs⟩
    · exact ⟨_, (hat atLine [] cs hck (.inr ⟨rfl, fun h1 j w h2 h3 => hb ⟨h1, j, w, h2, h3⟩⟩)).2 hcs⟩

/-! ### Addresses of nodes only matter for the hash -/

/-- The same construction state with hashes computed from other addresses. -/
structure SameState (addr addr' : Nat → Nat) (D D' : DState) : Prop where
  rows : D.rows = D'.rows
  seen : D.seen = D'.seen
  used : D.used = D'.used
  eolSet : D.eolSet = D'.eolSet
  hash : D.hashes = D.seen.map (hashOf addr)
  hash' : D'.hashes = D'.seen.map (hashOf addr')
  nodup : ∀ s ∈ D.seen, s.Nodup

/-- Two results, equal up to the relation. -/
def MRel {α : Type} (r : α → α → Prop) : M α → M α → Prop
  | .ok a, .ok b => r a b
  | .error e, .error e' => e = e'
  | _, _ => False

theorem MRel.bind {α β : Type} {r : α → α → Prop} {s : β → β → Prop} {x y : M α} {f g : α → M β}
    (h : MRel r x y) (hf : ∀ a b, r a b → MRel s (f a) (g b)) : MRel s (x >>= f) (y >>= g) := by
  cases x <;> cases y
  · exact h
  · exact h.elim
  · exact h.elim
  · exact hf _ _ h

theorem MRel.bind_eq {α β : Type} {s : β → β → Prop} {x : M α} {f g : α → M β}
    (hf : ∀ a, MRel s (f a) (g a)) : MRel s (x >>= f) (x >>= g) := by
  cases x
  · rfl
  · exact hf _

theorem MRel.eq {α : Type} {x y : M α} (h : MRel (fun a b => a = b) x y) : x = y := by
  cases x <;> cases y
  · rw [show _ = _ from h]
  · exact h.elim
  · exact h.elim
  · rw [show _ = _ from h]

theorem dedup_nodup (l : List Nat) : ∀ acc : List Nat, acc.Nodup → (dedup acc l).Nodup := by
  induction l with
  | nil => intro acc h; exact h
  | cons n l ih =>
    intro acc h
    rw [dedup]
    split
    · exact ih acc h
    · rename_i hn
      apply ih
      rw [List.nodup_append]
      refine ⟨h, by simp, ?_⟩
      intro a ha b hb
      simp only [List.mem_singleton] at hb
      subst hb
      intro hab
      exact hn (hab ▸ ha)

section
variable (E : DfaEnv) (addr' : Nat → Nat)

theorem closure_addr {D D' : DState} (h : SameState E.addr addr' D D') (fp : List Nat) :
    MRel (fun a b => a.1 = b.1 ∧ SameState E.addr addr' a.2 b.2) (closure E D fp)
      (closure { E with addr := addr' } D' fp) := by
  unfold closure
  cases fp with
  | nil => exact ⟨rfl, h⟩
  | cons n fp =>
    simp only
    refine MRel.bind_eq fun e => ?_
    have hnd := dedup_nodup (n :: fp) [] List.nodup_nil
    have h1 := findSeen_spec E.addr _ hnd D.seen h.nodup
    have h2 := findSeen_spec addr' _ hnd D'.seen (fun s hs => h.nodup s (h.seen ▸ hs))
    rw [← h.hash] at h1
    rw [← h.hash'] at h2
    unfold hashOf at h1 h2
    rw [h1, h2, h.seen, h.used]
    split
    · exact ⟨rfl, h.rows, rfl, rfl, h.eolSet, by rw [h.hash, h.seen], h.hash',
        fun s hs => h.nodup s (h.seen ▸ hs)⟩
    · refine ⟨rfl, ?_, ?_, rfl, h.eolSet, ?_, ?_, ?_⟩
      · simp only [h.rows]
      · rfl
      · simp only [h.hash, h.seen, List.map_append]; rfl
      · simp only [h.hash', List.map_append]; rfl
      · intro s hs
        simp only [List.mem_append, List.mem_singleton] at hs
        rcases hs with hs | rfl
        · exact h.nodup s (h.seen ▸ hs)
        · exact hnd

theorem setTransitions_addr (t index : Nat) (is : List Nat) : ∀ {D D' : DState}, SameState E.addr addr' D D' →
    MRel (SameState E.addr addr') (setTransitions E t index is D)
      (setTransitions { E with addr := addr' } t index is D') := by
  induction is with
  | nil => intro D D' h; exact h
  | cons i is ih =>
    intro D D' h
    unfold setTransitions
    simp only
    rw [h.rows, h.eolSet]
    split
    · exact MRel.bind_eq fun rows => ih ⟨rfl, h.seen, h.used, rfl, h.hash, h.hash', h.nodup⟩
    · split
      · exact MRel.bind_eq fun rows => ih ⟨rfl, h.seen, h.used, rfl, h.hash, h.hash', h.nodup⟩
      · exact MRel.bind_eq fun rows => ih ⟨rfl, h.seen, h.used, rfl, h.hash, h.hash', h.nodup⟩

theorem buildState_addr (index : Nat) (es : List Equivset) : ∀ {D D' : DState}, SameState E.addr addr' D D' →
    MRel (SameState E.addr addr') (buildState E index es D) (buildState { E with addr := addr' } index es D') := by
  induction es with
  | nil => intro D D' h; exact h
  | cons e es ih =>
    intro D D' h
    unfold buildState
    refine MRel.bind_eq fun fp => MRel.bind (closure_addr E addr' h fp) ?_
    rintro ⟨t, D1⟩ ⟨t', D1'⟩ ⟨h1, h2⟩
    simp only at h1 h2
    subst h1
    simp only
    cases t with
    | none => exact ih h2
    | some t =>
      simp only [h2.rows]
      refine MRel.bind_eq fun end_ => ?_
      split
      · exact ih h2
      · exact MRel.bind (setTransitions_addr E addr' t index _ h2) fun _ _ h3 => ih h3

theorem buildStates_addr (fuel : Nat) : ∀ (index : Nat) {D D' : DState}, SameState E.addr addr' D D' →
    MRel (SameState E.addr addr') (buildStates E fuel index D)
      (buildStates { E with addr := addr' } fuel index D') := by
  induction fuel with
  | zero => intro index D D' _; rfl
  | succ fuel ih =>
    intro index D D' h
    unfold buildStates
    rw [h.seen]
    split
    · exact h
    · refine MRel.bind_eq fun es => ?_
      exact MRel.bind (buildState_addr E addr' index es h) fun _ _ h1 => ih _ h1

end

theorem buildDfa_addr (tr : Traits) (useLookup allowSuppressed : Bool) (addr addr' : Nat → Nat) (heap : Heap)
    (charsets : CharsetMap) (cr nl : Nat) (root : Tree) (used : List Nat) :
    buildDfa tr useLookup allowSuppressed addr heap charsets cr nl root used =
      buildDfa tr useLookup allowSuppressed addr' heap charsets cr nl root used := by
  unfold buildDfa
  apply MRel.eq
  refine MRel.bind_eq ?_
  rintro ⟨classes, mapping, lk, cr, nl, zeroId⟩
  simp only
  generalize classes.length + ixTransitions + (if cr = tr.npos ∧ nl = tr.npos then 0 else 1) = size
  split
  · rfl
  · refine MRel.bind (closure_addr ⟨tr, heap, addr, mapping, cr, nl, _, allowSuppressed⟩ addr'
      ⟨rfl, rfl, rfl, rfl, rfl, rfl, by simp⟩ _) ?_
    rintro ⟨t, D⟩ ⟨t', D'⟩ ⟨_, h⟩
    refine MRel.bind (buildStates_addr ⟨tr, heap, addr, mapping, cr, nl, _, allowSuppressed⟩ addr' _ _ h) ?_
    intro D1 D1' h1
    simp only [h1.rows, h1.eolSet, h1.used]
    exact MRel.bind_eq fun _ => rfl

theorem buildLoop_addr (tr : Traits) (useLookup : Bool) (addr addr' : Nat → Nat) (R : Rules)
    (rss : List (List Rule)) : ∀ (feats : List Nat) (B : BuildState),
    buildLoop tr useLookup addr R rss feats B = buildLoop tr useLookup addr' R rss feats B := by
  induction rss with
  | nil => intro feats B; rfl
  | cons rs rss ih =>
    intro feats B
    unfold buildLoop
    simp only [buildDfa_addr tr useLookup R.allowSuppressed addr addr', ih]

theorem buildTemp_addr (tr : Traits) (addr addr' : Nat → Nat) (R : Rules) :
    buildTemp tr addr R = buildTemp tr addr' R := by
  unfold buildTemp
  rw [buildLoop_addr tr true addr addr']

end Lexertl
