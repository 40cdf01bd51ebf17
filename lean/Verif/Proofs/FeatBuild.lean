import Verif.Proofs.FeatRows
import Verif.Proofs.RulesSet

/-
The features of a built machine say what is in its tables.

Third part: from rules with the right features to machines with the right features.
-/
namespace Lexertl.Feat
open Spec

variable {tr : Traits}

/-! ### Few charsets -/

theorem rest_small {W : Option Re → List Sym → Prop} {cost : Token → Nat} {b : Bool} (hnpos : 2 < tr.npos) (xs : List DRule) :
    ∀ {p : PState} {root : Tree} {uid : Nat} {p' : PState} {root' : Tree} {uid' : Nat}, Null.Readable tr W cost xs → p.trees = [] →
    CsInv p.charsets → p.charsets.length + xcost cost xs + 2 ≤ tr.npos →
    buildTreeRest tr b (xs.map (·.1)) p root uid = .ok (p', root', uid') → p'.charsets.length + 2 ≤ tr.npos := by
  induction xs with
  | nil => intro p root uid p' root' uid' _ _ _ hl e; cases e; omega
  | cons x xs ih =>
    intro p root uid p' root' uid' hx hp hcs hlen e
    have hc : xcost cost (x :: xs) = rcost cost x.2 + xcost cost xs := by simp [xcost]
    rw [hc] at hlen
    obtain ⟨p1, r1, a1, a2, _, a4, _⟩ := Null.parse tr W cost p x.1.regex x.2
      (x.1.info (uid + 1)) b (hx.den x (by simp)) hp
      (fun r' h => hx.act x (by simp) r' h p) hx.none hcs (by omega) hnpos
    obtain ⟨c1, c2⟩ := a4.inv hcs (by omega)
    rw [List.map_cons, buildTreeRest, a1] at e
    exact ih ⟨fun y hy => hx.den y (by simp [hy]), fun y hy => hx.act y (by simp [hy]), hx.none⟩ a2 c1 (by omega) e

theorem tree_small {W : Option Re → List Sym → Prop} {cost : Token → Nat} {b : Bool} (hnpos : 2 < tr.npos) (xs : List DRule)
    {h : Heap} {uid : Nat} {p' : PState} {root' : Tree} {uid' : Nat} (hx : Null.Readable tr W cost xs)
    (hlen : xcost cost xs + 2 ≤ tr.npos) (e : buildTree tr b (xs.map (·.1)) h uid = .ok (p', root', uid')) :
    p'.charsets.length + 2 ≤ tr.npos := by
  cases xs with
  | nil => cases e
  | cons x xs =>
    have hc : xcost cost (x :: xs) = rcost cost x.2 + xcost cost xs := by simp [xcost]
    rw [hc] at hlen
    obtain ⟨p1, r1, a1, a2, _, a4, _⟩ := Null.parse tr W cost ⟨h, [], tr.npos, tr.npos, []⟩ x.1.regex x.2
      (x.1.info (uid + 1)) b (hx.den x (by simp)) rfl
      (fun r' h => hx.act x (by simp) r' h _) hx.none csInv_nil (by show 0 + rcost cost x.2 + 2 ≤ _; omega) hnpos
    obtain ⟨c1, c2⟩ := a4.inv csInv_nil (by show 0 + _ ≤ _; omega)
    simp only [List.length_nil, Nat.zero_add] at c2
    rw [List.map_cons, buildTree, a1] at e
    exact rest_small hnpos xs ⟨fun y hy => hx.den y (by simp [hy]), fun y hy => hx.act y (by simp [hy]), hx.none⟩ a2 c1
      (by omega) e

theorem fewSets (hnpos : 2 < tr.npos) {R : Rules} (h : ReadRules tr R) : FewSets tr R := by
  intro rs hrs b hp uid p root uid' e
  obtain ⟨xs, hx⟩ := Null.readAs_of (buildTree_sound (h.token rs hrs) e)
  obtain ⟨h1, h2⟩ := h.readable rs hrs xs hx
  rw [← hx.1] at e
  exact tree_small hnpos xs h1 h2 e

/-! ### The bits -/

theorem hasBit_test (f k : Nat) : hasBit f (2 ^ k) = f.testBit k := by
  rw [Nat.testBit_eq_decide_div_mod_eq]
  unfold hasBit
  rw [Bool.beq_eq_decide_eq]

theorem hasBit_or (a b k : Nat) : hasBit (a ||| b) (2 ^ k) = (hasBit a (2 ^ k) || hasBit b (2 ^ k)) := by
  rw [hasBit_test, hasBit_test, hasBit_test, Nat.testBit_or]

theorem foldl_bit (k : Nat) (fs : List Nat) : ∀ a, hasBit (fs.foldl (· ||| ·) a) (2 ^ k) = true ↔
    hasBit a (2 ^ k) = true ∨ ∃ f ∈ fs, hasBit f (2 ^ k) = true := by
  induction fs with
  | nil => intro a; simp
  | cons f fs ih =>
    intro a
    rw [List.foldl_cons, ih, hasBit_or, Bool.or_eq_true]
    simp only [List.mem_cons, exists_eq_or_imp, or_assoc]

theorem buildLoop_len {lk : Bool} {addr : Nat → Nat} {R : Rules} (rss : List (List Rule)) : ∀ {feats : List Nat}
    {S S' : BuildState}, buildLoop tr lk addr R rss feats S = .ok S' → S'.dfas.length = S.dfas.length + rss.length := by
  induction rss with
  | nil => intro feats S S' h; cases h; rfl
  | cons rs rss ih =>
    intro feats S S' h
    unfold buildLoop at h
    split at h
    · cases h
    · dsimp only at h
      obtain ⟨⟨p, root, uid⟩, h1, h⟩ := bind_ok h
      obtain ⟨_, h2, h⟩ := bind_ok h
      obtain ⟨out, h3, h⟩ := bind_ok h
      split at h
      · cases h
      · rw [ih h]
        simp; omega

/-- The features of the machine are those of all the lexer states. -/
theorem buildTemp_bit {addr : Nat → Nat} {R : Rules} {sm : Internals} (hl : R.features.length = R.states.length)
    (h : buildTemp tr addr R = .ok sm) (k : Nat) : (∃ f ∈ R.features, hasBit f (2 ^ k) = true) →
    hasBit sm.features (2 ^ k) = true := by
  unfold buildTemp at h
  obtain ⟨S, h1, h⟩ := bind_ok h
  obtain ⟨_, h2, h⟩ := bind_ok h
  cases h
  have hlen := buildLoop_len _ h1
  rintro ⟨f, hf, hb⟩
  show hasBit (_ ||| _) _ = true
  rw [hasBit_or, Bool.or_eq_true]
  left
  rw [foldl_bit]
  right
  refine ⟨f, ?_, hb⟩
  rw [List.take_of_length_le (by rw [hlen, hl]; simp)]
  exact hf

theorem buildTemp_eoi {addr : Nat → Nat} {R : Rules} {sm : Internals} (h : buildTemp tr addr R = .ok sm) : sm.eoi = R.eoi := by
  unfold buildTemp at h
  obtain ⟨S, h1, h⟩ := bind_ok h
  obtain ⟨_, h2, h⟩ := bind_ok h
  cases h
  rfl

theorem mem_drop1 {α : Type} {a : α} {l : List α} (h : a ∈ l.drop 1) : ∃ p : Nat, 0 < p ∧ l[p]? = some a := by
  obtain ⟨k, hk⟩ := List.mem_iff_getElem?.1 h
  rw [List.getElem?_drop] at hk
  exact ⟨1 + k, by omega, hk⟩

/-- Rules with the right features give machines with the right features. -/
theorem featuresSay (hnpos : 2 < tr.npos) {addr : Nat → Nat} {R : Rules} {sm : Internals} (hr : ReadRules tr R)
    (hR : Recorded tr.npos R) (h : buildTemp tr addr R = .ok sm) : FeaturesSay tr.npos sm := by
  have feat : ∀ rs ∈ R.states, ∃ (i : Nat) (f : Nat), R.states[i]? = some rs ∧ R.features[i]? = some f ∧ f ∈ R.features := by
    intro rs hrs
    obtain ⟨i, hi, e⟩ := List.mem_iff_getElem.1 hrs
    have hf : i < R.features.length := by rw [hR.len]; exact hi
    exact ⟨i, R.features[i], by rw [List.getElem?_eq_getElem hi, e], List.getElem?_eq_getElem hf, List.getElem_mem _⟩
  have key := buildTemp_says (B := hasBit sm.features 1 = true) (E := hasBit sm.features 2 = true)
    (Q := fun id push pop => (id = tr.npos - 1 → hasBit sm.features 4 = true) ∧ (id = sm.eoi → hasBit sm.features 8 = true) ∧
      (pop = true ∨ push ≠ tr.npos → hasBit sm.features 32 = true)) hnpos (fewSets hnpos hr) (by
        intro rs hrs r hrr
        obtain ⟨i, f, h1, h2, h3⟩ := feat rs hrs
        have up : ∀ k, hasBit f (2 ^ k) = true → hasBit sm.features (2 ^ k) = true := fun k hb =>
          buildTemp_bit hR.len h k ⟨f, h3, hb⟩
        refine ⟨fun t ht => ⟨fun hb => ?_, fun hb => ?_⟩, fun hb => ?_, fun hb => ?_, fun hb => ?_⟩
        · exact up 0 (hR.bol i rs f h1 h2 r hrr ⟨t, ht, hb⟩)
        · exact up 1 (hR.eol i rs f h1 h2 r hrr ⟨t, ht, hb⟩)
        · exact up 2 (hR.skip i rs f h1 h2 r hrr hb)
        · exact up 3 (hR.again i rs f h1 h2 r hrr (hb.trans (buildTemp_eoi h)))
        · exact up 5 (hR.stack i rs f h1 h2 r hrr hb))
      (by
        intro f hf hb
        exact buildTemp_bit hR.len h 0 ⟨f, List.mem_of_mem_take hf, hb⟩) h
  have ne0 : ∀ {row : Row}, row[ixEnd]? ≠ some 0 → ∀ {x : Nat}, row[1]? = some x → ∃ e, row[0]? = some e ∧ e ≠ 0 := by
    intro row h x hx
    cases row with
    | nil => cases hx
    | cons e row => exact ⟨e, rfl, fun h0 => h (by rw [h0]; rfl)⟩
  refine ⟨?_, ?_, ?_, ?_, ?_⟩
  · intro hb rows hrows row hrow he hid
    obtain ⟨p, p1, p2⟩ := mem_drop1 hrow
    obtain ⟨e, e1, e2⟩ := ne0 he hid
    obtain ⟨id, push, q1, q2, q3, _⟩ := (key rows hrows).ends p row e p1 p2 e1 e2
    rw [show row[1]? = _ from hid] at q1
    cases q1
    rw [q3 rfl] at hb; cases hb
  · intro hb rows hrows row hrow he hid
    obtain ⟨p, p1, p2⟩ := mem_drop1 hrow
    obtain ⟨e, e1, e2⟩ := ne0 he hid
    obtain ⟨id, push, q1, q2, _, q3, _⟩ := (key rows hrows).ends p row e p1 p2 e1 e2
    rw [show row[1]? = _ from hid] at q1
    cases q1
    rw [q3 rfl] at hb; cases hb
  · intro hb rows hrows row hrow
    exact (key rows hrows).bol (by rw [hb]; simp) row hrow
  · intro hb rows hrows row hrow
    obtain ⟨p, p1, p2⟩ := mem_drop1 hrow
    exact (key rows hrows).eol (by rw [hb]; simp) p row p1 p2
  · intro hb rows hrows row hrow e he h0
    obtain ⟨p, p1, p2⟩ := mem_drop1 hrow
    obtain ⟨id, push, q1, q2, _, _, q3⟩ := (key rows hrows).ends p row e p1 p2 he h0
    refine ⟨?_, ?_⟩
    · cases hp : hasBit e bitPop with
      | false => rfl
      | true => rw [q3 (.inl hp)] at hb; cases hb
    · by_cases hp : push = tr.npos
      · rw [← hp]; exact q2
      · rw [q3 (.inr hp)] at hb; cases hb

/-! ### Rules objects -/

theorem mem_dropLast_cons {α : Type} {x p : α} {l : List α} (h : p ∈ (x :: l).dropLast) : p = x ∨ p ∈ l.dropLast := by
  cases l with
  | nil => cases h
  | cons y l =>
    rw [List.dropLast_cons_of_ne_nil (by simp)] at h
    exact List.mem_cons.1 h

theorem splitOr_dropLast : ∀ (vs : List Tok) (n : Int) (cur : List Tok), NoType .end_ vs → NoType .eol cur →
    NoType .eol vs.dropLast → ∀ p ∈ (splitOr n cur (vs ++ [endTok])).dropLast, NoType .eol p
  | [], n, cur, _, _, _, p, hp => by simp [splitOr, endTok] at hp
  | t :: ts, n, cur, he, hc, hl, p, hp => by
    have hcut : NoType .eol (beginTok :: cur ++ [endTok]) := by
      intro x hx
      simp only [List.cons_append, List.mem_cons, List.mem_append, List.not_mem_nil, or_false] at hx
      rcases hx with rfl | hx | rfl
      · simp [beginTok]
      · exact hc x hx
      · simp [endTok]
    have hte : t.type ≠ .end_ := he t (by simp)
    have hts : NoType .end_ ts := fun x hx => he x (by simp [hx])
    have hl' : NoType .eol ts.dropLast := by
      intro x hx
      refine hl x ?_
      cases ts with
      | nil => cases hx
      | cons y ys => rw [List.dropLast_cons_of_ne_nil (by simp)]; simp [hx]
    have ind : ∀ m, p ∈ (splitOr m (cur ++ [t]) (ts ++ [endTok])).dropLast → NoType .eol p := by
      intro m h
      cases ts with
      | nil => simp [splitOr, endTok] at h
      | cons y ys =>
        refine splitOr_dropLast (y :: ys) m (cur ++ [t]) hts (hc.append (noType_single (hl t ?_))) hl' p h
        rw [List.dropLast_cons_of_ne_nil (by simp)]; simp
    rw [List.cons_append] at hp
    unfold splitOr at hp
    split at hp
    · exact ind _ hp
    · exact ind _ hp
    · split at hp
      · rcases mem_dropLast_cons hp with rfl | h
        · exact hcut
        · exact splitOr_dropLast ts n [] hts noType_nil hl' p h
      · exact ind _ hp
    · rename_i h; exact (hte h).elim
    · exact ind _ hp

/-- Of the parts of a regex only the last may have a `$`. -/
theorem tokenise_eol {E : TokEnv} (hE : TokEnvOk E) {macros : List (List Nat × List Tok)} (hm : MacrosOk E.max macros)
    (hma : MacrosAnch macros) (flags : ReFlags) (isMacro : Bool) {regex : List Nat} (hx : TextOk E regex) (hp : PlainCounts regex) :
    Post (fun tss => ∀ toks ∈ tss.dropLast, NoType .eol toks) (tokenise E flags macros isMacro regex) := by
  unfold tokenise
  have h1 := (tokLoop_total hE hm (regex.length + 2) [] [] none { len := regex.length, rest := regex, flags := flags }
    hx hp ⟨by simp, rfl, trivial⟩ (by simp) (by simp)).post
  have h2 := tokLoop_anch hE hma (regex.length + 2) [] [] none { len := regex.length, rest := regex, flags := flags }
    hx hp ⟨⟨noType_nil, noType_nil, noType_nil⟩, by simp [lastType], Nat.le_refl _, by simp⟩ (by simp)
  have h12 : Post (fun toks => WholeOk E.max toks ∧ WholeAnch toks) _ := fun a ha => ⟨h1 a ha, h2 a ha⟩
  refine h12.bind fun toks ht => ?_
  obtain ⟨hw, ha⟩ := ht
  have hw := stripParens_ok toks.length toks hw
  have hs := stripParens_sub toks.length toks
  have ha := wholeAnch_sub ha hs hw
  generalize stripParens toks.length toks = base at hw ha
  have fin : ∀ toks, WholeOk E.max toks → (kinds toks).Sublist (kinds base) →
      Post (fun tss => ∀ toks ∈ tss.dropLast, NoType .eol toks)
      (if toks.length = 2 ∧ flags.matchZeroLen = false then throw_ "Empty regex is not allowed"
      else if isMacro ∨ lazyIndexes toks = [] then .ok [toks]
      else .ok (splitOr 0 [] toks.tail)) := by
    intro toks hw hsub
    refine post_if (fun _ => Post.throw) fun _ => post_if (fun _ => Post.ok ?_) fun hl => Post.ok ?_
    · intro t ht; cases ht
    · obtain ⟨ts, rfl, hA⟩ := wholeAnch_sub ha hsub hw
      exact splitOr_dropLast ts 0 [] hA.noEnd noType_nil hA.eol
  refine post_if (fun _ => fin base hw (List.Sublist.refl _)) fun _ => ?_
  obtain ⟨l1, l2, l3⟩ := lazyIndexes_spec base
  have p1 := (pruneLoop_total (max := E.max) (base.length + 1) base (lazyIndexes base).reverse hw l2 l1 l3).post
  have p2 := pruneLoop_sub (base.length + 1) base (lazyIndexes base).reverse
  have p12 : Post (fun toks => WholeOk E.max toks ∧ (kinds toks).Sublist (kinds base)) _ := fun a ha => ⟨p1 a ha, p2 a ha⟩
  exact p12.bind fun toks ht => fin toks ht.1 ht.2

theorem eolLast {toks : List Tok} (h : WholeAnch toks) (hb : ∃ t ∈ toks, t.type = .eol) :
    ∃ b, toks[toks.length - 2]? = some b ∧ b.type = .eol := by
  obtain ⟨ts, rfl, ha⟩ := h
  obtain ⟨t, ht, hb⟩ := hb
  simp only [List.cons_append, List.mem_cons, List.mem_append, List.not_mem_nil, or_false] at ht
  rcases ht with rfl | ht | rfl
  · cases hb
  · rcases List.eq_nil_or_concat ts with rfl | ⟨us, u, rfl⟩
    · cases ht
    · rw [List.concat_eq_append] at ht ha ⊢
      have : u.type = .eol := by
        rcases List.mem_append.1 ht with ht | ht
        · exact (ha.eol t (by rw [List.dropLast_concat]; exact ht) hb).elim
        · rw [← List.mem_singleton.1 ht]; exact hb
      refine ⟨u, ?_, this⟩
      have : beginTok :: (us ++ [u]) ++ [endTok] = (beginTok :: us) ++ [u, endTok] := by simp
      rw [this, List.getElem?_append_right (by simp)]
      simp
  · cases hb

/-- What a rule needs is in the feature word. -/
structure StateRec (npos : Nat) (rs : List Rule) (f : Nat) : Prop where
  eol : ∀ r ∈ rs, Rule.Has r (· = .eol) → hasBit f 2 = true
  skip : ∀ r ∈ rs, r.id = npos - 1 → hasBit f 4 = true
  again : ∀ r ∈ rs, r.id = 0 → hasBit f 8 = true
  stack : ∀ r ∈ rs, r.popDfa = true ∨ r.pushDfa ≠ npos → hasBit f 32 = true

/-- As for all lexer states. -/
def ObjRec (npos : Nat) (o : RulesObj) : Prop :=
  ∀ (i : Nat) rs f, o.states[i]? = some rs → o.features[i]? = some f → StateRec npos rs f

theorem stateRec_nil {npos f : Nat} : StateRec npos [] f := ⟨by simp, by simp, by simp, by simp⟩

theorem StateRec.append {npos : Nat} {rs rs' : List Rule} {f f' : Nat} (h : StateRec npos rs f) (h' : StateRec npos rs' f') :
    StateRec npos (rs ++ rs') (f ||| f') := by
  have l : ∀ k, hasBit f (2 ^ k) = true → hasBit (f ||| f') (2 ^ k) = true := fun k h => by rw [hasBit_or, h]; rfl
  have r : ∀ k, hasBit f' (2 ^ k) = true → hasBit (f ||| f') (2 ^ k) = true := fun k h => by rw [hasBit_or, h, Bool.or_true]
  refine ⟨fun x hx g => ?_, fun x hx g => ?_, fun x hx g => ?_, fun x hx g => ?_⟩
  · rcases List.mem_append.1 hx with hx | hx
    · exact l 1 (h.eol x hx g)
    · exact r 1 (h'.eol x hx g)
  · rcases List.mem_append.1 hx with hx | hx
    · exact l 2 (h.skip x hx g)
    · exact r 2 (h'.skip x hx g)
  · rcases List.mem_append.1 hx with hx | hx
    · exact l 3 (h.again x hx g)
    · exact r 3 (h'.again x hx g)
  · rcases List.mem_append.1 hx with hx | hx
    · exact l 5 (h.stack x hx g)
    · exact r 5 (h'.stack x hx g)

theorem extend_rec {npos : Nat} {o : RulesObj} (h : ObjRec npos o) {curr : Nat} {rs : List Rule} {f : Nat}
    (hn : StateRec npos rs f) : ObjRec npos (o.extend curr rs f) := by
  intro i rs' f' hr hf
  simp only [RulesObj.extend, List.getElem?_modify] at hr hf
  obtain ⟨rs0, hr0, hr⟩ := Option.map_eq_some_iff.1 hr
  obtain ⟨f0, hf0, hf⟩ := Option.map_eq_some_iff.1 hf
  by_cases hi : curr = i
  · rw [if_pos hi] at hf hr
    subst hf hr
    exact (h i rs0 f0 hr0 hf0).append hn
  · rw [if_neg hi] at hf hr
    subst hf hr
    exact h i _ _ hr0 hf0

theorem features_rec {npos : Nat} (hnpos : 2 < tr.npos) (hq : npos = tr.npos) {max : Nat} {tss : List (List Tok)} (h : TssOk max tss)
    (he : ∀ toks ∈ tss.dropLast, NoType .eol toks) {first last : List Tok} (hl : tss.getLast? = some last) {id : Nat} {b : Bool}
    {f : Nat} (hf : RulesObj.ruleFeatures tr first last id b = .ok f) {mk : List Tok → Rule}
    (hm : ∀ ts, (mk ts).regex = ts ∧ (mk ts).id = id ∧ ((mk ts).popDfa = true ∨ (mk ts).pushDfa ≠ npos → b = true)) :
    StateRec npos (tss.map mk) f := by
  subst hq
  unfold RulesObj.ruleFeatures at hf
  split at hf
  · rename_i x y h1 h2
    cases hf
    have bit : ∀ (a b c d : Nat) (k : Nat), hasBit a (2 ^ k) = true ∨ hasBit b (2 ^ k) = true ∨ hasBit c (2 ^ k) = true ∨
        hasBit d (2 ^ k) = true → hasBit (a ||| b ||| c ||| d) (2 ^ k) = true := by
      intro a b c d k h
      rw [hasBit_or, hasBit_or, hasBit_or]
      rcases h with h | h | h | h <;> simp [h]
    refine ⟨fun r hr g => ?_, fun r hr g => ?_, fun r hr g => ?_, fun r hr g => ?_⟩
    · obtain ⟨ts, hts, rfl⟩ := List.mem_map.1 hr
      obtain ⟨t, t1, t2⟩ := g
      rw [(hm ts).1] at t1
      have : ts = last := by
        obtain ⟨ys, rfl⟩ := List.getLast?_eq_some_iff.1 hl
        rcases List.mem_append.1 hts with hts | hts
        · exact (he ts (by rw [List.dropLast_concat]; exact hts) t t1 t2).elim
        · exact List.mem_singleton.1 hts
      subst this
      obtain ⟨e, e1, e2⟩ := eolLast (h.anch ts hts) ⟨t, t1, t2⟩
      rw [h2] at e1
      cases e1
      refine bit _ _ _ _ 1 (.inr (.inl ?_))
      rw [if_pos e2]; rfl
    · obtain ⟨ts, hts, rfl⟩ := List.mem_map.1 hr
      rw [(hm ts).2.1] at g
      refine bit _ _ _ _ 2 (.inr (.inr (.inl ?_)))
      rw [if_pos g]; rfl
    · obtain ⟨ts, hts, rfl⟩ := List.mem_map.1 hr
      rw [(hm ts).2.1] at g
      refine bit _ _ _ _ 3 (.inr (.inr (.inl ?_)))
      rw [if_neg (by omega), if_pos g]; rfl
    · obtain ⟨ts, hts, rfl⟩ := List.mem_map.1 hr
      refine bit _ _ _ _ 5 (.inr (.inr (.inr ?_)))
      rw [if_pos ((hm ts).2.2 g)]; rfl
  · cases hf

theorem pushInitial_rec {E : TokEnv} (hE : TokEnvOk E) (hnpos : 2 < tr.npos) {o : RulesObj} (h : ObjOk E tr o) (hr : ObjRec tr.npos o)
    {regex : List Nat} (hx : TextOk E regex) (hp : PlainCounts regex) (id userId : Nat) :
    ObjRec tr.npos (o.pushInitial E tr regex id userId).1 := by
  unfold RulesObj.pushInitial
  cases hid : checkId tr id with
  | error e => exact hr
  | ok u =>
    dsimp only
    have ht := (tokenise_tss hE h hx hp false).post
    have hte := tokenise_eol hE h.macros h.anch o.flags false hx hp
    cases htok : tokenise E o.flags o.macros false regex with
    | error e => exact hr
    | ok tss =>
      have ht := ht tss htok
      have hte := hte tss htok
      dsimp only
      cases hh : tss.head? with
      | none => exact hr
      | some first =>
        cases hl : tss.getLast? with
        | none => exact hr
        | some last =>
          dsimp only
          cases hf : RulesObj.ruleFeatures tr first last id false with
          | error e => exact hr
          | ok f =>
            dsimp only
            split
            · exact hr
            · refine extend_rec hr (features_rec hnpos rfl ht hte hl hf fun ts => ⟨rfl, rfl, ?_⟩)
              rintro (g | g)
              · cases g
              · exact (g rfl).elim

theorem pushLoop_rec {E : TokEnv} (hE : TokEnvOk E) (hnpos : 2 < tr.npos) {regex : List Nat} (hx : TextOk E regex)
    (hp : PlainCounts regex) {t : RulesObj.Target} {ids : Nat × Nat} {id userId len : Nat} (hid : id ≠ tr.npos)
    (hids : ∀ curr, curr < len → ∀ id userId ts,
      let r := RulesObj.mkRule tr t ids curr id userId ts
      r.regex = ts ∧ r.id = id ∧ (r.popDfa = true ∨ r.nextDfa < len) ∧ (r.pushDfa = tr.npos ∨ r.pushDfa < len)) :
    ∀ (currs : List Nat) (o : RulesObj), (∀ c ∈ currs, c < len) → ObjOk E tr o → ObjRec tr.npos o → o.states.length = len →
    ObjRec tr.npos (RulesObj.pushLoop E tr regex t ids id userId currs o).1
  | [], o, _, _, h, _ => h
  | curr :: currs, o, hc, h, hr, hlen => by
    have hcur := hc curr (by simp)
    have one := pushLoop_ok hE hx hp (userId := userId) hid hids [curr] o (fun c hc' => by rw [List.mem_singleton.1 hc']; exact hcur) h hlen
    unfold RulesObj.pushLoop at one ⊢
    have ht := (tokenise_tss hE h hx hp false).post
    have hte := tokenise_eol hE h.macros h.anch o.flags false hx hp
    cases htok : tokenise E o.flags o.macros false regex with
    | error e => exact hr
    | ok tss =>
      have ht := ht tss htok
      have hte := hte tss htok
      rw [htok] at one
      dsimp only at one ⊢
      cases hl : tss.getLast? with
      | none => exact hr
      | some last =>
        rw [hl] at one
        dsimp only at one ⊢
        cases hf : RulesObj.ruleFeatures tr last last id t.recursive with
        | error e => exact hr
        | ok f =>
          rw [hf] at one
          dsimp only at one ⊢
          rw [if_pos (by omega)] at one ⊢
          refine pushLoop_rec hE hnpos hx hp hid hids currs _ (fun c hc' => hc c (by simp [hc'])) one.1 ?_ (by simp [RulesObj.extend, hlen])
          refine extend_rec hr (features_rec hnpos rfl ht hte hl hf fun ts => ?_)
          obtain ⟨q1, q2, _, _⟩ := hids curr hcur id userId ts
          refine ⟨q1, q2, ?_⟩
          cases t with
          | stay => rintro (g | g); cases g; exact (g rfl).elim
          | pop => intro _; rfl
          | goto n => rintro (g | g); cases g; exact (g rfl).elim
          | push n e => intro _; rfl

theorem pushNamed_rec {E : TokEnv} (hE : TokEnvOk E) (hnpos : 2 < tr.npos) {o : RulesObj} (h : ObjOk E tr o) (hr : ObjRec tr.npos o)
    {regex : List Nat} (hx : TextOk E regex) (hp : PlainCounts regex) (currDfa : List Nat) (id : Option Nat) (newDfa : List Nat)
    (userId : Nat) : ObjRec tr.npos (o.pushNamed E tr currDfa regex id newDfa userId).1 := by
  unfold RulesObj.pushNamed
  cases hpl : o.pushPlan tr currDfa id newDfa with
  | error e => exact hr
  | ok x =>
    obtain ⟨t, ids, currs⟩ := x
    unfold RulesObj.pushPlan at hpl
    have fin : id.getD 0 ≠ tr.npos → (do
        let t ← RulesObj.parseTarget newDfa
        let ids ← o.targetIds tr t
        let currs ← o.currStates tr currDfa
        .ok (t, ids, currs) : M (RulesObj.Target × (Nat × Nat) × List Nat)) = .ok (t, ids, currs) →
        ObjRec tr.npos (RulesObj.pushLoop E tr regex t ids (id.getD 0) userId currs o).1 := by
      intro hid hpl
      obtain ⟨t', _, hpl⟩ := bind_ok hpl
      obtain ⟨ids', h2, hpl⟩ := bind_ok hpl
      obtain ⟨currs', h3, hpl⟩ := bind_ok hpl
      cases hpl
      exact pushLoop_rec hE hnpos hx hp hid ((targetIds_total h.states t).post _ h2) currs o
        ((currStates_total h.states currDfa).post _ h3) h hr rfl
    cases id with
    | none => exact fin (by simp; omega) hpl
    | some id =>
      obtain ⟨u, h1, hpl⟩ := bind_ok hpl
      exact fin (checkId_ok h1).1 hpl

theorem run_rec {E : TokEnv} (hE : TokEnvOk E) (hnpos : 2 < tr.npos) {o : RulesObj} (h : ObjOk E tr o) (hr : ObjRec tr.npos o) {c : Call}
    (ht : c.TextOk E) : ObjRec tr.npos (c.run E tr o).1 := by
  cases c with
  | pushState name =>
    show ObjRec tr.npos (o.pushState tr name).1
    rcases pushState_cases h.states name with e | ⟨i, _, e⟩ | ⟨_, _, o', ho', e⟩
    · rw [e]; exact hr
    · rw [e]; exact hr
    · rw [e, ho']
      intro i rs f hi hf
      dsimp only at hi hf
      rw [List.getElem?_append] at hi hf
      split at hi
      · rename_i hl
        rw [if_pos (by rw [h.states.features, ← h.states.states]; exact hl)] at hf
        exact hr i rs f hi hf
      · have : rs = [] := by
          have := List.mem_of_getElem? hi
          simpa using this
        rw [this]; exact stateRec_nil
  | clear =>
    show ObjRec tr.npos (RulesObj.new tr {})
    obtain ⟨_, h2, _, _⟩ := new_statesOk tr {}
    intro i rs f hi _
    rw [h2] at hi
    cases i with
    | zero => simp at hi; rw [hi]; exact stateRec_nil
    | succ i => simp at hi
  | clearState dfa =>
    show ObjRec tr.npos (o.clearState dfa)
    unfold RulesObj.clearState
    split
    · intro i rs f hi hf
      dsimp only at hi hf
      rw [List.getElem?_set] at hi hf
      by_cases hne : dfa = i
      · rw [if_pos hne] at hi
        split at hi
        all_goals
          cases hi
          try exact stateRec_nil
      · rw [if_neg hne] at hi hf
        exact hr i rs f hi hf
    · exact hr
  | setFlags f => exact hr
  | insertMacro n r =>
    show ObjRec tr.npos (o.insertMacro E n r).1
    have : (o.insertMacro E n r).1.states = o.states ∧ (o.insertMacro E n r).1.features = o.features := by
      unfold RulesObj.insertMacro
      dsimp only
      repeat' split
      all_goals exact ⟨rfl, rfl⟩
    intro i rs f hi hf
    rw [this.1] at hi
    rw [this.2] at hf
    exact hr i rs f hi hf
  | push r i u => exact pushInitial_rec hE hnpos h hr ht.1 ht.2 i u
  | pushIn a b i c u => exact pushNamed_rec hE hnpos h hr ht.1 ht.2 a i c u

theorem careful_rec {E : TokEnv} (hE : TokEnvOk E) (hnpos : 2 < tr.npos) {o o' : RulesObj} {cs : List Call}
    (h : Careful E tr o cs o') (ho : ObjOk E tr o) (hr : ObjRec tr.npos o) : ObjRec tr.npos o' := by
  induction h with
  | nil => exact hr
  | cons o c cs o' h1 h2 _ ih => exact ih (run_objOk hE (by omega) ho h1 h2) (run_rec hE hnpos ho hr h1)

theorem new_rec (npos : Nat) (flags : ReFlags) : ObjRec npos (RulesObj.new tr flags) := by
  obtain ⟨_, h2, _, _⟩ := new_statesOk tr flags
  intro i rs f hi _
  rw [h2] at hi
  cases i with
  | zero => simp at hi; rw [hi]; exact stateRec_nil
  | succ i => simp at hi

/-- The rules of an object are recorded in its features. -/
theorem recorded {E : TokEnv} {o : RulesObj} (h : ObjOk E tr o) (hr : ObjRec tr.npos o) (hn : NoBolWithLazy o) :
    Recorded tr.npos o.rules := by
  refine ⟨?_, ?_, fun i rs f h1 h2 => (hr i rs f h1 h2).eol, fun i rs f h1 h2 => (hr i rs f h1 h2).skip,
    fun i rs f h1 h2 => (hr i rs f h1 h2).again, fun i rs f h1 h2 => (hr i rs f h1 h2).stack⟩
  · show o.features.length = o.states.length
    rw [h.states.features, ← h.states.states]
  · intro i rs f h1 h2 r hr hb
    rcases hn rs (List.mem_of_getElem? h1) with g | g
    · exact (g r hr hb).elim
    · rcases (h.state i rs f h1 h2).bol ⟨r, hr, hb⟩ with k | ⟨r', k1, k2⟩
      · unfold hasBit
        rw [Nat.div_one, k]; rfl
      · exact (g r' k1 k2).elim

end Lexertl.Feat
