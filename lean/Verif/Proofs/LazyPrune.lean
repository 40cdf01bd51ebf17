import Verif.Proofs.Lazy

/-
Non-greedy operators that are last: what pruning leaves.
-/
namespace Lexertl.Lazy
open Spec Reading

/-! ### Where the operator is -/

def Opens (ts : List Tok) : Prop := ∀ t ∈ ts, t.type = .openparen
def Closes (ts : List Tok) : Prop := ∀ t ∈ ts, t.type = .closeparen

/-- The expression is repeated by a non-greedy operator. -/
def topLazy : Re → Bool
  | .opt _ z | .star _ z | .plus _ z | .rep _ _ _ z => z
  | _ => false

theorem item_form {L : Level} {us : List Tok} {q : Re} (h : Derives L us q) (hq : topLazy q = true) :
    ∃ (ps vs : List Tok) (d : Tok) (qs : List Tok) (r : Re), us = ps ++ (vs ++ d :: qs) ∧ Opens ps ∧ Closes qs ∧ ps.length = qs.length ∧
      Derives .atom vs r ∧ Postfix d r q ∧ ∀ ws q', Derives .item ws q' → Derives .item (ps ++ (ws ++ qs)) q' := by
  induction h with
  | charset | bol | eol | seq | alt => cases hq
  | paren o c ts r ho hc h ih =>
    obtain ⟨ps, vs, d, qs, r', rfl, h1, h2, h3, h4, h5, h6⟩ := ih hq
    refine ⟨o :: ps, vs, d, qs ++ [c], r', by simp, ?_, ?_, by simp [h3], h4, h5, ?_⟩
    · intro t ht
      rcases List.mem_cons.1 ht with rfl | ht
      · exact ho
      · exact h1 t ht
    · intro t ht
      rcases List.mem_append.1 ht with ht | ht
      · exact h2 t ht
      · simp at ht; subst ht; exact hc
    · intro ws q' hw
      have := Derives.item _ _ (.paren o c _ _ ho hc (.alt1 _ _ (.seq1 _ _ (h6 ws q' hw))))
      simpa using this
  | item ts r _ ih => exact ih hq
  | seq1 ts r _ ih => exact ih hq
  | alt1 ts r _ ih => exact ih hq
  | postfix_ ts r d q h hp ih => exact ⟨[], ts, d, [], r, by simp, by simp [Opens], by simp [Closes], rfl, h, hp, fun ws q' hw => by simpa using hw⟩

theorem count_first {e : List Nat} {lo : Nat} {hi : Option Nat} (h : Count e lo hi) (hlo : 1 ≤ lo) :
    Count (beforeComma e) lo (some lo) ∧ beforeComma e ≠ [48] := by
  have bc : ∀ (ds rest : List Nat), (∀ c ∈ ds, 48 ≤ c ∧ c ≤ 57) → beforeComma (ds ++ 44 :: rest) = ds := by
    intro ds rest hd
    unfold beforeComma
    rw [List.takeWhile_append_of_pos (by
      intro c hc
      have := hd c hc
      simp
      omega)]
    simp
  have nz : ∀ (ds : List Nat), 1 ≤ decVal ds → ds ≠ [48] := by
    rintro ds h rfl
    simp [decVal] at h
  cases h with
  | exact _ hd hv =>
    have : beforeComma e = e := by
      unfold beforeComma
      have h' := List.takeWhile_append_of_pos (p := fun c => decide (c ≠ 44)) (l₁ := e) (l₂ := []) (by
        intro c hc
        have := hd.2 c hc
        simp
        omega)
      simpa using h'
    rw [this]
    exact ⟨.exact _ hd hv, nz _ hv⟩
  | atLeast ds hd hv =>
    rw [bc ds [] hd.2]
    exact ⟨.exact _ hd hv, nz _ hv⟩
  | between ds es hd he hlt h2 =>
    rw [bc ds es hd]
    refine ⟨.exact _ ⟨?_, hd⟩ hlo, nz _ hlo⟩
    rintro rfl
    simp [decVal] at hlo

/-- Where the last non-greedy operator is, and what its removal leaves. -/
inductive Form (L : Level) (us : List Tok) (s : Re) : Prop
  | plus (pre vs : List Tok) (d : Tok) (B : List Tok) : us = pre ++ (vs ++ d :: B) → vs ≠ [] → Closes B → d.type = .aoneormore →
      Derives L (pre ++ (vs ++ B)) s → Form L us s
  | rep (pre vs : List Tok) (d : Tok) (B : List Tok) : us = pre ++ (vs ++ d :: B) → vs ≠ [] → Closes B → d.type = .arepeatn →
      beforeComma d.extra ≠ [48] → Derives L (pre ++ (vs ++ { d with type := .repeatn, extra := beforeComma d.extra } :: B)) s → Form L us s
  | remove (A : List Tok) (z : Tok) (ps vs : List Tok) (d : Tok) (qs B : List Tok) (r : Re) : us = A ++ [z] ++ (ps ++ (vs ++ d :: (qs ++ B))) →
      Opens ps → Closes qs → Closes B → ps.length = qs.length → z.type ≠ .openparen → z.type ≠ .or_ → Derives .atom vs r →
      d.type = .aopt ∨ d.type = .azeroormore → Derives L (A ++ [z] ++ B) s → Form L us s

theorem Form.lift {L L' : Level} {us us' : List Tok} {s s' : Re} (pre suf : List Tok) (hu : us' = pre ++ (us ++ suf)) (hsuf : Closes suf)
    (h : ∀ ts, Derives L ts s → Derives L' (pre ++ (ts ++ suf)) s') (hf : Form L us s) : Form L' us' s' := by
  have cl : ∀ {B : List Tok}, Closes B → Closes (B ++ suf) := by
    intro B hB t ht
    rcases List.mem_append.1 ht with ht | ht
    · exact hB t ht
    · exact hsuf t ht
  subst hu
  cases hf with
  | plus p vs d B e hv hB hd hD =>
    subst e
    refine .plus (pre ++ p) vs d (B ++ suf) (by simp) hv (cl hB) hd ?_
    have := h _ hD
    simpa using this
  | rep p vs d B e hv hB hd hx hD =>
    subst e
    refine .rep (pre ++ p) vs d (B ++ suf) (by simp) hv (cl hB) hd hx ?_
    have := h _ hD
    simpa using this
  | remove A z ps vs d qs B r e h1 h2 h3 h4 h5 h6 h7 h8 hD =>
    subst e
    refine .remove (pre ++ A) z ps vs d qs (B ++ suf) r (by simp) h1 h2 (cl h3) h4 h5 h6 h7 h8 ?_
    have := h _ hD
    simpa using this

theorem shorter_form {L : Level} {us : List Tok} {e : Re} (h : Derives L us e) : ∀ {s : Re}, Shorter e s → Form L us s := by
  induction h with
  | charset | bol | eol | alt => intro s hs; cases hs
  | paren o c ts r ho hc h ih =>
    intro s hs
    refine (ih hs).lift [o] [c] (by simp) (by simpa [Closes] using hc) fun us hu => ?_
    simpa using Derives.paren o c us s ho hc hu
  | item ts r _ ih => intro s hs; exact (ih hs).lift [] [] (by simp) (by simp [Closes]) fun us hu => by simpa using Derives.item _ _ hu
  | seq1 ts r _ ih => intro s hs; exact (ih hs).lift [] [] (by simp) (by simp [Closes]) fun us hu => by simpa using Derives.seq1 _ _ hu
  | alt1 ts r _ ih => intro s hs; exact (ih hs).lift [] [] (by simp) (by simp [Closes]) fun us hu => by simpa using Derives.alt1 _ _ hu
  | postfix_ ts r d q h hp ih =>
    intro s hs
    cases hs with
    | opt | star | seq => cases hp
    | plus r' =>
      cases hp with
      | aplus e st => exact .plus [] ts ⟨.aoneormore, e, st⟩ [] (by simp) (derives_nonempty h) (by simp [Closes]) rfl (by simpa using Derives.item _ _ h)
    | rep r' lo hi hlo _ =>
      cases hp with
      | arep e st _ _ _ hc =>
        obtain ⟨h1, h2⟩ := count_first hc hlo
        exact .rep [] ts ⟨.arepeatn, e, st⟩ [] (by simp) (derives_nonempty h) (by simp [Closes]) rfl h2 (by simpa using Derives.postfix_ _ _ _ _ h (.rep _ _ _ _ _ h1))
  | seq ts us l q h1 h2 _ ih2 =>
    intro s hs
    have rem : topLazy q = true → (∀ d r, Postfix d r q → d.type = .aopt ∨ d.type = .azeroormore) → Form .seq (ts ++ us) l := by
      intro hq hd
      obtain ⟨ps, vs, d, qs, r, rfl, g1, g2, g3, g4, g5, _⟩ := item_form h2 hq
      obtain ⟨A, z, rfl, hz⟩ := derives_last h1
      refine .remove A z ps vs d qs [] r (by simp) g1 g2 (by simp [Closes]) g3 ?_ ?_ g4 (hd d r g5) (by simpa using h1)
      · intro h
        simp [EndTy, h, isPostfix] at hz
      · intro h
        simp [EndTy, h, isPostfix] at hz
    cases hs with
    | opt _ r => exact rem rfl (by intro d r hp; cases hp; exact .inl rfl)
    | star _ r => exact rem rfl (by intro d r hp; cases hp; exact .inr rfl)
    | seq _ _ s hs => exact (ih2 hs).lift ts [] (by simp) (by simp [Closes]) fun vs hv => by simpa using Derives.seq _ _ _ _ h1 hv

/-! ### Indexes -/

theorem lazyIndexes_append (u v : List Tok) : lazyIndexes (u ++ v) = lazyIndexes u ++ (lazyIndexes v).map (· + u.length) := by
  unfold lazyIndexes
  rw [List.length_append, List.range_add, List.filter_append]
  congr 1
  · refine List.filter_congr fun i hi => ?_
    rw [List.getElem?_append_left (by simpa using hi)]
  · rw [List.filter_map]
    have : (fun i => (u ++ v)[i]?.any fun t => isLazy t.type) ∘ (fun x => u.length + x) = fun i => v[i]?.any fun t => isLazy t.type := by
      funext i
      simp only [Function.comp_apply]
      rw [List.getElem?_append_right (by omega)]
      simp
    rw [this]
    exact List.map_congr_left fun i _ => by omega

theorem lazyIndexes_none {u : List Tok} (h : ∀ t ∈ u, isLazy t.type = false) : lazyIndexes u = [] := by
  unfold lazyIndexes
  rw [List.filter_eq_nil_iff]
  intro i hi
  rw [List.getElem?_eq_getElem (by simpa using hi)]
  simp [h _ (List.getElem_mem _)]

theorem lazyIndexes_lt {u : List Tok} : ∀ i ∈ lazyIndexes u, i < u.length := by
  intro i hi
  unfold lazyIndexes at hi
  simpa using (List.mem_filter.1 hi).1

theorem opens_lazy {ps : List Tok} (h : Opens ps) : ∀ t ∈ ps, isLazy t.type = false := fun t ht => by rw [h t ht]; rfl
theorem closes_lazy {ps : List Tok} (h : Closes ps) : ∀ t ∈ ps, isLazy t.type = false := fun t ht => by rw [h t ht]; rfl

/-- Everything after the operator closes parentheses. -/
theorem isEnd_closes {cs : List Tok} (h : Closes cs) : ∀ n, isEnd n (cs ++ [endTok]) = true := by
  induction cs with
  | nil =>
    intro n
    cases n with
    | zero => rfl
    | succ n => rfl
  | cons c cs ih =>
    intro n
    cases n with
    | zero => rfl
    | succ n =>
      have := h c (by simp)
      rw [List.cons_append, isEnd]
      simp only [this]
      exact ih (fun t ht => h t (by simp [ht])) n

/-! ### Removing a part -/

theorem blockLen_derives {L : Level} {us : List Tok} {r : Re} (h : Derives L us r) : ∀ (n : Nat) (rest : List Tok), 1 ≤ n →
    blockLen n (us.reverse ++ rest) = (blockLen n rest).map (· + us.length) := by
  have other : ∀ (t : Tok) (n : Nat) (rest : List Tok), t.type ≠ .openparen → t.type ≠ .closeparen →
      blockLen n (t :: rest) = (blockLen n rest).map (· + 1) := by
    intro t n rest h1 h2
    rw [blockLen]
    cases ht : t.type <;> simp_all
  induction h with
  | charset e s => intro n rest _; exact other _ _ _ (by simp) (by simp)
  | bol e s => intro n rest _; exact other _ _ _ (by simp) (by simp)
  | eol e s => intro n rest _; exact other _ _ _ (by simp) (by simp)
  | paren o c ts r ho hc _ ih =>
    intro n rest hn
    rw [show (o :: ts ++ [c]).reverse ++ rest = c :: (ts.reverse ++ o :: rest) by simp, blockLen]
    simp only [hc]
    rw [ih (n + 1) (o :: rest) (by omega), blockLen]
    simp only [ho]
    rw [if_neg (by omega)]
    simp only [Nat.add_sub_cancel, Option.map_map]
    congr 1
    funext x
    simp [Function.comp_apply]
    omega
  | item ts r _ ih => exact ih
  | postfix_ ts r d q _ hp ih =>
    intro n rest hn
    rw [show (ts ++ [d]).reverse ++ rest = d :: (ts.reverse ++ rest) by simp, other _ _ _ (by cases hp <;> simp) (by cases hp <;> simp), ih n rest hn,
      Option.map_map]
    congr 1
    funext x
    simp [Function.comp_apply]
    omega
  | seq1 ts r _ ih => exact ih
  | seq ts us l r _ _ ih1 ih2 =>
    intro n rest hn
    rw [List.reverse_append, List.append_assoc, ih2 n _ hn, ih1 n rest hn, Option.map_map]
    congr 1
    funext x
    simp [Function.comp_apply]
    omega
  | alt1 ts r _ ih => exact ih
  | alt ts us o l r ho _ _ ih1 ih2 =>
    intro n rest hn
    rw [show (ts ++ o :: us).reverse ++ rest = us.reverse ++ (o :: (ts.reverse ++ rest)) by simp, ih2 n _ hn, other _ _ _ (by simp [ho]) (by simp [ho]),
      ih1 n rest hn, Option.map_map, Option.map_map]
    congr 1
    funext x
    simp [Function.comp_apply]
    omega

theorem widen_all : ∀ (ps : List Tok) (X : List Tok) (x : Tok) (W qs Z : List Tok) (z : Tok) (n : Nat), Opens ps → Closes qs → ps.length = qs.length → W ≠ [] →
    x.type ≠ .openparen → ps.length < n →
    widen (X ++ [x] ++ (ps ++ (W ++ (qs ++ z :: Z)))) n ((X ++ [x]).length + ps.length) ((X ++ [x]).length + ps.length + W.length - 1) =
      .ok ((X ++ [x]).length, (X ++ [x]).length + ps.length + W.length - 1 + ps.length) := by
  intro ps
  generalize hk : ps.length = k
  induction k generalizing ps with
  | zero =>
    intro X x W qs Z z n hp hq hl hW hx hn
    have hp0 : ps = [] := List.length_eq_zero_iff.1 hk
    have hq0 : qs = [] := List.length_eq_zero_iff.1 hl.symm
    subst hp0 hq0
    obtain ⟨n, rfl⟩ : ∃ m, n = m + 1 := ⟨n - 1, by omega⟩
    have hWl := List.length_pos_iff.2 hW
    have e1 : (X ++ [x] ++ ([] ++ (W ++ ([] ++ z :: Z))))[(X ++ [x]).length + 0 + W.length - 1 + 1]? = some z := by
      rw [show (X ++ [x]).length + 0 + W.length - 1 + 1 = (X ++ [x] ++ W).length by simp; omega,
        show X ++ [x] ++ ([] ++ (W ++ ([] ++ z :: Z))) = X ++ [x] ++ W ++ z :: Z by simp, List.getElem?_append_right (Nat.le_refl _)]
      simp
    have e2 : (X ++ [x] ++ ([] ++ (W ++ ([] ++ z :: Z))))[X.length]? = some x := by
      simp
    rw [show (X ++ [x]).length + 0 = X.length + 1 by simp] at *
    unfold widen
    simp only [e1, e2]
    rw [if_neg (fun h => hx h.1)]
    simp
  | succ k ih =>
    intro X x W qs Z z n hp hq hl hW hx hn
    obtain ⟨n, rfl⟩ : ∃ m, n = m + 1 := ⟨n - 1, by omega⟩
    have hWl := List.length_pos_iff.2 hW
    obtain ⟨ps', p, rfl⟩ : ∃ ps' p, ps = ps' ++ [p] := by
      rcases List.eq_nil_or_concat ps with h | ⟨a, b, h⟩
      · rw [h] at hk; cases hk
      · exact ⟨a, b, by simpa using h⟩
    obtain ⟨q, qs', rfl⟩ : ∃ q qs', qs = q :: qs' := by
      cases qs with
      | nil => simp at hl
      | cons q qs' => exact ⟨q, qs', rfl⟩
    have hk' : ps'.length = k := by simpa using hk
    have e1 : (X ++ [x] ++ (ps' ++ [p] ++ (W ++ (q :: qs' ++ z :: Z))))[(X ++ [x]).length + (k + 1) + W.length - 1 + 1]? = some q := by
      rw [show (X ++ [x]).length + (k + 1) + W.length - 1 + 1 = (X ++ [x] ++ (ps' ++ [p]) ++ W).length by simp; omega,
        show X ++ [x] ++ (ps' ++ [p] ++ (W ++ (q :: qs' ++ z :: Z))) = (X ++ [x] ++ (ps' ++ [p]) ++ W) ++ q :: (qs' ++ z :: Z) by simp,
        List.getElem?_append_right (Nat.le_refl _)]
      simp
    have e2 : (X ++ [x] ++ (ps' ++ [p] ++ (W ++ (q :: qs' ++ z :: Z))))[(X ++ [x]).length + k]? = some p := by
      rw [show (X ++ [x]).length + k = (X ++ [x] ++ ps').length by simp [hk']; omega,
        show X ++ [x] ++ (ps' ++ [p] ++ (W ++ (q :: qs' ++ z :: Z))) = (X ++ [x] ++ ps') ++ p :: (W ++ (q :: qs' ++ z :: Z)) by simp,
        List.getElem?_append_right (Nat.le_refl _)]
      simp
    rw [show (X ++ [x]).length + (k + 1) = (X ++ [x]).length + k + 1 by omega] at e1 ⊢
    unfold widen
    simp only [e1, e2]
    rw [if_pos ⟨hp p (by simp), hq q (by simp)⟩]
    have := ih ps' hk' X x (p :: W ++ [q]) qs' Z z n (fun t ht => hp t (by simp [ht])) (fun t ht => hq t (by simp [ht])) (by simpa [hk'] using hl)
      (by simp) hx (by omega)
    rw [show X ++ [x] ++ (ps' ++ (p :: W ++ [q] ++ (qs' ++ z :: Z))) = X ++ [x] ++ (ps' ++ [p] ++ (W ++ (q :: qs' ++ z :: Z))) by simp] at this
    rw [show (X ++ [x]).length + k + (p :: W ++ [q]).length - 1 = (X ++ [x]).length + k + 1 + W.length - 1 + 1 by simp; omega] at this
    rw [this]
    congr 2
    omega

theorem removeSequence_spec {X : List Tok} {x : Tok} {ps vs : List Tok} {d : Tok} {qs B : List Tok} {r : Re} (hv : Derives .atom vs r)
    (hp : Opens ps) (hq : Closes qs) (hB : Closes B) (hl : ps.length = qs.length) (hx : x.type ≠ .openparen) (hx' : x.type ≠ .or_) :
    removeSequence (X ++ [x] ++ (ps ++ (vs ++ d :: (qs ++ (B ++ [endTok]))))) ((X ++ [x]).length + ps.length + vs.length) =
      .ok (X ++ [x] ++ (B ++ [endTok]), (X ++ [x]).length, (X ++ [x]).length + ps.length + vs.length + ps.length) := by
  obtain ⟨z, Z, hZ⟩ : ∃ z Z, B ++ [endTok] = z :: Z := by
    cases B with
    | nil => exact ⟨_, _, rfl⟩
    | cons b B => exact ⟨b, _, rfl⟩
  have hz : z.type ≠ .or_ := by
    cases B with
    | nil =>
      simp at hZ
      rw [← hZ.1]
      simp [endTok]
    | cons b B =>
      simp at hZ
      rw [← hZ.1, hB b (by simp)]
      simp
  have hvne := derives_nonempty hv
  have hvl := List.length_pos_iff.2 hvne
  have htake : (X ++ [x] ++ (ps ++ (vs ++ d :: (qs ++ (B ++ [endTok]))))).take ((X ++ [x]).length + ps.length + vs.length) = X ++ [x] ++ ps ++ vs := by
    rw [show X ++ [x] ++ (ps ++ (vs ++ d :: (qs ++ (B ++ [endTok])))) = (X ++ [x] ++ ps ++ vs) ++ (d :: (qs ++ (B ++ [endTok]))) by simp,
      show (X ++ [x]).length + ps.length + vs.length = (X ++ [x] ++ ps ++ vs).length by simp; omega, List.take_left]
  obtain ⟨vs', y, hvy⟩ : ∃ vs' y, vs = vs' ++ [y] := by
    rcases List.eq_nil_or_concat vs with h | ⟨a, b, h⟩
    · exact absurd h hvne
    · exact ⟨a, b, by simpa using h⟩
  have hrev : (X ++ [x] ++ ps ++ vs).reverse = y :: (vs'.reverse ++ (X ++ [x] ++ ps).reverse) := by
    rw [hvy]; simp
  have hstart : (y.type = .closeparen ∧ ∃ n, blockLen 1 (vs'.reverse ++ (X ++ [x] ++ ps).reverse) = some n ∧
        (X ++ [x]).length + ps.length + vs.length - 1 - n = (X ++ [x]).length + ps.length) ∨
      (y.type ≠ .closeparen ∧ (X ++ [x]).length + ps.length + vs.length - 1 = (X ++ [x]).length + ps.length) := by
    cases hv with
    | charset e s =>
      rw [show ([⟨.charset, e, s⟩] : List Tok) = [] ++ [⟨.charset, e, s⟩] from rfl] at hvy
      have := (List.append_inj' hvy rfl).2
      simp at this
      subst this
      exact .inr ⟨by simp, by simp⟩
    | bol e s =>
      rw [show ([⟨.bol, e, s⟩] : List Tok) = [] ++ [⟨.bol, e, s⟩] from rfl] at hvy
      have := (List.append_inj' hvy rfl).2
      simp at this
      subst this
      exact .inr ⟨by simp, by simp⟩
    | eol e s =>
      rw [show ([⟨.eol, e, s⟩] : List Tok) = [] ++ [⟨.eol, e, s⟩] from rfl] at hvy
      have := (List.append_inj' hvy rfl).2
      simp at this
      subst this
      exact .inr ⟨by simp, by simp⟩
    | paren o c ts r ho hc h =>
      have := List.append_inj' hvy rfl
      obtain ⟨rfl, h2⟩ := this
      simp at h2
      subst h2
      refine .inl ⟨hc, ts.length + 1, ?_, by simp⟩
      rw [show (o :: ts).reverse ++ (X ++ [x] ++ ps).reverse = ts.reverse ++ o :: (X ++ [x] ++ ps).reverse by simp,
        blockLen_derives h 1 _ (Nat.le_refl _), blockLen]
      simp only [ho, if_true, Option.map_some]
      congr 1
      omega
  have hw := widen_all ps X x (vs ++ [d]) qs Z z ((X ++ [x] ++ (ps ++ (vs ++ d :: (qs ++ (B ++ [endTok]))))).length + 1) hp hq hl (by simp) hx (by simp; omega)
  rw [show X ++ [x] ++ (ps ++ (vs ++ [d] ++ (qs ++ z :: Z))) = X ++ [x] ++ (ps ++ (vs ++ d :: (qs ++ (B ++ [endTok])))) by rw [hZ]; simp,
    show (X ++ [x]).length + ps.length + (vs ++ [d]).length - 1 = (X ++ [x]).length + ps.length + vs.length by simp] at hw
  have hcut : (X ++ [x] ++ (ps ++ (vs ++ d :: (qs ++ (B ++ [endTok]))))).take (X ++ [x]).length ++
      (X ++ [x] ++ (ps ++ (vs ++ d :: (qs ++ (B ++ [endTok]))))).drop ((X ++ [x]).length + ps.length + vs.length + ps.length + 1) = X ++ [x] ++ (B ++ [endTok]) := by
    rw [List.take_left]
    rw [show X ++ [x] ++ (ps ++ (vs ++ d :: (qs ++ (B ++ [endTok])))) = (X ++ [x] ++ ps ++ vs ++ [d] ++ qs) ++ (B ++ [endTok]) by simp,
      show (X ++ [x]).length + ps.length + vs.length + ps.length + 1 = (X ++ [x] ++ ps ++ vs ++ [d] ++ qs).length by simp [hl]; omega, List.drop_left]
  have k1 : (X ++ [x] ++ (B ++ [endTok]))[(X ++ [x]).length]? = some z := by
    rw [hZ, List.getElem?_append_right (Nat.le_refl _)]
    simp
  have k2 : ¬ (z.type ≠ .begin ∧ ((X ++ [x] ++ (B ++ [endTok]))[(X ++ [x]).length - 1]?).map (·.type) = some .or_) := by
    rintro ⟨_, h⟩
    rw [show (X ++ [x]).length - 1 = X.length by simp] at h
    simp at h
    exact hx' h
  unfold removeSequence
  rw [htake, hrev]
  simp only [bind, Except.bind]
  rcases hstart with ⟨h1, n, h2, h3⟩ | ⟨h1, h2⟩
  · rw [if_pos h1, h2]
    simp only [h3, hw, hcut, k1]
    rw [if_neg hz, if_neg k2]
  · rw [if_neg h1]
    simp only [h2, hw, hcut, k1]
    rw [if_neg hz, if_neg k2]

/-! ### One round -/

theorem dropWhile_split {p : Nat → Bool} : ∀ {l m : List Nat}, (∀ i ∈ l, p i = true) → (∀ i ∈ m, p i = false) → (l ++ m).dropWhile p = m
  | [], [], _, _ => rfl
  | [], j :: m, _, h => by simp [h j (by simp)]
  | i :: l, m, h, h' => by
    rw [List.cons_append, List.dropWhile_cons_of_pos (h i (by simp))]
    exact dropWhile_split (fun j hj => h j (by simp [hj])) h'

theorem indexes_form {W0 ps vs : List Tok} {d : Tok} {Y : List Tok} (hp : Opens ps) (hd : isLazy d.type = true) (hY : ∀ t ∈ Y, isLazy t.type = false) :
    (lazyIndexes (W0 ++ (ps ++ (vs ++ d :: Y)))).reverse =
      (W0.length + ps.length + vs.length) :: (((lazyIndexes vs).map (· + (W0.length + ps.length))).reverse ++ (lazyIndexes W0).reverse) := by
  have h1 : lazyIndexes (d :: Y) = [0] := by
    rw [show d :: Y = [d] ++ Y from rfl, lazyIndexes_append, lazyIndexes_none hY]
    simp [lazyIndexes, List.range_succ, hd]
  rw [lazyIndexes_append, lazyIndexes_append, lazyIndexes_append, lazyIndexes_none (opens_lazy hp), h1]
  simp only [List.map_cons, List.map_nil, List.nil_append, List.map_append, List.map_map, List.reverse_append, List.reverse_cons, List.reverse_nil]
  rw [List.append_assoc]
  have e : ((fun x => x + W0.length) ∘ fun x => x + ps.length) = fun x => x + (W0.length + ps.length) := by
    funext x
    simp only [Function.comp_apply]
    omega
  rw [e]
  simp
  omega

theorem indexes_form' {W0 ps vs Y : List Tok} (hp : Opens ps) (hY : ∀ t ∈ Y, isLazy t.type = false) :
    (lazyIndexes (W0 ++ (ps ++ (vs ++ Y)))).reverse =
      ((lazyIndexes vs).map (· + (W0.length + ps.length))).reverse ++ (lazyIndexes W0).reverse := by
  rw [lazyIndexes_append, lazyIndexes_append, lazyIndexes_append, lazyIndexes_none (opens_lazy hp), lazyIndexes_none hY]
  simp only [List.map_nil, List.nil_append, List.append_nil, List.map_map, List.reverse_append]
  have e : ((fun x => x + W0.length) ∘ fun x => x + ps.length) = fun x => x + (W0.length + ps.length) := by
    funext x
    simp only [Function.comp_apply]
    omega
  rw [e]

section Round

variable {W0 X : List Tok} {x : Tok} {ps vs : List Tok} {d : Tok} {qs B : List Tok}

theorem tail_lazy (hq : Closes qs) (hB : Closes B) : ∀ t ∈ qs ++ (B ++ [endTok]), isLazy t.type = false := by
  intro t ht
  rcases List.mem_append.1 ht with ht | ht
  · exact closes_lazy hq t ht
  · rcases List.mem_append.1 ht with ht | ht
    · exact closes_lazy hB t ht
    · simp at ht
      subst ht
      rfl

theorem op_at (W0 ps vs : List Tok) (d : Tok) (Y : List Tok) :
    (W0 ++ (ps ++ (vs ++ d :: Y)))[W0.length + ps.length + vs.length]? = some d ∧
    (W0 ++ (ps ++ (vs ++ d :: Y))).drop (W0.length + ps.length + vs.length + 1) = Y ∧
    (∀ d', (W0 ++ (ps ++ (vs ++ d :: Y))).set (W0.length + ps.length + vs.length) d' = W0 ++ (ps ++ (vs ++ d' :: Y))) ∧
    (W0 ++ (ps ++ (vs ++ d :: Y))).eraseIdx (W0.length + ps.length + vs.length) = W0 ++ (ps ++ (vs ++ Y)) := by
  have e : ∀ Z, W0 ++ (ps ++ (vs ++ Z)) = (W0 ++ ps ++ vs) ++ Z := by simp
  have el : W0.length + ps.length + vs.length = (W0 ++ ps ++ vs).length := by simp; omega
  rw [el, e, e]
  refine ⟨?_, ?_, ?_, ?_⟩
  · rw [List.getElem?_append_right (Nat.le_refl _)]; simp
  · rw [show (W0 ++ ps ++ vs) ++ d :: Y = (W0 ++ ps ++ vs ++ [d]) ++ Y by simp,
      show (W0 ++ ps ++ vs).length + 1 = (W0 ++ ps ++ vs ++ [d]).length by simp; omega, List.drop_left]
  · intro d'
    rw [e, List.set_append_right _ _ (Nat.le_refl _)]; simp
  · rw [List.eraseIdx_append_of_length_le (Nat.le_refl _)]; simp

theorem end_after (hq : Closes qs) (hB : Closes B) (n : Nat) : isEnd n (qs ++ (B ++ [endTok])) = true := by
  rw [← List.append_assoc]
  refine isEnd_closes ?_ n
  intro t ht
  rcases List.mem_append.1 ht with ht | ht
  · exact hq t ht
  · exact hB t ht

theorem round_plus (hp : Opens ps) (hq : Closes qs) (hB : Closes B) (hd : d.type = .aoneormore) (n : Nat) :
    pruneLoop (n + 1) (W0 ++ (ps ++ (vs ++ d :: (qs ++ (B ++ [endTok])))))
      (lazyIndexes (W0 ++ (ps ++ (vs ++ d :: (qs ++ (B ++ [endTok])))))).reverse =
    pruneLoop n (W0 ++ (ps ++ (vs ++ (qs ++ (B ++ [endTok])))))
      (lazyIndexes (W0 ++ (ps ++ (vs ++ (qs ++ (B ++ [endTok])))))).reverse := by
  obtain ⟨h1, h2, _, h4⟩ := op_at (W0) ps vs d (qs ++ (B ++ [endTok]))
  rw [indexes_form hp (by rw [hd]; rfl) (tail_lazy hq hB), indexes_form' hp (tail_lazy hq hB)]
  generalize hl : ((lazyIndexes vs).map (· + (W0.length + ps.length))).reverse ++ (lazyIndexes (W0)).reverse = l
  have hlt : ∀ j ∈ l, j < W0.length + ps.length + vs.length := by
    intro j hj
    rw [← hl] at hj
    rcases List.mem_append.1 hj with hj | hj
    · obtain ⟨k, hk, rfl⟩ := List.mem_map.1 (List.mem_reverse.1 hj)
      have := lazyIndexes_lt k hk
      omega
    · have := lazyIndexes_lt j (List.mem_reverse.1 hj)
      omega
  conv => lhs; unfold pruneLoop
  rw [h1]
  simp only [h2, end_after hq hB, if_true, hd, bind, Except.bind, h4]
  rw [show l.dropWhile _ = l from dropWhile_split (l := []) (by simp) (fun j hj => by have := hlt j hj; simp only [Bool.and_eq_false_iff, decide_eq_false_iff_not]; omega)]

theorem round_rep (hp : Opens ps) (hq : Closes qs) (hB : Closes B) (hd : d.type = .arepeatn) (he : beforeComma d.extra ≠ [48]) (n : Nat) :
    pruneLoop (n + 1) (W0 ++ (ps ++ (vs ++ d :: (qs ++ (B ++ [endTok])))))
      (lazyIndexes (W0 ++ (ps ++ (vs ++ d :: (qs ++ (B ++ [endTok])))))).reverse =
    pruneLoop n (W0 ++ (ps ++ (vs ++ { d with type := .repeatn, extra := beforeComma d.extra } :: (qs ++ (B ++ [endTok])))))
      (lazyIndexes (W0 ++ (ps ++ (vs ++ { d with type := .repeatn, extra := beforeComma d.extra } :: (qs ++ (B ++ [endTok])))))).reverse := by
  obtain ⟨h1, h2, h3, _⟩ := op_at (W0) ps vs d (qs ++ (B ++ [endTok]))
  rw [indexes_form hp (by rw [hd]; rfl) (tail_lazy hq hB), indexes_form' hp (by
    intro t ht
    rcases List.mem_cons.1 ht with rfl | ht
    · rfl
    · exact tail_lazy hq hB t ht)]
  generalize hl : ((lazyIndexes vs).map (· + (W0.length + ps.length))).reverse ++ (lazyIndexes (W0)).reverse = l
  have hlt : ∀ j ∈ l, j < W0.length + ps.length + vs.length := by
    intro j hj
    rw [← hl] at hj
    rcases List.mem_append.1 hj with hj | hj
    · obtain ⟨k, hk, rfl⟩ := List.mem_map.1 (List.mem_reverse.1 hj)
      have := lazyIndexes_lt k hk
      omega
    · have := lazyIndexes_lt j (List.mem_reverse.1 hj)
      omega
  conv => lhs; unfold pruneLoop
  rw [h1]
  simp only [h2, end_after hq hB, if_true, hd, bind, Except.bind, h3, if_neg he]
  rw [show l.dropWhile _ = l from dropWhile_split (l := []) (by simp) (fun j hj => by have := hlt j hj; simp only [Bool.and_eq_false_iff, decide_eq_false_iff_not]; omega)]

theorem round_remove {r : Re} (hv : Derives .atom vs r) (hp : Opens ps) (hq : Closes qs) (hB : Closes B) (hl : ps.length = qs.length)
    (hx : x.type ≠ .openparen) (hx' : x.type ≠ .or_) (hd : d.type = .aopt ∨ d.type = .azeroormore) (n : Nat) :
    pruneLoop (n + 1) (X ++ [x] ++ (ps ++ (vs ++ d :: (qs ++ (B ++ [endTok])))))
      (lazyIndexes (X ++ [x] ++ (ps ++ (vs ++ d :: (qs ++ (B ++ [endTok])))))).reverse =
    pruneLoop n (X ++ [x] ++ (B ++ [endTok])) (lazyIndexes (X ++ [x] ++ (B ++ [endTok]))).reverse := by
  obtain ⟨h1, h2, _, _⟩ := op_at (X ++ [x]) ps vs d (qs ++ (B ++ [endTok]))
  have hB' : ∀ t ∈ B ++ [endTok], isLazy t.type = false := fun t ht => tail_lazy (qs := []) (by simp [Closes]) hB t (by simpa using ht)
  have hrem := removeSequence_spec (X := X) (x := x) (d := d) hv hp hq hB hl hx hx'
  rw [indexes_form hp (by rcases hd with hd | hd <;> rw [hd] <;> rfl) (tail_lazy hq hB)]
  rw [show (lazyIndexes (X ++ [x] ++ (B ++ [endTok]))).reverse = (lazyIndexes (X ++ [x])).reverse by
    rw [lazyIndexes_append, lazyIndexes_none hB']; simp]
  conv => lhs; unfold pruneLoop
  rw [h1]
  have key : (((lazyIndexes vs).map (· + ((X ++ [x]).length + ps.length))).reverse ++ (lazyIndexes (X ++ [x])).reverse).dropWhile
      (fun i => (X ++ [x]).length ≤ i && i ≤ (X ++ [x]).length + ps.length + vs.length + ps.length) = (lazyIndexes (X ++ [x])).reverse := by
    refine dropWhile_split ?_ ?_
    · intro j hj
      obtain ⟨k, hk, rfl⟩ := List.mem_map.1 (List.mem_reverse.1 hj)
      have := lazyIndexes_lt k hk
      simp only [Bool.and_eq_true, decide_eq_true_eq]
      omega
    · intro j hj
      have := lazyIndexes_lt j (List.mem_reverse.1 hj)
      simp only [Bool.and_eq_false_iff, decide_eq_false_iff_not]
      omega
  rcases hd with hd | hd
  all_goals
    simp only [h2, end_after hq hB, if_true, hd, bind, Except.bind, hrem]
    rw [key]

end Round

/-! ### All rounds -/

theorem round {us : List Tok} {r s : Re} (h : Derives .alt us r) (hs : Shorter r s) : ∃ us' : List Tok, Derives .alt us' s ∧ us'.head? = us.head? ∧
    (lazyIndexes (beginTok :: us' ++ [endTok])).length < (lazyIndexes (beginTok :: us ++ [endTok])).length ∧
    ∀ n, pruneLoop (n + 1) (beginTok :: us ++ [endTok]) (lazyIndexes (beginTok :: us ++ [endTok])).reverse =
      pruneLoop n (beginTok :: us' ++ [endTok]) (lazyIndexes (beginTok :: us' ++ [endTok])).reverse := by
  have len : ∀ l : List Nat, l.length = l.reverse.length := by simp
  have nil_opens : Opens [] := by simp [Opens]
  have nil_closes : Closes [] := by simp [Closes]
  cases shorter_form h hs with
  | plus pre vs d B e hv hB hd hD =>
    subst e
    refine ⟨_, hD, ?_, ?_, fun n => ?_⟩
    · obtain ⟨v, vs, rfl⟩ := List.exists_cons_of_ne_nil hv
      cases pre <;> simp
    · have g1 := indexes_form (W0 := beginTok :: pre) (ps := []) (vs := vs) (d := d) (Y := B ++ [endTok]) nil_opens (by rw [hd]; rfl)
        (tail_lazy nil_closes hB)
      have g2 := indexes_form' (W0 := beginTok :: pre) (ps := []) (vs := vs) (Y := B ++ [endTok]) nil_opens (tail_lazy nil_closes hB)
      simp only [List.nil_append, List.cons_append, List.append_assoc] at g1 g2 ⊢
      rw [len (lazyIndexes (_ :: (_ ++ (_ ++ d :: _)))), g1, len, g2]
      simp
    · have := round_plus (W0 := beginTok :: pre) (ps := []) (vs := vs) (qs := []) nil_opens nil_closes hB hd n
      simpa using this
  | rep pre vs d B e hv hB hd hx hD =>
    subst e
    refine ⟨_, hD, ?_, ?_, fun n => ?_⟩
    · obtain ⟨v, vs, rfl⟩ := List.exists_cons_of_ne_nil hv
      cases pre <;> simp
    · have g1 := indexes_form (W0 := beginTok :: pre) (ps := []) (vs := vs) (d := d) (Y := B ++ [endTok]) nil_opens (by rw [hd]; rfl)
        (tail_lazy nil_closes hB)
      have g2 := indexes_form' (W0 := beginTok :: pre) (ps := []) (vs := vs)
        (Y := { d with type := .repeatn, extra := beforeComma d.extra } :: (B ++ [endTok])) nil_opens (by
          intro t ht
          rcases List.mem_cons.1 ht with rfl | ht
          · rfl
          · exact tail_lazy nil_closes hB t ht)
      simp only [List.nil_append, List.cons_append, List.append_assoc] at g1 g2 ⊢
      rw [len (lazyIndexes (_ :: (_ ++ (_ ++ d :: _)))), g1, len, g2]
      simp
    · have := round_rep (W0 := beginTok :: pre) (ps := []) (vs := vs) (qs := []) nil_opens nil_closes hB hd hx n
      simpa using this
  | remove A z ps vs d qs B r e h1 h2 h3 h4 h5 h6 h7 h8 hD =>
    subst e
    refine ⟨_, hD, ?_, ?_, fun n => ?_⟩
    · cases A <;> simp
    · have g1 := indexes_form (W0 := beginTok :: A ++ [z]) (ps := ps) (vs := vs) (d := d) (Y := qs ++ (B ++ [endTok])) h1
        (by rcases h8 with h8 | h8 <;> rw [h8] <;> rfl) (tail_lazy h2 h3)
      have g2 : lazyIndexes (beginTok :: A ++ [z] ++ (B ++ [endTok])) = lazyIndexes (beginTok :: A ++ [z]) := by
        rw [lazyIndexes_append, lazyIndexes_none (u := B ++ [endTok]) (fun t ht => tail_lazy (qs := []) nil_closes h3 t (by simpa using ht))]
        simp
      simp only [List.nil_append, List.cons_append, List.append_assoc] at g1 g2 ⊢
      rw [len (lazyIndexes (_ :: (_ ++ _ :: (_ ++ (_ ++ d :: _))))), g1, g2]
      simp
      omega
    · have := round_remove (X := beginTok :: A) (x := z) (d := d) h7 h1 h2 h3 h4 h5 h6 h8 n
      simpa using this

/-- Pruning leaves the shortened expression. -/
theorem prune_shortened {r s : Re} (hs : Shortened r s) : ∀ {us : List Tok}, Derives .alt us r → ∃ us' : List Tok, Derives .alt us' s ∧ us'.head? = us.head? ∧
    ∀ n, (lazyIndexes (beginTok :: us ++ [endTok])).length < n →
      pruneLoop n (beginTok :: us ++ [endTok]) (lazyIndexes (beginTok :: us ++ [endTok])).reverse = .ok (beginTok :: us' ++ [endTok]) := by
  induction hs with
  | done r hr => intro us h; exact ⟨us, h, rfl, fun n hn => prune_same h hr n hn⟩
  | step r s t h1 _ ih =>
    intro us h
    obtain ⟨us', g1, g2, g3, g4⟩ := round h h1
    obtain ⟨us'', k1, k2, k3⟩ := ih g1
    refine ⟨us'', k1, k2.trans g2, fun n hn => ?_⟩
    cases n with
    | zero => omega
    | succ n => rw [g4, k3 n (by omega)]

/-! ### What a shorter expression keeps -/

theorem pow_prefix {L : List Sym → Prop} : ∀ {j k : Nat} {w : List Sym}, j ≤ k → Pow L k w → ∃ u v, w = u ++ v ∧ Pow L j u
  | 0, _, w, _, _ => ⟨[], w, rfl, rfl⟩
  | j + 1, 0, _, h, _ => by omega
  | j + 1, k + 1, _, h, ⟨a, b, e, ha, hb⟩ => by
    obtain ⟨u, v, rfl, hu⟩ := pow_prefix (by omega : j ≤ k) hb
    exact ⟨a ++ u, v, by rw [e]; simp, a, u, rfl, ha, hu⟩

theorem shorter_sub {r s : Re} (h : Shorter r s) : ∀ {w : List Sym}, s.Matches w → r.Matches w := by
  induction h with
  | opt l r => exact fun {w} h => ⟨w, [], by simp, h, .inl rfl⟩
  | star l r => exact fun {w} h => ⟨w, [], by simp, h, 0, rfl⟩
  | plus r => exact fun {w} h => ⟨1, Nat.le_refl _, w, [], by simp, h, rfl⟩
  | rep r lo hi h1 h2 =>
    rintro w ⟨k, h3, h4, h5⟩
    exact ⟨k, h3, fun h e => Nat.le_trans (h4 _ rfl) (h2 h e), h5⟩
  | seq l r s _ ih =>
    rintro w ⟨u, v, e, hu, hv⟩
    exact ⟨u, v, e, hu, ih hv⟩

theorem shorter_prefix {r s : Re} (h : Shorter r s) : ∀ {w : List Sym}, r.Matches w → ∃ u v, w = u ++ v ∧ s.Matches u := by
  induction h with
  | opt l r =>
    rintro w ⟨u, v, e, hu, _⟩
    exact ⟨u, v, e, hu⟩
  | star l r =>
    rintro w ⟨u, v, e, hu, _⟩
    exact ⟨u, v, e, hu⟩
  | plus r =>
    rintro w ⟨k, hk, h⟩
    obtain ⟨u, v, e, a, b, e', ha, hb⟩ := pow_prefix hk h
    rw [show b = [] from hb] at e'
    refine ⟨u, v, e, ?_⟩
    rw [e']
    simpa using ha
  | rep r lo hi h1 h2 =>
    rintro w ⟨k, hk, _, h⟩
    obtain ⟨u, v, e, h'⟩ := pow_prefix hk h
    exact ⟨u, v, e, lo, Nat.le_refl _, fun h e => by cases e; exact Nat.le_refl _, h'⟩
  | seq l r s _ ih =>
    rintro w ⟨u, v, rfl, hu, hv⟩
    obtain ⟨a, b, rfl, ha⟩ := ih hv
    exact ⟨u ++ a, b, by simp, u, a, rfl, hu, ha⟩

theorem shorter_chars {P : List (Nat × Nat) → Prop} {r s : Re} (h : Shorter r s) (hr : r.AllChars P) : s.AllChars P := by
  induction h with
  | opt | star => exact hr.1
  | plus | rep => exact hr
  | seq l r s _ ih => exact ⟨hr.1, ih hr.2⟩

theorem shorter_noBol {r s : Re} (h : Shorter r s) (hr : r.noBol = true) : s.noBol = true := by
  induction h with
  | opt | star => simp only [Re.noBol, Bool.and_eq_true] at hr; exact hr.1
  | plus | rep => exact hr
  | seq l r s _ ih =>
    simp only [Re.noBol, Bool.and_eq_true] at hr ⊢
    exact ⟨hr.1, ih hr.2⟩

theorem shortened_chars {P : List (Nat × Nat) → Prop} {r s : Re} (h : Shortened r s) (hr : r.AllChars P) : s.AllChars P := by
  induction h with
  | done => exact hr
  | step r s t h1 _ ih => exact ih (shorter_chars h1 hr)

theorem shortened_noBol {r s : Re} (h : Shortened r s) (hr : r.noBol = true) : s.noBol = true := by
  induction h with
  | done => exact hr
  | step r s t h1 _ ih => exact ih (shorter_noBol h1 hr)

theorem tokenise_lazy {E : TokEnv} (hE : TokEnvOk E) (hC : CharsOk E) {macros : List (List Nat × List Tok)} {M : List (List Nat × Re)}
    (hM : MacrosMean E macros M) {f : ReFlags} {w : List Nat} {r s : Re} (h : Means E M f w r) (hx : TextOk E w) (hr : Shortened r s) :
    ∃ ps : List (List Tok × Re), tokenise E f macros false w = .ok (ps.map fun p => wrap p.1) ∧ ps ≠ [] ∧ (∀ p ∈ ps, Derives .alt p.1 p.2) ∧
      Alternatives s (ps.map (·.2)) ∧ s.AllChars (SetOk E.max) ∧
      (s.noBol = false → ((ps.map (·.1)).head?.bind List.head?).map (·.type) = some .bol) := by
  obtain ⟨us, h1, h2, h3, h4⟩ := tokLoop_means hE hC hM h hx
  obtain ⟨vs₀, g1, g20, g3⟩ := stripParens_derives (beginTok :: us ++ [endTok]).length us h2
  obtain ⟨vs, g2, hh, hp⟩ := prune_shortened hr g20
  have h5 : s.noBol = false → vs.head?.map (·.type) = some .bol := by
    intro hb
    have hb : r.noBol = false := by
      cases hrb : r.noBol with
      | false => rfl
      | true => rw [shortened_noBol hr hrb] at hb; cases hb
    rw [hh]
    rw [stripParens_bol (h4 hb), List.cons_append, List.cons_append, List.cons.injEq] at g1
    rw [← (List.append_inj' g1.2 rfl).1]
    exact h4 hb
  have hp := hp ((beginTok :: vs₀ ++ [endTok]).length + 1) (by
    have : (lazyIndexes (beginTok :: vs₀ ++ [endTok])).length ≤ (beginTok :: vs₀ ++ [endTok]).length := by
      unfold lazyIndexes
      exact Nat.le_trans (List.length_filter_le _ _) (by simp)
    omega)
  have hne := List.length_pos_iff.2 (derives_nonempty g2)
  by_cases hz : lazyIndexes (beginTok :: vs ++ [endTok]) = []
  · refine ⟨[(vs, s)], ?_, by simp, by simpa using g2, .one _, shortened_chars hr h3, by simpa using h5⟩
    unfold tokenise
    rw [h1]
    simp only [bind, Except.bind, g1, Bool.false_eq_true, if_false, hp]
    rw [if_neg (by simp only [List.length_append, List.length_cons, List.length_nil]; omega), if_pos (.inr hz)]
    rfl
  · obtain ⟨ps, u, q, k1, k2, k3, k4, k5, _⟩ := splitOr_alt g2 rfl
    refine ⟨ps ++ [(u, q)], ?_, by simp, ?_, by simpa using k3, shortened_chars hr h3, ?_⟩
    · unfold tokenise
      rw [h1]
      simp only [bind, Except.bind, g1, Bool.false_eq_true, if_false, hp]
      rw [if_neg (by simp only [List.length_append, List.length_cons, List.length_nil]; omega),
        if_neg (by rintro (h | h); · cases h
                   · exact hz h)]
      rw [List.cons_append, List.tail_cons, k4]
      simp [splitOr, endTok, wrap]
    · intro p hp
      rcases List.mem_append.1 hp with hp | hp
      · exact .alt1 _ _ (k1 p hp)
      · simp only [List.mem_cons, List.not_mem_nil, or_false] at hp; subst hp; exact .alt1 _ _ k2
    · intro hb
      have := h5 hb
      rw [← k5] at this
      simpa using this

end Lexertl.Lazy
