import Verif.Model.CsmBuild
import Verif.Proofs.Csm
import Verif.Proofs.Null
import Verif.Proofs.FeatRows
import Verif.Proofs.WellFormed

/-
Char state machines built directly are those made by `sm_to_csm`.
-/
namespace Lexertl.CsmBuild
open Spec Csm

/-! ### The columns after those of the classes hold 0 -/

/-- Columns from `7 + n` on are not used. -/
def Low (n : Nat) (rows : List Row) : Prop := ∀ row ∈ rows, ∀ c e : Nat, row[c]? = some e → 7 + n ≤ c → e = 0

theorem Low.setCell {n : Nat} {rows rows' : List Row} (L : Low n rows) {p c v : Nat} (hc : c < 7 + n)
    (h : setCell rows p c v = .ok rows') : Low n rows' := by
  unfold Lexertl.setCell at h
  split at h
  · cases h
  · rename_i r hr
    split at h
    · cases h
      intro row hrow k e hk hl
      rcases List.mem_or_eq_of_mem_set hrow with hrow | rfl
      · exact L row hrow k e hk hl
      · rw [List.getElem?_set_ne (by omega)] at hk
        exact L r (List.mem_of_getElem? hr) k e hk hl
    · cases h

theorem getCell_low {n : Nat} {rows : List Row} (L : Low n rows) {p c e : Nat} (h : getCell rows p c = .ok e)
    (h0 : e ≠ 0) : c < 7 + n := by
  unfold getCell at h
  split at h
  · cases h
  · rename_i r hr
    split at h
    · rename_i v hv
      cases h
      exact Classical.byContradiction fun hc => h0 (L r (List.mem_of_getElem? hr) c _ hv (by omega))
    · cases h

theorem zeros_low {n size c e : Nat} (h : (List.replicate size 0)[c]? = some e) (_ : 7 + n ≤ c) : e = 0 :=
  List.eq_of_mem_replicate (List.mem_of_getElem? h)

theorem newRow_low (n size : Nat) (d : Option NodeData) (c e : Nat) (h : (newRow size d)[c]? = some e) (hc : 7 + n ≤ c) :
    e = 0 := by
  unfold newRow at h
  split at h
  · rw [List.getElem?_append_right (by simp; omega)] at h
    exact List.eq_of_mem_replicate (List.mem_of_getElem? h)
  · exact zeros_low h hc

theorem Low.snoc {n : Nat} {rows : List Row} (L : Low n rows) {row : Row}
    (h : ∀ c e : Nat, row[c]? = some e → 7 + n ≤ c → e = 0) : Low n (rows ++ [row]) := by
  intro r hr
  rcases List.mem_append.1 hr with hr | hr
  · exact L r hr
  · rw [List.mem_singleton.1 hr]; exact h

theorem closure_low {V : DfaEnv} {n : Nat} {D D' : DState} {fp : List Nat} {t : Option Nat} (L : Low n D.rows)
    (h : closure V D fp = .ok (t, D')) : Low n D'.rows := by
  unfold closure at h
  split at h
  · cases h; exact L
  · obtain ⟨e, he, h⟩ := bind_ok h
    dsimp only at h
    split at h
    · cases h; exact L
    · cases h; exact L.snoc (newRow_low n _ _)

/-- A class, `^` or `$`. -/
def LowIx (tr : Traits) (n i : Nat) : Prop := i = tr.bolToken ∨ i = tr.eolToken ∨ i < n

theorem setTransitions_low {V : DfaEnv} {n t index : Nat} (is : List Nat) : ∀ {D D' : DState},
    (∀ i ∈ is, LowIx V.tr n i) → Low n D.rows → setTransitions V t index is D = .ok D' → Low n D'.rows := by
  induction is with
  | nil => intro D D' _ I h; cases h; exact I
  | cons i is ih =>
    intro D D' hg I h
    have hi := hg i (by simp)
    have hg' : ∀ j ∈ is, LowIx V.tr n j := fun j hj => hg j (by simp [hj])
    unfold setTransitions at h
    split at h
    · obtain ⟨rows, h1, h⟩ := bind_ok h
      exact ih (D := { D with rows := rows }) hg' (I.setCell (by omega) h1) h
    · split at h
      · obtain ⟨rows, h1, h⟩ := bind_ok h
        exact ih (D := { D with rows := rows, eolSet := setInsert (index + 1) D.eolSet }) hg'
          (I.setCell (by simp only [ixEol]; omega) h1) h
      · rename_i hb he
        obtain ⟨rows, h1, h⟩ := bind_ok h
        refine ih (D := { D with rows := rows }) hg' (I.setCell ?_ h1) h
        rcases hi with hi | hi | hi
        · exact absurd hi hb
        · exact absurd hi he
        · simp only [ixTransitions]; omega

theorem buildState_low {V : DfaEnv} {n index : Nat} (es : List Equivset) : ∀ {D D' : DState},
    (∀ e ∈ es, ∀ i ∈ e.indexVector, LowIx V.tr n i) → Low n D.rows → buildState V index es D = .ok D' →
    Low n D'.rows := by
  induction es with
  | nil => intro D D' _ I h; cases h; exact I
  | cons e es ih =>
    intro D D' hg I h
    have hg' : ∀ e ∈ es, ∀ i ∈ e.indexVector, LowIx V.tr n i := fun e he => hg e (by simp [he])
    unfold buildState at h
    obtain ⟨fp, h1, h⟩ := bind_ok h
    obtain ⟨⟨t, D1⟩, h2, h⟩ := bind_ok h
    have c1 := closure_low I h2
    dsimp only at h
    split at h
    · exact ih hg' c1 h
    · obtain ⟨v, h3, h⟩ := bind_ok h
      split at h
      · exact ih hg' c1 h
      · obtain ⟨D2, h4, h⟩ := bind_ok h
        exact ih hg' (setTransitions_low _ (hg e (by simp)) c1 h4) h

theorem fillRhs_low {tr : Traits} {sm : List (List Nat)} {n : Nat} (hsm : ∀ s ∈ sm, ∀ i ∈ s, i < n) {h : Heap}
    (v : List Nat) : ∀ {es : List Equivset}, fillRhsEquiv tr h sm v = .ok es →
    ∀ e ∈ es, ∀ i ∈ e.indexVector, LowIx tr n i := by
  induction v with
  | nil => intro es e; cases e; intro e he; cases he
  | cons a ns ih =>
    intro es e
    unfold fillRhsEquiv at e
    split at e
    · cases e
    · exact ih e
    · rename_i token g fp hc
      split at e
      · exact ih e
      · obtain ⟨idx, e1, e⟩ := bind_ok e
        obtain ⟨es', e2, e⟩ := bind_ok e
        cases e
        intro x hx
        rcases List.mem_cons.1 hx with rfl | hx
        · show ∀ i ∈ idx, LowIx tr n i
          split at e1
          · rename_i hb
            cases e1
            intro i hi
            rw [List.mem_singleton.1 hi]
            rcases hb with hb | hb
            · exact .inl hb
            · exact .inr (.inl hb)
          · unfold mappingAt at e1
            split at e1
            · rename_i s hs
              cases e1
              intro i hi
              exact .inr (.inr (hsm _ (List.mem_of_getElem? hs) i hi))
            · cases e1
        · exact ih e2 x hx

theorem buildEquiv_low {tr : Traits} {sm : List (List Nat)} {n : Nat} (hsm : ∀ s ∈ sm, ∀ i ∈ s, i < n) {h : Heap}
    {v : List Nat} {es : List Equivset} (e : buildEquivList tr h sm v = .ok es) :
    ∀ x ∈ es, ∀ i ∈ x.indexVector, LowIx tr n i := by
  obtain ⟨l, e1, e⟩ := bind_ok e
  have hf := fillRhs_low (tr := tr) hsm v e1
  split at e
  · rename_i out h1
    cases e
    cases l with
    | nil => cases h1; intro x hx; cases hx
    | cons r rhs =>
      exact Feat.splitLoop_good (G := LowIx tr n) rhs [r] (fun x hx => hf x (by simp [hx]))
        (fun x hx => by rw [List.mem_singleton.1 hx]; exact hf r (by simp)) h1
  · cases e

theorem buildStates_low {V : DfaEnv} {n : Nat} (hsm : ∀ s ∈ V.mapping, ∀ i ∈ s, i < n) (fuel : Nat) :
    ∀ {index : Nat} {D D' : DState}, Low n D.rows → buildStates V fuel index D = .ok D' → Low n D'.rows := by
  induction fuel with
  | zero => intro index D D' _ h; cases h
  | succ fuel ih =>
    intro index D D' I h
    unfold buildStates at h
    split at h
    · cases h; exact I
    · obtain ⟨es, h1, h⟩ := bind_ok h
      obtain ⟨D1, h2, h⟩ := bind_ok h
      exact ih (buildState_low es (buildEquiv_low hsm h1) I h2) h

theorem fixClash_low {n cr nl eol : Nat} {rows rows' : List Row} (L : Low n rows)
    (h : fixClash cr nl rows eol = .ok rows') : Low n rows' := by
  unfold fixClash at h
  obtain ⟨eolState, h1, h⟩ := bind_ok h
  obtain ⟨crState, h2, h⟩ := bind_ok h
  obtain ⟨nlState, h3, h⟩ := bind_ok h
  obtain ⟨⟨ptr, rows1⟩, h4, h⟩ := bind_ok h
  have R1 : Low n rows1 := by
    split at h4
    · rename_i h0
      have hc : ixTransitions + cr < 7 + n := by have := getCell_low L h2 h0; omega
      obtain ⟨r2, h5, h4⟩ := bind_ok h4
      have x1 := L.setCell hc h5
      obtain ⟨old, h6, h4⟩ := bind_ok h4
      obtain ⟨r3, h7, h4⟩ := bind_ok h4
      cases h4
      split at h7
      · exact x1.setCell hc h7
      · cases h7; exact x1
    · cases h4; exact L
  dsimp only at h
  split at h
  · rename_i h0
    have hc : ixTransitions + nl < 7 + n := by have := getCell_low L h3 h0; omega
    obtain ⟨r2, h5, h⟩ := bind_ok h
    have x1 := R1.setCell hc h5
    obtain ⟨old, h6, h⟩ := bind_ok h
    split at h
    · exact x1.setCell hc h
    · cases h; exact x1
  · cases h; exact R1

theorem fixClashes_low {n cr nl : Nat} (es : List Nat) : ∀ {rows rows' : List Row},
    Low n rows → es.foldlM (fixClash cr nl) rows = .ok rows' → Low n rows' := by
  induction es with
  | nil => intro rows rows' R h; cases h; exact R
  | cons e es ih =>
    intro rows rows' R h
    rw [List.foldlM_cons] at h
    obtain ⟨r1, h1, h⟩ := bind_ok h
    exact ih (fixClash_low R h1) h

/-! ### Charset maps -/

theorem buildTreeRest_cs (tr : Traits) (W : Option Re → List Sym → Prop) (cost : Token → Nat) (seenBol : Bool)
    (hnpos : 2 < tr.npos) (xs : List DRule) : ∀ (p : PState) (root : Tree) (uid : Nat) {out : PState × Tree × Nat},
    Null.Readable tr W cost xs → p.trees = [] → CsInv p.charsets →
    p.charsets.length + xcost cost xs + 2 ≤ tr.npos →
    Lexertl.buildTreeRest tr seenBol (xs.map (·.1)) p root uid = .ok out → CsInv out.1.charsets := by
  induction xs with
  | nil =>
    intro p root uid out _ _ hcs _ h
    cases h; exact hcs
  | cons x xs ih =>
    intro p root uid out hx hp hcs hlen h
    have hc : xcost cost (x :: xs) = rcost cost x.2 + xcost cost xs := by simp [xcost]
    rw [hc] at hlen
    obtain ⟨p1, r1, a1, a2, _, a4, a5⟩ := Null.parse tr W cost p x.1.regex x.2
      (x.1.info (uid + 1)) seenBol (hx.den x (by simp)) hp
      (fun r' h => hx.act x (by simp) r' h p) hx.none hcs (by omega) hnpos
    obtain ⟨c1, c2⟩ := a4.inv hcs (by omega)
    rw [List.map_cons, Lexertl.buildTreeRest, a1] at h
    exact ih p1 (.sel root r1) (uid + 1)
      ⟨fun y hy => hx.den y (by simp [hy]), fun y hy => hx.act y (by simp [hy]), hx.none⟩ a2 c1 (by omega) h

theorem buildTree_cs (tr : Traits) (W : Option Re → List Sym → Prop) (cost : Token → Nat) (seenBol : Bool)
    (hnpos : 2 < tr.npos) (xs : List DRule) (heap : Heap) (uid : Nat) (hx : Null.Readable tr W cost xs)
    (hlen : xcost cost xs + 2 ≤ tr.npos) {out : PState × Tree × Nat}
    (h : Lexertl.buildTree tr seenBol (xs.map (·.1)) heap uid = .ok out) : CsInv out.1.charsets := by
  cases xs with
  | nil => cases h
  | cons x xs =>
    have hc : xcost cost (x :: xs) = rcost cost x.2 + xcost cost xs := by simp [xcost]
    rw [hc] at hlen
    obtain ⟨p1, r1, a1, a2, a3, a4, a5⟩ := Null.parse tr W cost ⟨heap, [], tr.npos, tr.npos, []⟩ x.1.regex x.2
      (x.1.info (uid + 1)) seenBol (hx.den x (by simp)) rfl
      (fun r' h => hx.act x (by simp) r' h _) hx.none csInv_nil (by show 0 + rcost cost x.2 + 2 ≤ _; omega) hnpos
    obtain ⟨c1, c2⟩ := a4.inv csInv_nil (by show 0 + _ ≤ _; omega)
    simp only [List.length_nil, Nat.zero_add] at c2
    rw [List.map_cons, Lexertl.buildTree, a1] at h
    exact buildTreeRest_cs tr W cost seenBol hnpos xs p1 r1 (uid + 1)
      ⟨fun y hy => hx.den y (by simp [hy]), fun y hy => hx.act y (by simp [hy]), hx.none⟩ a2 c1 (by omega) h

/-! ### One lexer state -/

/-- The lookup table plays no part in making the rows. -/
theorem prepareDfa_direct {tr : Traits} {m : CharsetMap} (hm : CsInv m) (cr nl : Nat) :
    prepareDfa tr false m cr nl =
      (prepareDfa tr true m cr nl).map fun x => (x.1, x.2.1, List.replicate 256 ixDead, x.2.2.2) := by
  obtain ⟨classes, mapping, lk, h1, h2, h3, _⟩ :=
    Props.C08_alphabet_partition_exact m (fun e he => hm.good e he) hm.small
      (fun a ha b hb he => pairwise_ne_inj Prod.snd hm.ids ha hb he)
  have h3' : buildLookup 0 classes (List.replicate 256 ixDead) = some lk := h3
  unfold prepareDfa
  rw [h1]
  dsimp only
  rw [h2, if_pos rfl, if_neg (by decide), h3']
  dsimp only
  cases (if cr ≠ tr.npos then firstClass mapping cr else .ok cr) with
  | error e => rfl
  | ok cr' =>
    cases (if nl ≠ tr.npos then firstClass mapping nl else .ok nl) with
    | error e => rfl
    | ok nl' =>
      simp only [bind, Except.bind]
      generalize (if (cr ≠ tr.npos ∨ nl ≠ tr.npos) ∧ tr.compressed = true then _ else _ : M Nat) = z
      cases z <;> rfl

theorem buildDfa_direct {tr : Traits} {m : CharsetMap} (hm : CsInv m) (allow : Bool) (addr : Nat → Nat) (heap : Heap)
    (cr nl : Nat) (root : Tree) (used : List Nat) :
    buildDfa tr false allow addr heap m cr nl root used =
      (buildDfa tr true allow addr heap m cr nl root used).map fun o => { o with lookup := List.replicate 256 ixDead } := by
  unfold buildDfa
  rw [prepareDfa_direct hm]
  cases prepareDfa tr true m cr nl with
  | error e => rfl
  | ok x =>
    obtain ⟨classes, mapping, lk, cr', nl', z⟩ := x
    simp only [Except.map, bind, Except.bind]
    generalize classes.length + ixTransitions + (if cr' = tr.npos ∧ nl' = tr.npos then 0 else 1) = size
    by_cases hs : size > tr.npos
    · rw [if_pos hs, if_pos hs]
    · rw [if_neg hs, if_neg hs]
      split
      · rfl
      · rename_i D _
        split
        · rfl
        · rename_i D2 _
          generalize (if tr.compressed = true then _ else _ : M (List Row)) = z
          cases z <;> rfl

/-- A class of the alphabet is the set of the characters that have its column. -/
structure Cols (out : DfaOut) : Prop where
  normal : ∀ c ∈ out.classes, Normal c.token
  small : ∀ c ∈ out.classes, ∀ x, Mem x c.token → x < 256
  col : ∀ x i, x < 256 → (out.lookup[x]? = some (7 + i) ↔ ∃ c, out.classes[i]? = some c ∧ Mem x c.token)
  chars : out.lookup.length = 256
  wide : 7 + out.classes.length ≤ out.alphabet
  low : Low out.classes.length out.rows

theorem buildDfa_cols {tr : Traits} (htr : tr.compressed = false) {m : CharsetMap} (hm : CsInv m) {allow : Bool}
    {addr : Nat → Nat} {heap : Heap} {cr nl : Nat} {root : Tree} {used : List Nat} {out : DfaOut}
    (h : buildDfa tr true allow addr heap m cr nl root used = .ok out) : Cols out := by
  obtain ⟨classes, mapping, lk, h1, h2, h3, h4, h5, h6, h7, h8, h9, h10⟩ :=
    Props.C08_alphabet_partition_exact m (fun e he => hm.good e he) hm.small
      (fun a ha b hb he => pairwise_ne_inj Prod.snd hm.ids ha hb he)
  have h3' : buildLookup 0 classes (List.replicate 256 ixDead) = some lk := h3
  obtain ⟨classes', k1, k2, _⟩ := partition_spec m fun e he => ⟨(hm.good e he).1, (hm.good e he).2.1⟩
  rw [h1] at k1
  cases k1
  unfold buildDfa at h
  obtain ⟨⟨classes', mapping', lk', cr', nl', z⟩, p1, h⟩ := bind_ok h
  have hlt := Feat.prepareDfa_lt p1
  have hcl : classes' = classes ∧ lk' = lk := by
    unfold prepareDfa at p1
    rw [h1] at p1
    dsimp only at p1
    rw [h2, if_pos rfl, h3'] at p1
    dsimp only at p1
    obtain ⟨_, _, p1⟩ := bind_ok p1
    obtain ⟨_, _, p1⟩ := bind_ok p1
    obtain ⟨_, _, p1⟩ := bind_ok p1
    cases p1
    exact ⟨rfl, rfl⟩
  obtain ⟨rfl, rfl⟩ := hcl
  dsimp only at h
  have hsz : 7 + classes'.length ≤ classes'.length + ixTransitions + (if cr' = tr.npos ∧ nl' = tr.npos then 0 else 1) := by
    simp only [ixTransitions]; omega
  generalize classes'.length + ixTransitions + (if cr' = tr.npos ∧ nl' = tr.npos then 0 else 1) = size at h hsz
  split at h
  · cases h
  · obtain ⟨⟨t, D⟩, e2, h⟩ := bind_ok h
    have c1 := closure_low (V := ⟨tr, heap, addr, mapping', cr', nl', size, allow⟩) (n := classes'.length)
      (D := ⟨[List.replicate size 0], [], [], used, []⟩) (by
        intro row hr
        rw [List.mem_singleton.1 hr]
        intro c e; exact zeros_low) e2
    obtain ⟨D2, e3, h⟩ := bind_ok h
    have d1 := buildStates_low (V := ⟨tr, heap, addr, mapping', cr', nl', size, allow⟩) hlt _ c1 e3
    obtain ⟨rows, e4, h⟩ := bind_ok h
    cases h
    rw [if_neg (by simp [htr])] at e4
    refine ⟨fun c hc => (k2 c hc).1, fun c hc x hx => ?_, fun x i hx => ?_, h8, hsz, fixClashes_low _ d1 e4⟩
    · obtain ⟨e, he, hxe⟩ := (h6 x).1 ⟨c, hc, hx⟩
      obtain ⟨r, hr, _, hr2⟩ := hxe
      have := (hm.good e he).2.2 r hr
      omega
    · refine (h9 x i hx).trans ?_
      constructor
      · rintro ⟨hi, hx⟩; exact ⟨_, List.getElem?_eq_getElem hi, hx⟩
      · rintro ⟨c, hc, hx⟩
        obtain ⟨hi, rfl⟩ := List.getElem?_eq_some_iff.1 hc
        exact ⟨hi, hx⟩

theorem csmTrans_extra (tokens ext : List Token) : ∀ (cells : List Nat) (col : Nat) (m : List (Nat × Token)),
    (∀ (j e : Nat), cells[j]? = some e → tokens.length ≤ col + j → e = 0) →
    csmTrans (tokens ++ ext) cells col m = csmTrans tokens cells col m
  | [], _, _, _ => rfl
  | next :: cells, col, m, h => by
    have ih := fun m => csmTrans_extra tokens ext cells (col + 1) m fun j e hj hl => h (j + 1) e (by simpa using hj) (by omega)
    unfold csmTrans
    split
    · rename_i hn
      have hlt : col < tokens.length := Classical.byContradiction fun hc => by
        have := h 0 next rfl (by omega); omega
      rw [List.getElem?_append_left hlt, List.getElem?_eq_getElem hlt]
      exact ih _
    · exact ih m

theorem csmState_extra (npos : Nat) (tokens ext : List Token) (row : Row)
    (h : ∀ c e : Nat, row[c]? = some e → 7 + tokens.length ≤ c → e = 0) :
    csmState npos (tokens ++ ext) row = csmState npos tokens row := by
  unfold csmState
  split
  · rename_i cells
    rw [csmTrans_extra tokens ext cells 0 [] fun j e hj hl => h (j + 7) e (by simpa using hj) (by omega)]
  · rfl

theorem csmStates_extra (npos : Nat) (tokens ext : List Token) : ∀ rows : List Row, Low tokens.length rows →
    csmStates npos (tokens ++ ext) rows = csmStates npos tokens rows
  | [], _ => rfl
  | row :: rows, h => by
    unfold csmStates
    rw [csmState_extra npos tokens ext row (h row (by simp)),
      csmStates_extra npos tokens ext rows fun r hr => h r (by simp [hr])]

theorem csmAppend_extra (npos : Nat) (tokens ext : List Token) (rows : List Row) (h : Low tokens.length rows) :
    csmAppend npos (tokens ++ ext) rows = csmAppend npos tokens rows := by
  unfold csmAppend
  split
  · rw [csmStates_extra npos tokens ext _ fun r hr => h r (by simp [hr])]
  · rfl

/-- `append_dfa` makes what `sm_to_csm` makes of the table. -/
theorem append_direct {npos : Nat} {out : DfaOut} (C : Cols out) (hw : ∀ row ∈ out.rows, row.length = out.alphabet)
    (h2 : 2 ≤ out.rows.length) :
    ∃ d, csmAppend npos (out.classes.map (·.token)) out.rows = .ok d ∧
      csmDfa npos out.lookup out.alphabet out.rows = .ok [d] := by
  have hcw := C.wide
  have hcol : ∀ col ∈ out.lookup, col < ixTransitions + (List.replicate (out.alphabet - ixTransitions) ([] : Token)).length := by
    intro col hc
    obtain ⟨x, hx⟩ := List.mem_iff_getElem?.1 hc
    have hx256 : x < 256 := C.chars ▸ (List.getElem?_eq_some_iff.1 hx).1
    rw [List.length_replicate]
    simp only [ixTransitions]
    by_cases h7 : 7 ≤ col
    · obtain ⟨c, hc', _⟩ := (C.col x (col - 7) hx256).1 (by rw [hx]; congr 1; omega)
      have := (List.getElem?_eq_some_iff.1 hc').1
      omega
    · omega
  obtain ⟨tokens, t1, t2, t3, t4⟩ := csmTokens_spec out.lookup 0 (List.replicate (out.alphabet - ixTransitions) [])
    (by intro t ht; rw [List.eq_of_mem_replicate ht]; exact Token.normal_nil) hcol
  rw [List.length_replicate] at t2
  have htk : ∀ (k : Nat) tok, tokens[k]? = some tok → ∀ c, Mem c tok ↔ out.lookup[c]? = some (7 + k) := by
    intro k tok hk c
    have hlt : k < out.alphabet - ixTransitions := t2 ▸ (List.getElem?_eq_some_iff.mp hk).1
    obtain ⟨tok', u1, u2⟩ := t4 k [] (by rw [List.getElem?_replicate, if_pos hlt])
    have : tok' = tok := by rw [hk] at u1; exact (Option.some.inj u1).symm
    subst this
    rw [u2]
    have hnil : ¬ Mem c ([] : Token) := Token.mem_nil c
    simp only [hnil, false_or, Nat.zero_add]
    constructor
    · rintro ⟨j, h1, rfl⟩; exact h1
    · intro h; exact ⟨c, h, rfl⟩
  have htoks : tokens = out.classes.map (·.token) ++ List.replicate (out.alphabet - 7 - out.classes.length) [] := by
    apply List.ext_getElem?
    intro k
    by_cases hk : k < tokens.length
    · have hmem : ∀ c, Mem c tokens[k] ↔ ∃ x, out.classes[k]? = some x ∧ Mem c x.token := by
        intro c
        rw [htk k _ (List.getElem?_eq_getElem hk) c]
        constructor
        · intro h
          exact (C.col c k (C.chars ▸ (List.getElem?_eq_some_iff.1 h).1)).1 h
        · rintro ⟨x, h1, h2⟩
          exact (C.col c k (C.small x (List.mem_of_getElem? h1) c h2)).2 ⟨x, h1, h2⟩
      have hn := t3 _ (List.getElem_mem hk)
      rw [List.getElem?_eq_getElem hk]
      by_cases hkc : k < out.classes.length
      · rw [List.getElem?_append_left (by simpa using hkc), List.getElem?_map, List.getElem?_eq_getElem hkc]
        refine congrArg some (Token.normal_ext _ _ hn (C.normal _ (List.getElem_mem hkc)) fun c => ?_)
        rw [hmem, List.getElem?_eq_getElem hkc]
        simp
      · rw [List.getElem?_append_right (by simp; omega), List.getElem?_replicate, if_pos (by simp [ixTransitions] at t2 ⊢; omega)]
        refine congrArg some (Token.normal_ext _ _ hn Token.normal_nil fun c => ?_)
        rw [hmem, List.getElem?_eq_none (by omega)]
        simp [Token.mem_nil]
    · rw [List.getElem?_eq_none (by omega), List.getElem?_eq_none]
      simp only [List.length_append, List.length_map, List.length_replicate]
      simp only [ixTransitions] at t2
      omega
  have hap : ∃ d, csmAppend npos tokens out.rows = .ok d := by
    unfold csmAppend
    split
    · rename_i b x rows he
      obtain ⟨ss, s1, _⟩ := csmStates_spec (npos := npos) (l := out.lookup) t3 htk rows (by
        intro row hr
        rw [hw row (by rw [he]; simp [hr]), t2]
        simp only [ixTransitions]; omega)
      rw [s1]; exact ⟨_, rfl⟩
    · rename_i hne
      exfalso
      match he : out.rows, h2 with
      | row :: rest, _ =>
        match hr : row with
        | [] => have := hw [] (by rw [he]; simp); simp at this; omega
        | b :: x => exact hne b x rest (by rw [he])
  obtain ⟨d, hd⟩ := hap
  refine ⟨d, ?_, ?_⟩
  · rw [← csmAppend_extra npos _ (List.replicate (out.alphabet - 7 - out.classes.length) []) _ (by
      rw [List.length_map]; exact C.low), ← htoks]
    exact hd
  · unfold csmDfa
    rw [if_neg (by omega), if_neg (by simp only [ixTransitions]; omega), if_neg (by have := C.chars; omega),
      List.take_of_length_le (by have := C.chars; omega), t1]
    simp only [bind, Except.bind, hd]

/-! ### The loop over the lexer states -/

def msgRows : String := "The id_type you have chosen cannot hold this many DFA rows."

/-- What the two loops have to do with each other. -/
def Same (npos : Nat) (B : BuildState) (ds : List CDfa) : M BuildState → M (BuildState × List CDfa) → Prop
  | .ok B', y => ∃ outs X ds', B'.dfas = B.dfas ++ outs ∧
      y = .ok (⟨B'.heap, B'.used, B'.uniqueId, X⟩, ds ++ ds') ∧
      csmDfas npos (outs.map (·.lookup)) (outs.map (·.alphabet)) (outs.map (·.rows)) = .ok ds'
  | .error e, y => y = .error e ∨ (e = .throw msgRows ∧ ∃ msg, y = .error (.ub msg))

theorem buildLoop_direct {tr : Traits} (htr : tr.compressed = false) (hnpos : 2 < tr.npos)
    (W : Option Re → List Sym → Prop) (cost : Token → Nat) (addr : Nat → Nat) (R : Rules) (rss : List (List Rule)) :
    ∀ (feats : List Nat) (B : BuildState) (X : List DfaOut) (ds : List CDfa),
    HeapAll (EndsOk fun _ _ _ => True) B.heap → (∀ rs ∈ rss, ∀ r ∈ rs, FromTokeniser r.regex) →
    (∀ rs ∈ rss, ∀ xs, Null.ReadAs rs xs → Null.Readable tr W cost xs ∧ xcost cost xs + 2 ≤ tr.npos) →
    Same tr.npos B ds (buildLoop tr true addr R rss feats B)
      (buildCsmLoop tr addr R rss feats ⟨B.heap, B.used, B.uniqueId, X⟩ ds) := by
  induction rss with
  | nil => intro feats B X ds _ _ _; exact ⟨[], X, [], by simp, by simp [buildCsmLoop], by simp [csmDfas]⟩
  | cons rs rss ih =>
    intro feats B X ds H hreg hok
    unfold buildLoop buildCsmLoop
    split
    · exact .inl rfl
    · dsimp only
      cases e1 : buildTree tr (hasBit (feats.headD 0) 1) rs B.heap B.uniqueId with
      | error e => exact .inl rfl
      | ok x =>
        obtain ⟨p, root, uid⟩ := x
        obtain ⟨p1, p2⟩ := buildTree_all (P := EndsOk fun _ _ _ => True) (fun _ _ => trivial) H
          (fun r hr u g => trivial) e1
        obtain ⟨xs, hx⟩ := Null.readAs_of (buildTree_sound (hreg rs (by simp)) e1)
        obtain ⟨hx1, hx2⟩ := hok rs (by simp) xs hx
        have hcs : CsInv p.charsets := buildTree_cs tr W cost _ hnpos xs B.heap B.uniqueId hx1 hx2 (by rw [hx.1]; exact e1)
        simp only [bind, Except.bind]
        cases checkZeroLen R.matchZeroLen p.heap root with
        | error e => exact .inl rfl
        | ok _ =>
          dsimp only
          rw [buildDfa_direct hcs]
          cases e2 : buildDfa tr true R.allowSuppressed addr p.heap p.charsets p.crId p.nlId root B.used with
          | error e => exact .inl rfl
          | ok out =>
            obtain ⟨b1, b2, b3, _⟩ := buildDfa_ok trivial p1 (Tree.first_of_not_nullable _ p2) e2
            obtain ⟨d, d1, d2⟩ := append_direct (npos := tr.npos) (buildDfa_cols htr hcs e2) b2.width b3
            simp only [Except.map, appendDfa]
            by_cases hl : out.rows.length > tr.npos + 1
            · rw [if_pos hl, if_pos (by omega)]
              exact .inr ⟨rfl, _, rfl⟩
            · rw [if_neg hl, d1]
              dsimp only
              by_cases hr : out.rows.length ≥ tr.npos
              · rw [if_pos hr, if_pos hr]; exact .inl rfl
              · rw [if_neg hr, if_neg hr]
                have k := ih feats.tail ⟨p.heap, out.used, uid, B.dfas ++ [out]⟩
                  (X ++ [{ out with lookup := List.replicate 256 ixDead }]) (ds ++ [d]) p1
                  (fun y hy => hreg y (List.mem_cons_of_mem _ hy)) fun y hy => hok y (List.mem_cons_of_mem _ hy)
                revert k
                cases buildLoop tr true addr R rss feats.tail ⟨p.heap, out.used, uid, B.dfas ++ [out]⟩ with
                | error e => exact id
                | ok B' =>
                  rintro ⟨outs, X', ds', k1, k2, k3⟩
                  refine ⟨out :: outs, X', d :: ds', by rw [k1]; simp, by rw [k2]; simp, ?_⟩
                  simp only [List.map_cons, csmDfas, d2, k3, bind, Except.bind, List.cons_append, List.nil_append]

theorem build_direct {tr : Traits} (htr : tr.compressed = false) (hnpos : 2 < tr.npos) {R : Rules} (hR : ReadRules tr R)
    (addr : Nat → Nat) :
    (∃ sm csm, buildTemp tr addr R = .ok sm ∧ buildCsm tr addr R = .ok csm ∧ smToCsm tr.npos sm = .ok csm) ∨
    (∃ e, buildTemp tr addr R = .error e ∧ (buildCsm tr addr R = .error e ∨
      (e = .throw msgRows ∧ ∃ msg, buildCsm tr addr R = .error (.ub msg)))) := by
  have h := buildLoop_direct htr hnpos _ _ addr R R.states R.features ⟨[], [], 0, []⟩ [] [] (by intro c hc; cases hc) hR.token
    hR.readable
  unfold buildTemp buildCsm
  revert h
  cases buildLoop tr true addr R R.states R.features ⟨[], [], 0, []⟩ with
  | error e =>
    rintro (h | ⟨rfl, msg, h⟩)
    · exact .inr ⟨e, rfl, .inl (by rw [h]; rfl)⟩
    · exact .inr ⟨_, rfl, .inr ⟨rfl, msg, by rw [h]; rfl⟩⟩
  | ok B' =>
    rintro ⟨outs, X, ds', h1, h2, h3⟩
    rw [h2]
    simp only [bind, Except.bind]
    cases checkSuppressed R.allowSuppressed B'.uniqueId B'.used with
    | error e => exact .inr ⟨e, rfl, .inl rfl⟩
    | ok _ =>
      refine .inl ⟨_, _, rfl, rfl, ?_⟩
      rw [show B'.dfas = outs by simpa using h1]
      rw [List.nil_append]
      exact h3

end Lexertl.CsmBuild

namespace Lexertl.CsmBuild
open Spec Csm

/-! ### What the machines accept -/

theorem tpath_cons {l : List Nat} {rows : List Row} {a c b : Nat} {w : List Nat} (h : TPath l rows a (c :: w) b) :
    ∃ t, LuState.step ⟨l, rows⟩ a c = .ok t ∧ t ≠ 0 ∧ TPath l rows t w b := by
  cases h with
  | cons _ _ col t _ row _ hr hl hc ht h =>
    refine ⟨t, ?_, ht, h⟩
    simp only [LuState.step, hl, getCell, hr, hc]

theorem tpath_step {l : List Nat} {rows : List Row} {a c b t : Nat} {w : List Nat}
    (h : LuState.step ⟨l, rows⟩ a c = .ok t) (ht : t ≠ 0) (hp : TPath l rows t w b) : TPath l rows a (c :: w) b := by
  unfold LuState.step at h
  dsimp only at h
  split at h
  · rename_i col hl
    unfold getCell at h
    split at h
    · cases h
    · rename_i row hr
      split at h
      · rename_i hc
        cases h
        exact .cons a c col _ b row w hr hl hc ht hp
      · cases h
  · cases h

theorem auto_path {l : List Nat} {rows : List Row} {size n : Nat} {info : Nat → NodeData} {K At : Nat → List Sym → Prop}
    (A : Auto ⟨l, rows⟩ size n info K At) (w : List Nat) : ∀ {r : Nat} {u : List Sym}, (∀ c ∈ w, c < 256) → At r u →
    (∃ b, TPath l rows r w b) ∧ (∀ b, TPath l rows r w b → At b (u ++ w.map .ch)) ∨
    (∀ b, ¬ TPath l rows r w b) ∧ ∀ j v, j < n → ¬ K j (u ++ w.map .ch ++ v) := by
  induction w with
  | nil =>
    intro r u _ h
    refine .inl ⟨⟨r, .nil r⟩, fun b hb => ?_⟩
    cases hb
    simpa using h
  | cons c w ih =>
    intro r u hw h
    rcases A.step r u c h (hw c (by simp)) with ⟨t, s1, s2, s3⟩ | ⟨s1, s2⟩
    · rcases ih (fun c hc => hw c (by simp [hc])) s3 with ⟨⟨b, h1⟩, h2⟩ | ⟨h1, h2⟩
      · refine .inl ⟨⟨b, tpath_step s1 s2 h1⟩, fun b hb => ?_⟩
        obtain ⟨t', e1, _, e3⟩ := tpath_cons hb
        rw [s1] at e1
        cases e1
        simpa using h2 b e3
      · refine .inr ⟨fun b hb => ?_, fun j v hj => by simpa using h2 j v hj⟩
        obtain ⟨t', e1, _, e3⟩ := tpath_cons hb
        rw [s1] at e1
        cases e1
        exact h1 b e3
    · refine .inr ⟨fun b hb => ?_, fun j v hj => by simpa using s2 j (w.map .ch ++ v) hj⟩
      obtain ⟨t', e1, e2, _⟩ := tpath_cons hb
      rw [s1] at e1
      cases e1
      exact e2 rfl

theorem encode_plain {tr : Traits} (htr : tr.compressed = false) (v : List Sym) : v.flatMap (Wide.encode tr) = v := by
  have : Wide.encode tr = fun s => [s] := by
    funext s; cases s <;> simp [Wide.encode, htr]
  rw [this]
  induction v with
  | nil => rfl
  | cons a v ih => simp [ih]

theorem text_whole (w : List Nat) : text w 0 w.length = w.map .ch := by
  simp [text]

/-- The end of a path in the table of a lexer state. -/
theorem table_accepts {tr : Traits} (htr : tr.compressed = false) (hnpos : 263 ≤ tr.npos) {R : Rules} {xss : List (List SRule)}
    (hR : RuleSet tr R xss) {addr : Nat → Nat} {sm : Internals} (hb : buildTemp tr addr R = .ok sm) {i : Nat}
    {xs : List SRule} (hxs : xss[i]? = some xs) :
    ∃ l rows row0 b0, sm.lookup[i]? = some l ∧ sm.dfa[i]? = some rows ∧ rows[0]? = some row0 ∧ row0[0]? = some b0 ∧
      ∀ (atLine : Bool) (w : List Nat), (∀ c ∈ w, c < 256) →
      (∀ x ∈ xs, LineMatch atLine x.2 (w.map .ch) → ∃ b, TPath l rows (if atLine = true ∧ b0 ≠ 0 then b0 else 1) w b) ∧
      ∀ b, TPath l rows (if atLine = true ∧ b0 ≠ 0 then b0 else 1) w b → b ≠ 0 ∧ ∃ row e, rows[b]? = some row ∧ row[ixEnd]? = some e ∧
        ((e = 0 ∧ ∀ x ∈ xs, ¬ LineMatch atLine x.2 (w.map .ch)) ∨
         (e ≠ 0 ∧ ∃ (j : Nat) (x : SRule), xs[j]? = some x ∧ LineMatch atLine x.2 (w.map .ch) ∧
            (∀ (k : Nat) (y : SRule), k < j → xs[k]? = some y → ¬ LineMatch atLine y.2 (w.map .ch)) ∧
            row[ixId]? = some x.1.id ∧ row[ixUserId]? = some x.1.userId ∧
            row[ixPushDfa]? = some x.1.pushDfa ∧ row[ixNextDfa]? = some x.1.nextDfa ∧ hasBit e bitPop = x.1.popDfa)) := by
  rcases buildTemp_spec tr _ _ addr hnpos R xss hR.states hR.stateOk with hspec | ⟨msg, b1, _⟩
  case inr => rw [b1] at hb; cases hb
  obtain ⟨sm', b1, _, _, _, _, _, _, b3⟩ := hspec
  rw [b1] at hb
  injection hb with hb
  subst hb
  obtain ⟨d, size, At, c1, c2, _, c3, c4, _⟩ := b3 i _ hxs
  have hmem := List.mem_of_getElem? hxs
  have A := c3.auto (fun j hj hl => by
    obtain ⟨x, hx, hl⟩ := ruleInfo_lazy.1 hl
    rw [hR.greedy' _ hmem x (List.mem_of_getElem? hx)] at hl
    cases hl) (c4 (hR.noEol' _ hmem))
  unfold Internals.dfaAt at c1
  split at c1
  case h_2 => cases c1
  rename_i l rows hl hrows
  cases c1
  have getOf : ∀ {r c v}, getCell rows r c = .ok v → ∃ row, rows[r]? = some row ∧ row[c]? = some v := by
    intro r c v this
    unfold getCell at this
    split at this
    · cases this
    · rename_i row hr
      split at this
      · rename_i v hv
        cases this
        exact ⟨row, hr, hv⟩
      · cases this
  obtain ⟨b0, z1, z2, z3⟩ := A.bol
  obtain ⟨row0, z4, z5⟩ := getOf z1
  refine ⟨l, rows, row0, b0, hl, hrows, z4, z5, fun atLine w hw => ?_⟩
  have hlen : ∀ {j x}, xs[j]? = some x → j < xs.length := fun h => (List.getElem?_eq_some_iff.1 h).1
  have start : ∃ pre, At (if atLine = true ∧ b0 ≠ 0 then b0 else 1) pre ∧
      ∀ j, ruleWords (Wide.words tr) (stateBol R.features i) xs j (pre ++ w.map .ch) ↔
        ∃ x, xs[j]? = some x ∧ LineMatch atLine x.2 (w.map .ch) := by
    have hdec := hR.decodes hmem (inp := w) (by
      intro c hc
      have := hw c hc
      simpa [charsOf, htr] using this)
    have at_ : ∀ pre : List Sym, _ := fun pre hpre j =>
      words_at hdec (stateBol_of hR hxs) atLine pre hpre j 0 w.length
    simp only [encode_plain htr, text_whole] at at_
    by_cases hs : atLine = true ∧ b0 ≠ 0
    · rw [if_pos hs]
      obtain ⟨q1, j, v, q2, q3⟩ := z2 hs.2
      exact ⟨[.bol], q1, at_ _ (.inl ⟨rfl, hs.1, j, v, q2, q3⟩)⟩
    · rw [if_neg hs]
      refine ⟨[], A.ini, at_ _ (.inr ⟨rfl, fun h j v hj => ?_⟩)⟩
      exact z3 (Classical.byContradiction fun hb => hs ⟨h, hb⟩) j v hj
  obtain ⟨pre, hat0, hwords⟩ := start
  rcases auto_path A w hw hat0 with ⟨h1, h2⟩ | ⟨h1, h2⟩
  · refine ⟨fun _ _ _ => h1, fun b hb => ?_⟩
    have hat := h2 b hb
    refine ⟨A.pos b _ hat, ?_⟩
    obtain ⟨e, e1, e2⟩ := A.fin b _ hat
    obtain ⟨row, r1, r2⟩ := getOf (e1 ixEnd (by decide))
    have cell' : ∀ c, c < 5 → row[c]? = some (cellOf [newRow size e] 0 c) := by
      intro c hc
      obtain ⟨row', q1, q2⟩ := getOf (e1 c hc)
      rw [r1] at q1
      cases q1
      exact q2
    refine ⟨row, _, r1, r2, ?_⟩
    rcases e2 with ⟨rfl, e2⟩ | ⟨j, j1, j2, j3, rfl⟩
    · refine .inl ⟨cells_none _ _, fun x hx hm => ?_⟩
      obtain ⟨j, hj⟩ := List.mem_iff_getElem?.1 hx
      exact e2 j (hlen hj) ((hwords j).2 ⟨x, hj, hm⟩)
    · obtain ⟨x, hx, hm⟩ := (hwords j).1 j2
      have hi : ruleInfo xs (ruleOffset xss i) j = endNode x (ruleOffset xss i + 1 + j) := by
        unfold ruleInfo; rw [hx]
      rw [hi] at cell' ⊢
      obtain ⟨k1, k2, k3, k4, k5, k6⟩ := cells_fin size x.1.id x.1.userId (ruleOffset xss i + 1 + j) x.1.nextDfa x.1.pushDfa x.1.popDfa
        (if rGreedy x.2 then .yes else .no)
      refine .inr ⟨k1, j, x, hx, hm, fun k y hk hy hmy => j3 k hk ((hwords k).2 ⟨y, hy, hmy⟩), ?_, ?_, ?_, ?_, k2⟩
      · rw [cell' _ (by decide)]; exact congrArg some k3
      · rw [cell' _ (by decide)]; exact congrArg some k4
      · rw [cell' _ (by decide)]; exact congrArg some k5
      · rw [cell' _ (by decide)]; exact congrArg some k6
  · refine ⟨fun x hx hm => ?_, fun b hb => absurd hb (h1 b)⟩
    obtain ⟨j, hj⟩ := List.mem_iff_getElem?.1 hx
    exact absurd ((hwords j).2 ⟨x, hj, hm⟩) (by simpa using h2 j [] (hlen hj))

end Lexertl.CsmBuild
