import Verif.Proofs.Rule

/-
`$` at the end of a rule: the tree has one leaf for it, and the charsets of CR and LF
are known to the parser.
-/
namespace Lexertl
open Spec

/-- Number of `$` leaves in a position list. -/
def eolCount (tr : Traits) (h : Heap) (l : List Nat) : Nat :=
  l.countP fun n => h.tokOf n == some tr.eolToken

theorem eolCount_append (tr : Traits) (h : Heap) (a b : List Nat) :
    eolCount tr h (a ++ b) = eolCount tr h a + eolCount tr h b := List.countP_append

theorem eolCount_nil (tr : Traits) (h : Heap) : eolCount tr h [] = 0 := rfl

theorem eolCount_zero {tr : Traits} {h : Heap} {l : List Nat}
    (hl : ∀ n ∈ l, h.tokOf n ≠ some tr.eolToken) : eolCount tr h l = 0 := by
  unfold eolCount
  rw [List.countP_eq_zero]
  intro n hn
  simpa using hl n hn

theorem eolCount_single (tr : Traits) (h : Heap) (n : Nat) : eolCount tr h [n] ≤ 1 := by
  unfold eolCount
  exact List.countP_le_length

theorem eolCount_congr {tr : Traits} {h h' : Heap} {l : List Nat}
    (hl : ∀ n ∈ l, h'.tokOf n = h.tokOf n) : eolCount tr h' l = eolCount tr h l := by
  unfold eolCount
  exact List.countP_congr fun n hn => by rw [hl n hn]

/-- The tree has at most one `$` leaf, and it is listed at most once in each position list. -/
structure OneEol (tr : Traits) (h : Heap) (t : Tree) : Prop where
  pos : eolCount tr h t.pos ≤ 1
  first : eolCount tr h t.firstpos ≤ 1
  follow : ∀ n, eolCount tr h (t.follow n) ≤ 1

theorem Tree.follow_nil (t : Tree) {n : Nat} (hn : n ∉ t.pos) : t.follow n = [] := by
  induction t with
  | leaf => rfl
  | fin => rfl
  | seq l r ihl ihr =>
    simp only [pos, List.mem_append, not_or] at hn
    simp only [follow, ihl hn.1, ihr hn.2, List.nil_append]
    rw [if_neg fun h => hn.1 (l.lastpos_sub n h)]
  | sel l r ihl ihr =>
    simp only [pos, List.mem_append, not_or] at hn
    simp only [follow, ihl hn.1, ihr hn.2, List.nil_append]
  | iter t g ih =>
    have hn : n ∉ t.pos := hn
    simp only [follow, ih hn, List.nil_append]
    rw [if_neg fun h => hn (t.lastpos_sub n h)]

theorem OneEol.congr {tr : Traits} {h h' : Heap} {t : Tree} (H : OneEol tr h t)
    (hl : ∀ n ∈ t.pos, h'.tokOf n = h.tokOf n) : OneEol tr h' t where
  pos := by rw [eolCount_congr hl]; exact H.pos
  first := by rw [eolCount_congr fun n hn => hl n (t.firstpos_sub n hn)]; exact H.first
  follow := fun n => by rw [eolCount_congr fun q hq => hl q (t.follow_sub n q hq)]; exact H.follow n

theorem OneEol.of_none {tr : Traits} {h : Heap} {t : Tree}
    (ht : ∀ n ∈ t.pos, h.tokOf n ≠ some tr.eolToken) : OneEol tr h t where
  pos := by rw [eolCount_zero ht]; omega
  first := by rw [eolCount_zero fun n hn => ht n (t.firstpos_sub n hn)]; omega
  follow := fun n => by rw [eolCount_zero fun q hq => ht q (t.follow_sub n q hq)]; omega

/-- Something without `$`, then one `$`. -/
theorem OneEol.seq_leaf {tr : Traits} {h : Heap} {t : Tree} {k : Nat} {b : Bool}
    (ht : ∀ n ∈ t.pos, h.tokOf n ≠ some tr.eolToken) : OneEol tr h (.seq t (.leaf k b)) where
  pos := by
    rw [Tree.pos, eolCount_append, eolCount_zero ht]
    have := eolCount_single tr h k
    simp only [Tree.pos]; omega
  first := by
    rw [Tree.firstpos, eolCount_append, eolCount_zero fun n hn => ht n (t.firstpos_sub n hn)]
    have := eolCount_single tr h k
    have h0 := eolCount_nil tr h
    split
    · cases b
      · simp only [Tree.firstpos, Bool.false_eq_true, if_false]; omega
      · simp only [Tree.firstpos, if_true]; omega
    · omega
  follow := fun n => by
    rw [Tree.follow, eolCount_append, eolCount_append,
      eolCount_zero fun q hq => ht q (t.follow_sub n q hq)]
    have := eolCount_single tr h k
    have h0 := eolCount_nil tr h
    simp only [Tree.follow, h0]
    split
    · cases b
      · simp only [Tree.firstpos, Bool.false_eq_true, if_false]; omega
      · simp only [Tree.firstpos, if_true]; omega
    · omega

/-- The end node comes after. -/
theorem OneEol.seq_fin {tr : Traits} {h : Heap} {t : Tree} {k : Nat} (H : OneEol tr h t)
    (hk : h.tokOf k = none) : OneEol tr h (.seq t (.fin k)) where
  pos := by
    have h0 : eolCount tr h [k] = 0 := eolCount_zero (by simp [hk])
    rw [Tree.pos, eolCount_append]
    simp only [Tree.pos, h0]
    exact H.pos
  first := by
    have h0 : eolCount tr h [k] = 0 := eolCount_zero (by simp [hk])
    rw [Tree.firstpos, eolCount_append]
    have := H.first
    have h1 := eolCount_nil tr h
    split
    · simp only [Tree.firstpos]; omega
    · omega
  follow := fun n => by
    have h0 : eolCount tr h [k] = 0 := eolCount_zero (by simp [hk])
    rw [Tree.follow, eolCount_append, eolCount_append]
    have := H.follow n
    have h1 := eolCount_nil tr h
    simp only [Tree.follow, h1]
    split
    · simp only [Tree.firstpos]; omega
    · omega

/-- `^` or nothing comes before. -/
theorem OneEol.bol_seq {tr : Traits} {h : Heap} {t : Tree} {a b : Nat} (H : OneEol tr h t)
    (ha : h.tokOf a ≠ some tr.eolToken) (hb : h.tokOf b ≠ some tr.eolToken) (ha' : a ∉ t.pos) (hb' : b ∉ t.pos)
    {x y : Bool} : OneEol tr h (.seq (.sel (.leaf a x) (.leaf b y)) t) where
  pos := by
    rw [Tree.pos, eolCount_append, eolCount_zero]
    · have := H.pos; omega
    · intro n hn
      simp only [Tree.pos, List.mem_append, List.mem_singleton] at hn
      rcases hn with rfl | rfl
      · exact ha
      · exact hb
  first := by
    rw [Tree.firstpos, eolCount_append, eolCount_zero]
    · have := H.first
      have h1 := eolCount_nil tr h
      split <;> omega
    · intro n hn
      have hn := Tree.firstpos_sub _ n hn
      simp only [Tree.pos, List.mem_append, List.mem_singleton] at hn
      rcases hn with rfl | rfl
      · exact ha
      · exact hb
  follow := fun n => by
    have h1 := eolCount_nil tr h
    rw [Tree.follow, eolCount_append, eolCount_append]
    simp only [Tree.follow, List.append_nil, h1, Nat.zero_add]
    split
    · rename_i hn
      have hn := Tree.lastpos_sub _ n hn
      simp only [Tree.pos, List.mem_append, List.mem_singleton] at hn
      have : t.follow n = [] := t.follow_nil (by rcases hn with rfl | rfl; exact ha'; exact hb')
      rw [this, h1, Nat.zero_add]
      exact H.first
    · rw [h1]; exact H.follow n

/-- The parser knows the charsets of CR and LF. -/
def CrIn (p : PState) : Prop :=
  (Token.ofChar 13, p.crId) ∈ p.charsets ∧ (Token.ofChar 10, p.nlId) ∈ p.charsets

/-- The rule has no `$`, or exactly one, at its end. -/
def EolLast (tr : Traits) (r : Option Re) : Prop :=
  rNoEol r = true ∨ ∃ l, r = some (.seq l .eol) ∧
    ∀ p, ∃ L n b, Built tr (fun s => [s]) L n b false p (PState.act tr l p)

theorem parse_act (tr : Traits) (p p1 : PState) (regex : List Tok) (r : Re) (info : RuleInfo)
    (seenBol : Bool) (hd : Denotes regex (some r)) (ha : PState.act tr r p = .ok p1) :
    ∃ g, PState.parse tr p regex info seenBol = wrapUp tr info g seenBol p1 := by
  cases hd with
  | re b e ts r hb he h =>
    have hl : PState.loop tr (16 * (b :: ts ++ [e]).length + 16) p [b] (ts ++ [e]) = .ok p1 := by
      rw [PState.parseLoop_derives tr ts r h b e hb he p _ (by simp; omega), ha]
    cases ts with
    | nil =>
      refine ⟨?_, ?_⟩
      rotate_left
      show PState.parse tr p (b :: e :: []) info seenBol = _
      rw [parse_eq, show (b :: e :: [] : List Tok) = b :: [] ++ [e] from rfl]
      have hl' : PState.loop tr (16 * (b :: [] ++ [e]).length + 16) p [b] [e] = .ok p1 := hl
      rw [hl']; rfl
    | cons t1 ts =>
      refine ⟨?_, ?_⟩
      rotate_left
      show PState.parse tr p (b :: t1 :: (ts ++ [e])) info seenBol = _
      rw [parse_eq, show (b :: t1 :: (ts ++ [e])) = b :: (t1 :: ts) ++ [e] from rfl]
      have hl' : PState.loop tr (16 * (b :: (t1 :: ts) ++ [e]).length + 16) p [b]
        (t1 :: (ts ++ [e])) = .ok p1 := hl
      rw [hl']; rfl

theorem act_eol (tr : Traits) (p : PState) : ∃ q : PState,
    PState.act tr .eol p = .ok (q.pushLeaf tr tr.eolToken .yes) ∧ q.heap = p.heap ∧ q.trees = p.trees ∧
      (∀ c ∈ p.charsets, c ∈ q.charsets) ∧ ((∀ c ∈ q.charsets, c.2 ≠ tr.npos) →
        (Token.ofChar 13, q.crId) ∈ q.charsets ∧ (Token.ofChar 10, q.nlId) ∈ q.charsets) := by
  obtain ⟨h1, h2⟩ := PState.lookup_spec tr p (Token.ofChar 13)
  obtain ⟨h3, h4⟩ := PState.lookup_spec tr (p.lookup tr (Token.ofChar 13)).1 (Token.ofChar 10)
  generalize hL : p.lookup tr (Token.ofChar 13) = L at h1 h2 h3 h4
  obtain ⟨p1, cr⟩ := L
  simp only at h1 h2 h3 h4
  generalize hK : p1.lookup tr (Token.ofChar 10) = K at h3 h4
  obtain ⟨p2, nl⟩ := K
  simp only at h3 h4
  simp only [PState.act, hL, hK]
  have c1 : p1.charsets = csLookup tr p.charsets (Token.ofChar 13) := by rw [h1]
  have c2 : p2.charsets = csLookup tr p1.charsets (Token.ofChar 10) := by rw [h3]
  rw [← c2] at h4
  rw [← c1] at h2
  have h2' : (Token.ofChar 13, cr) ∈ p2.charsets := by
    rw [c2]; exact csLookup_sub tr _ _ _ h2
  have hsub : ∀ c ∈ p.charsets, c ∈ p2.charsets := fun c hc => by
    rw [c2]; refine csLookup_sub tr _ _ _ ?_; rw [c1]; exact csLookup_sub tr _ _ _ hc
  have hh : p2.heap = p.heap ∧ p2.trees = p.trees := by rw [h3, h1]; exact ⟨rfl, rfl⟩
  refine ⟨_, rfl, ?_, ?_, ?_, ?_⟩
  · split <;> split <;> exact hh.1
  · split <;> split <;> exact hh.2
  · split <;> split <;> exact hsub
  · intro hid
    have hid' : ∀ c ∈ p2.charsets, c.2 ≠ tr.npos := by
      intro c hc; apply hid c
      split <;> split <;> exact hc
    have n1 := hid' _ h2'
    have n2 := hid' _ h4
    simp only at n1 n2
    rw [if_pos n2, if_pos n1]
    exact ⟨h2', h4⟩

theorem appendFollow_obs {h h' : Heap} {n : Nat} {fp : List Nat} (e : h.appendFollow n fp = .ok h') :
    (∀ k, h'.tokOf k = h.tokOf k) ∧ h'.length = h.length := by
  unfold Heap.appendFollow at e
  split at e
  · cases e
  · rename_i c hn
    split at e
    · cases e
      refine ⟨fun k => ?_, by simp⟩
      unfold Heap.tokOf
      by_cases hk : n = k
      · subst hk
        rw [List.getElem?_set_self (List.getElem?_eq_some_iff.1 hn).1, hn]
        cases c with
        | mk d f => cases d <;> rfl
      · rw [List.getElem?_set_ne hk]
    · cases e

theorem appendFollowAll_obs (ns fp : List Nat) : ∀ {h h' : Heap}, h.appendFollowAll ns fp = .ok h' →
    (∀ k, h'.tokOf k = h.tokOf k) ∧ h'.length = h.length := by
  induction ns with
  | nil => intro h h' e; cases e; exact ⟨fun _ => rfl, rfl⟩
  | cons n ns ih =>
    intro h h' e
    simp only [Heap.appendFollowAll] at e
    cases h1 : h.appendFollow n fp with
    | error x => rw [h1] at e; cases e
    | ok h2 =>
      rw [h1] at e
      obtain ⟨a, b⟩ := ih (h := h2) e
      obtain ⟨c, d⟩ := appendFollow_obs h1
      exact ⟨fun k => (a k).trans (c k), b.trans d⟩

theorem newSeq_tok {h h' : Heap} {l r t : Tree} (e : h.newSeq l r = .ok (h', t)) :
    ((∀ n, h'.tokOf n = h.tokOf n) ∧ h'.length = h.length) ∧ t = .seq l r := by
  unfold Heap.newSeq at e
  cases h1 : h.appendFollowAll l.lastpos r.firstpos with
  | error x => rw [h1] at e; cases e
  | ok h2 =>
    rw [h1] at e
    cases e
    exact ⟨appendFollowAll_obs _ _ h1, rfl⟩

/-- A rule ending in `$`. -/
theorem parse_eol (tr : Traits) (p p' : PState) (regex : List Tok) (l : Re) (info : RuleInfo) (seenBol : Bool)
    (root : Tree) (hnpos : 2 < tr.npos) (hd : Denotes regex (some (.seq l .eol))) (hp : p.trees = [])
    (hl : ∃ L n b, Built tr (fun s => [s]) L n b false p (PState.act tr l p))
    (he : PState.parse tr p regex info seenBol = .ok (p', root))
    (hids : IdsOk tr p'.charsets) :
    CrIn p' ∧ OneEol tr p'.heap root := by
  obtain ⟨L, n, b, pl, t, a1, a2, a3, a4, a5, a6, a7⟩ := hl
  obtain ⟨q, b1, b2, b3, b4, b5⟩ := act_eol tr pl
  have hbe : tr.bolToken ≠ tr.eolToken := by simp only [Traits.bolToken, Traits.eolToken]; omega
  have hne : tr.nullToken ≠ tr.eolToken := by simp only [Traits.nullToken, Traits.eolToken]; omega
  -- the sequence
  let hq : Heap := q.heap ++ [⟨.leaf tr.eolToken .yes, []⟩]
  let tk : Tree := .leaf q.heap.length (tr.eolToken == tr.nullToken)
  have hact : PState.act tr (.seq l .eol) p = (q.pushLeaf tr tr.eolToken .yes).sequence := by
    show (PState.act tr l p >>= fun x => PState.act tr .eol x >>= fun y => y.sequence) = _
    rw [a1]
    simp only [bind, Except.bind]
    rw [b1]
  have htrees : (q.pushLeaf tr tr.eolToken .yes).trees = [tk, t] := by
    simp only [PState.pushLeaf, Heap.newLeaf, b3, a2, hp]; rfl
  have hheap : (q.pushLeaf tr tr.eolToken .yes).heap = hq := rfl
  have hseq : (q.pushLeaf tr tr.eolToken .yes).sequence = (hq.newSeq t tk >>= fun x =>
      .ok { q with heap := x.1, trees := [x.2] }) := by
    unfold PState.sequence
    rw [htrees]
    rfl
  cases hns : hq.newSeq t tk with
  | error x =>
    rw [hns] at hseq
    have : PState.act tr (.seq l .eol) p = .error x := by rw [hact, hseq]; rfl
    exfalso
    cases hd with
    | re b e ts r hb he' h =>
      have hl : PState.loop tr (16 * (b :: ts ++ [e]).length + 16) p [b] (ts ++ [e]) = .error x := by
        rw [PState.parseLoop_derives tr ts _ h b e hb he' p _ (by simp; omega), this]
      cases ts with
      | nil =>
        have he2 : PState.parse tr p (b :: e :: []) info seenBol = .ok (p', root) := he
        rw [parse_eq] at he2
        have hl' : PState.loop tr (16 * (b :: e :: [] : List Tok).length + 16) p [b] [e] = .error x := hl
        rw [hl'] at he2; cases he2
      | cons t1 ts =>
        have he2 : PState.parse tr p (b :: t1 :: (ts ++ [e])) info seenBol = .ok (p', root) := he
        rw [parse_eq] at he2
        have hl' : PState.loop tr (16 * (b :: t1 :: (ts ++ [e])).length + 16) p [b]
          (t1 :: (ts ++ [e])) = .error x := hl
        rw [hl'] at he2; cases he2
  | ok x =>
    obtain ⟨h1, t1⟩ := x
    obtain ⟨⟨c1, c1'⟩, rfl⟩ := newSeq_tok hns
    rw [hns] at hseq
    obtain ⟨g, hw⟩ := parse_act tr p _ regex _ info seenBol hd (hact.trans hseq)
    rw [he] at hw
    simp only [wrapUp, PState.finish, bind, Except.bind] at hw
    -- the end node
    cases hf : Heap.newSeq (h1 ++ [⟨.fin info.id info.userId info.uniqueId info.nextDfa info.pushDfa
        info.popDfa g, []⟩]) (.seq t tk) (.fin h1.length) with
    | error x => rw [hf] at hw; cases hw
    | ok y =>
      obtain ⟨h2, t2⟩ := y
      obtain ⟨⟨c2, c2'⟩, rfl⟩ := newSeq_tok hf
      rw [hf] at hw
      simp only at hw
      have hkeep : p'.charsets = q.charsets ∧ p'.crId = q.crId ∧ p'.nlId = q.nlId := by
        cases seenBol with
        | false => cases hw; exact ⟨rfl, rfl, rfl⟩
        | true =>
          simp only [if_true] at hw
          unfold PState.fixupBol at hw
          split at hw
          · cases hw; exact ⟨rfl, rfl, rfl⟩
          · simp only [bind, Except.bind] at hw
            split at hw
            · cases hw
            · cases hw; exact ⟨rfl, rfl, rfl⟩
      have hcr : CrIn p' := by
        obtain ⟨k1, k2, k3⟩ := hkeep
        unfold CrIn
        rw [k1, k2, k3]
        apply b5
        intro c hc
        have := hids.small c (by rw [k1]; exact hc)
        omega
      refine ⟨hcr, ?_⟩
      -- no `$` in the body
      have hsub : ∀ c ∈ pl.charsets, c ∈ p'.charsets := fun c hc => by rw [hkeep.1]; exact b4 c hc
      have htl : ∀ n ∈ t.pos, n < pl.heap.length := a3.lt
      have hbody : ∀ n ∈ t.pos, pl.heap.tokOf n ≠ some tr.eolToken := by
        intro n hn h
        rcases a6 n hn _ h with h | ⟨_, h⟩ | ⟨h, _⟩ | ⟨c, hc, h⟩
        · exact hne h.symm
        · exact hbe h.symm
        · cases h
        · have := hids.small c (hsub c hc)
          simp only [Traits.eolToken] at h; omega
      have hlq : q.heap.length < h1.length ∧ ∀ n ∈ t.pos, n < h1.length := by
        have hlen : h1.length = hq.length := c1'
        have hq' : hq.length = q.heap.length + 1 := by simp [hq]
        refine ⟨by omega, fun n hn => ?_⟩
        have := htl n hn
        rw [b2] at hq'
        omega
      have hbody2 : ∀ n ∈ t.pos, h2.tokOf n ≠ some tr.eolToken := by
        intro n hn
        rw [c2, (Heap.obs_append_left h1 _ n (hlq.2 n hn)).1, c1]
        have : n < q.heap.length := by rw [b2]; exact htl n hn
        rw [(Heap.obs_append_left q.heap _ n this).1, b2]
        exact hbody n hn
      have hfin : h2.tokOf h1.length = none := by
        rw [c2]; simp [Heap.tokOf]
      have hone : OneEol tr h2 (.seq (.seq t tk) (.fin h1.length)) :=
        (OneEol.seq_leaf hbody2).seq_fin hfin
      cases seenBol with
      | false => cases hw; exact hone
      | true =>
        simp only [if_true] at hw
        unfold PState.fixupBol at hw
        split at hw
        · cases hw; exact hone
        · simp only [bind, Except.bind] at hw
          split at hw
          · cases hw
          · rename_i y hy
            obtain ⟨h3, t3⟩ := y
            obtain ⟨⟨c3, -⟩, rfl⟩ := newSeq_tok hy
            cases hw
            simp only [Heap.newLeaf] at c3 ⊢
            have hpos : ∀ n ∈ (Tree.seq (.seq t tk) (.fin h1.length)).pos, n < h2.length := by
              intro n hn
              have hl2 : h1.length < h2.length := by rw [c2']; simp
              simp only [Tree.pos, List.mem_append, List.mem_singleton] at hn
              rcases hn with (hn | hn) | rfl
              · have := hlq.2 n hn; omega
              · have hn : n ∈ [q.heap.length] := hn
                rw [List.mem_singleton] at hn
                subst hn
                have := hlq.1; omega
              · exact hl2
            refine OneEol.bol_seq (hone.congr fun n hn => ?_) ?_ ?_ ?_ ?_
            · rw [c3, List.append_assoc, (Heap.obs_append_left h2 _ n (hpos n hn)).1]
            · rw [c3]; simp [Heap.tokOf]; exact hbe
            · rw [c3]; simp [Heap.tokOf]; exact hne
            · intro h; have := hpos _ h; simp at this
            · intro h; have := hpos _ h; simp only [List.length_append] at this; omega

/-- A rule without `$`. -/
theorem RuleTree.oneEol {tr : Traits} {m : CharsetMap} {h : Heap} {b : Bool} {root : Tree} {f : Nat}
    {d : NodeData} {K : List Sym → Prop} (H : RuleTree tr m h b false root f d K) (hids : IdsOk tr m)
    (hnpos : 2 < tr.npos) : OneEol tr h root := by
  apply OneEol.of_none
  intro n hn h
  rcases H.toks n hn _ h with h | ⟨_, h⟩ | ⟨h, _⟩ | ⟨c, hc, h⟩
  · simp only [Traits.nullToken, Traits.eolToken] at h; omega
  · simp only [Traits.bolToken, Traits.eolToken] at h; omega
  · cases h
  · have := hids.small c hc
    simp only [Traits.eolToken] at h; omega

theorem OneEol.ext {tr : Traits} {h h' : Heap} {t : Tree} (H : OneEol tr h t) (he : ∃ x, h' = h ++ x)
    (hl : ∀ n ∈ t.pos, n < h.length) : OneEol tr h' t := by
  obtain ⟨x, rfl⟩ := he
  exact H.congr fun n hn => (Heap.obs_append_left h _ n (hl n hn)).1

/-- Everything about `$` in one rule. -/
theorem parse_oneEol {tr : Traits} {W : Option Re → List Sym → Prop} {cost : Token → Nat} {p p' : PState} {regex : List Tok} {r : Option Re}
    {info : RuleInfo} {seenBol : Bool} {root : Tree} {f n : Nat} {K : List Sym → Prop} {d : NodeData}
    (hnpos : 2 < tr.npos) (hd : Denotes regex r) (hp : p.trees = []) (hl : EolLast tr r)
    (he : PState.parse tr p regex info seenBol = .ok (p', root)) (hids : IdsOk tr p'.charsets)
    (hg : Grows tr n p.charsets p'.charsets) (hcr : rNoEol r = true → p'.crId = p.crId ∧ p'.nlId = p.nlId) {b : Bool}
    (hT : RuleTree tr p'.charsets p'.heap b (!rNoEol r) root f d K) :
    (CrIn p → CrIn p') ∧ (rNoEol r ≠ true → CrIn p') ∧ OneEol tr p'.heap root := by
  rcases hl with hl | ⟨l, rfl, hl⟩
  · obtain ⟨h1, h2⟩ := hcr hl
    refine ⟨?_, fun h => absurd hl h, ?_⟩
    · unfold CrIn
      rw [h1, h2]
      exact fun h0 => ⟨hg.sub _ h0.1, hg.sub _ h0.2⟩
    · rw [hl] at hT
      exact RuleTree.oneEol hT hids hnpos
  · obtain ⟨h1, h2⟩ := parse_eol tr p p' regex l info seenBol root hnpos hd hp (hl p) he hids
    exact ⟨fun _ => h1, fun _ => h1, h2⟩

end Lexertl
