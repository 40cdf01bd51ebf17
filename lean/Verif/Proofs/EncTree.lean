import Verif.Proofs.EolTree
import Verif.Spec.Enclosed

/-
The syntax trees built for rules of the form "opening text, any characters
non-greedily, closing text": the tree has the shape of the expression, the leaves of
the repeated part are non-greedy and the other ones greedy.
-/
namespace Lexertl
open Spec
namespace Enc

/-- Tree of an expression for one character; all leaves have greediness `g`. -/
def SetShape (cs : CharsetMap) (h : Heap) (g : Greedy) : Re → Tree → Prop
  | .chars t, .leaf n b => b = false ∧ ∃ id, (t, id) ∈ cs ∧ h.tokOf n = some id ∧ h.greedyOf n = some g
  | .alt l r, .sel a b => SetShape cs h g l a ∧ SetShape cs h g r b
  | _, _ => False

/-- Tree of a sequence of charsets and non-greedily repeated characters. -/
def Shape (cs : CharsetMap) (h : Heap) : Re → Tree → Prop
  | .chars t, a => SetShape cs h .yes (.chars t) a
  | .seq l r, .seq a b => Shape cs h l a ∧ Shape cs h r b
  | .star s true, .iter a _ => SetShape cs h .no s a
  | _, _ => False

/-- Expressions `Shape` is about. -/
def Plain : Re → Prop
  | .chars _ => True
  | .seq l r => Plain l ∧ Plain r
  | .star s lz => lz = true ∧ ∃ ss, s.sets = some ss
  | _ => False

theorem SetShape.congr {cs cs' : CharsetMap} {h h' : Heap} {g : Greedy} (hc : ∀ c ∈ cs, c ∈ cs') :
    ∀ {r : Re} {t : Tree}, SetShape cs h g r t →
    (∀ n ∈ t.pos, h'.tokOf n = h.tokOf n ∧ h'.greedyOf n = h.greedyOf n) → SetShape cs' h' g r t := by
  intro r
  induction r with
  | chars t =>
    intro a H ho
    cases a with
    | leaf n b =>
      obtain ⟨h0, id, h1, h2, h3⟩ := H
      obtain ⟨k1, k2⟩ := ho n (by simp [Tree.pos])
      exact ⟨h0, id, hc _ h1, k1.trans h2, k2.trans h3⟩
    | _ => exact H.elim
  | alt l r ihl ihr =>
    intro a H ho
    cases a with
    | sel a b =>
      exact ⟨ihl H.1 fun n hn => ho n (by simp [Tree.pos, hn]), ihr H.2 fun n hn => ho n (by simp [Tree.pos, hn])⟩
    | _ => exact H.elim
  | _ => intro a H; exact H.elim

theorem Shape.congr {cs cs' : CharsetMap} {h h' : Heap} (hc : ∀ c ∈ cs, c ∈ cs') :
    ∀ {r : Re} {t : Tree}, Shape cs h r t →
    (∀ n ∈ t.pos, h'.tokOf n = h.tokOf n ∧ h'.greedyOf n = h.greedyOf n) → Shape cs' h' r t := by
  intro r
  induction r with
  | chars t => intro a H ho; exact SetShape.congr hc H ho
  | seq l r ihl ihr =>
    intro a H ho
    cases a with
    | seq a b =>
      exact ⟨ihl H.1 fun n hn => ho n (by simp [Tree.pos, hn]), ihr H.2 fun n hn => ho n (by simp [Tree.pos, hn])⟩
    | _ => exact H.elim
  | star s lz =>
    intro a H ho
    cases lz with
    | false => cases a <;> exact H.elim
    | true =>
      cases a with
      | iter a g => exact SetShape.congr (t := a) hc H ho
      | _ => exact H.elim
  | _ => intro a H; exact H.elim

theorem not_greedy {r : Re} (h : Enclosed r) : r.greedy = false := by
  obtain ⟨us, vs, ss, s, _, _, _, hp, _⟩ := h
  have hm : Re.star s true ∈ r.parts := by rw [hp]; simp
  have : ∀ r : Re, Re.star s true ∈ r.parts → r.greedy = false := by
    intro r
    induction r with
    | seq l r ihl ihr =>
      intro h
      rcases List.mem_append.1 h with h | h
      · simp [Re.greedy, ihl h]
      · simp [Re.greedy, ihr h]
    | star r lz => intro h; simp [Re.parts] at h; simp [Re.greedy, ← h.2]
    | _ => intro h; simp [Re.parts] at h
  exact this r hm

/-- The old part of the heap keeps tokens and greediness. -/
def Keeps (h h' : Heap) : Prop := h.length ≤ h'.length ∧
  ∀ n, n < h.length → h'.tokOf n = h.tokOf n ∧ h'.greedyOf n = h.greedyOf n

theorem Keeps.trans {a b c : Heap} (h1 : Keeps a b) (h2 : Keeps b c) : Keeps a c :=
  ⟨Nat.le_trans h1.1 h2.1, fun n hn =>
    ⟨(h2.2 n (by have := h1.1; omega)).1.trans (h1.2 n hn).1, (h2.2 n (by have := h1.1; omega)).2.trans (h1.2 n hn).2⟩⟩

theorem Keeps.append (h e : Heap) : Keeps h (h ++ e) :=
  ⟨by simp, fun n hn => ⟨(Heap.obs_append_left h e n hn).1, (Heap.obs_append_left h e n hn).2.1⟩⟩

theorem appendFollow_keeps {h h' : Heap} {n : Nat} {fp : List Nat} (e : h.appendFollow n fp = .ok h') :
    (∀ k, h'.tokOf k = h.tokOf k ∧ h'.greedyOf k = h.greedyOf k) ∧ h'.length = h.length := by
  unfold Heap.appendFollow at e
  split at e
  · cases e
  · rename_i c hn
    split at e
    · cases e
      refine ⟨fun k => ?_, by simp⟩
      unfold Heap.tokOf Heap.greedyOf
      by_cases hk : n = k
      · subst hk
        rw [List.getElem?_set_self (List.getElem?_eq_some_iff.1 hn).1, hn]
        cases c with
        | mk d f => cases d <;> exact ⟨rfl, rfl⟩
      · rw [List.getElem?_set_ne hk]; exact ⟨rfl, rfl⟩
    · cases e

theorem appendFollowAll_keeps (ns fp : List Nat) : ∀ {h h' : Heap}, h.appendFollowAll ns fp = .ok h' →
    (∀ k, h'.tokOf k = h.tokOf k ∧ h'.greedyOf k = h.greedyOf k) ∧ h'.length = h.length := by
  induction ns with
  | nil => intro h h' e; cases e; exact ⟨fun _ => ⟨rfl, rfl⟩, rfl⟩
  | cons n ns ih =>
    intro h h' e
    simp only [Heap.appendFollowAll] at e
    cases h1 : h.appendFollow n fp with
    | error x => rw [h1] at e; cases e
    | ok h2 =>
      rw [h1] at e
      obtain ⟨a, b⟩ := ih (h := h2) e
      obtain ⟨c, d⟩ := appendFollow_keeps h1
      exact ⟨fun k => ⟨(a k).1.trans (c k).1, (a k).2.trans (c k).2⟩, b.trans d⟩

theorem newSeq_keeps {h h' : Heap} {l r t : Tree} (e : h.newSeq l r = .ok (h', t)) :
    ((∀ n, h'.tokOf n = h.tokOf n ∧ h'.greedyOf n = h.greedyOf n) ∧ h'.length = h.length) ∧ t = .seq l r := by
  unfold Heap.newSeq at e
  cases h1 : h.appendFollowAll l.lastpos r.firstpos with
  | error x => rw [h1] at e; cases e
  | ok h2 =>
    rw [h1] at e
    cases e
    exact ⟨appendFollowAll_keeps _ _ h1, rfl⟩

/-- Every leaf of the tree of an expression for one character can be first. -/
theorem SetShape.first {cs : CharsetMap} {h : Heap} {g : Greedy} :
    ∀ {r : Re} {t : Tree}, SetShape cs h g r t → t.firstpos = t.pos ∧ t.lastpos = t.pos ∧ t.nullable = false ∧
      (∀ n, t.follow n = []) ∧ t.pos ≠ [] := by
  intro r
  induction r with
  | chars t =>
    intro a H
    cases a with
    | leaf n b => obtain ⟨rfl, _⟩ := H; simp [Tree.firstpos, Tree.lastpos, Tree.pos, Tree.nullable, Tree.follow]
    | _ => exact H.elim
  | alt l r ihl ihr =>
    intro a H
    cases a with
    | sel a b =>
      obtain ⟨a1, a2, a3, a4, a5⟩ := ihl H.1
      obtain ⟨b1, b2, b3, b4, b5⟩ := ihr H.2
      simp [Tree.firstpos, Tree.lastpos, Tree.pos, Tree.nullable, Tree.follow, a1, a2, a3, a4, b1, b2, b3, b4, a5]
    | _ => exact H.elim
  | _ => intro a H; exact H.elim

/-- The leaves become non-greedy. -/
theorem SetShape.lazy {cs : CharsetMap} {h h' : Heap} : ∀ {r : Re} {t : Tree}, SetShape cs h .yes r t →
    (∀ n ∈ t.pos, h'.tokOf n = h.tokOf n ∧ h'.greedyOf n = (h.greedyOf n).map (Heap.upd · .no)) →
    SetShape cs h' .no r t := by
  intro r
  induction r with
  | chars t =>
    intro a H ho
    cases a with
    | leaf n b =>
      obtain ⟨h0, id, h1, h2, h3⟩ := H
      obtain ⟨k1, k2⟩ := ho n (by simp [Tree.pos])
      exact ⟨h0, id, h1, k1.trans h2, by rw [k2, h3]; rfl⟩
    | _ => exact H.elim
  | alt l r ihl ihr =>
    intro a H ho
    cases a with
    | sel a b =>
      exact ⟨ihl H.1 fun n hn => ho n (by simp [Tree.pos, hn]), ihr H.2 fun n hn => ho n (by simp [Tree.pos, hn])⟩
    | _ => exact H.elim
  | _ => intro a H; exact H.elim

theorem SetShape.tok {cs : CharsetMap} {h : Heap} {g : Greedy} : ∀ {r : Re} {t : Tree}, SetShape cs h g r t →
    ∀ n ∈ t.pos, ∃ tk, h.tokOf n = some tk := by
  intro r
  induction r with
  | chars t =>
    intro a H n hn
    cases a with
    | leaf n b =>
      obtain ⟨h0, id, h1, h2, h3⟩ := H
      simp [Tree.pos] at hn; subst hn
      exact ⟨_, h2⟩
    | _ => exact H.elim
  | alt l r ihl ihr =>
    intro a H n hn
    cases a with
    | sel a b =>
      simp only [Tree.pos, List.mem_append] at hn
      rcases hn with hn | hn
      · exact ihl H.1 n hn
      · exact ihr H.2 n hn
    | _ => exact H.elim
  | _ => intro a H; exact H.elim

/-- What an action for `r` leaves behind. -/
def Left (T : CharsetMap → Heap → Tree → Prop) (p p' : PState) : Prop :=
  ∃ t, p'.trees = t :: p.trees ∧ Keeps p.heap p'.heap ∧ (∀ n ∈ t.pos, p.heap.length ≤ n ∧ n < p'.heap.length) ∧
    (∀ c ∈ p.charsets, c ∈ p'.charsets) ∧ T p'.charsets p'.heap t

theorem act_chars (tr : Traits) (hc : tr.compressed = false) (t : Token) (p p' : PState)
    (e : PState.act tr (.chars t) p = .ok p') (hn : ∀ c ∈ p'.charsets, c.2 ≠ tr.nullToken) :
    Left (fun cs h a => SetShape cs h .yes (.chars t) a) p p' := by
  obtain ⟨h1, h2⟩ := PState.lookup_spec tr p t
  have h3 : p.pushRange tr t = ((p.lookup tr t).1).pushLeaf tr (p.lookup tr t).2 .yes := rfl
  simp only [PState.act, hc, Bool.false_eq_true, if_false] at e
  rw [h3, h1] at e
  cases e
  have hne := hn _ h2
  refine ⟨.leaf p.heap.length ((p.lookup tr t).2 == tr.nullToken), rfl, Keeps.append _ _, ?_, ?_, ?_⟩
  · intro n hm
    simp [Tree.pos] at hm
    subst hm
    simp [PState.pushLeaf, Heap.newLeaf]
  · exact csLookup_sub tr _ _
  · refine ⟨beq_eq_false_iff_ne.2 hne, _, h2, ?_, ?_⟩
    · simp [PState.pushLeaf, Heap.newLeaf, Heap.tokOf]
    · simp [PState.pushLeaf, Heap.newLeaf, Heap.greedyOf]

theorem act_set (tr : Traits) (hc : tr.compressed = false) : ∀ (r : Re) (ss : List Token), r.sets = some ss →
    ∀ (p p' : PState), PState.act tr r p = .ok p' → (∀ c ∈ p'.charsets, c.2 ≠ tr.nullToken) →
    Left (fun cs h a => SetShape cs h .yes r a) p p' := by
  intro r
  induction r with
  | chars t => intro ss _ p p' e hn; exact act_chars tr hc t p p' e hn
  | alt l r ihl ihr =>
    intro ss hs p p' e hn
    cases hl : l.sets with
    | none => simp [Re.sets, hl] at hs
    | some sl =>
      cases hr : r.sets with
      | none => simp [Re.sets, hl, hr] at hs
      | some sr =>
        simp only [PState.act, bind, Except.bind] at e
        cases e1 : PState.act tr l p with
        | error x => rw [e1] at e; cases e
        | ok p1 =>
          rw [e1] at e
          simp only at e
          cases e2 : PState.act tr r p1 with
          | error x => rw [e2] at e; cases e
          | ok p2 =>
            rw [e2] at e
            simp only [PState.performOr] at e
            have hcs : p'.charsets = p2.charsets := by
              split at e
              · cases e; rfl
              · cases e
            rw [hcs] at hn
            obtain ⟨b, b1, b2, b3, b4, b5⟩ := ihr sr hr p1 p2 e2 hn
            obtain ⟨a, a1, a2, a3, a4, a5⟩ := ihl sl hl p p1 e1 fun c h => hn c (b4 c h)
            rw [b1, a1] at e
            simp only [Except.ok.injEq] at e
            subst e
            refine ⟨.sel a b, rfl, a2.trans b2, ?_, fun c h => b4 c (a4 c h), ?_, b5⟩
            · intro n h
              simp only [Tree.pos, List.mem_append] at h
              have := a2.1
              have := b2.1
              rcases h with h | h
              · have := a3 n h; exact ⟨this.1, by show n < p2.heap.length; omega⟩
              · have := b3 n h; exact ⟨by omega, this.2⟩
            · exact SetShape.congr b4 a5 fun n h => b2.2 n (a3 n h).2
  | _ => intro ss hs; simp [Re.sets] at hs

/-- The tree has the shape of the expression. -/
theorem act_shape (tr : Traits) (hc : tr.compressed = false) : ∀ (r : Re), Plain r →
    ∀ (p p' : PState), PState.act tr r p = .ok p' → (∀ c ∈ p'.charsets, c.2 ≠ tr.nullToken) →
    Left (fun cs h a => Shape cs h r a) p p' := by
  intro r
  induction r with
  | chars t => intro _ p p' e hn; exact act_chars tr hc t p p' e hn
  | seq l r ihl ihr =>
    intro hs p p' e hn
    simp only [PState.act, bind, Except.bind] at e
    cases e1 : PState.act tr l p with
    | error x => rw [e1] at e; cases e
    | ok p1 =>
      rw [e1] at e
      simp only at e
      cases e2 : PState.act tr r p1 with
      | error x => rw [e2] at e; cases e
      | ok p2 =>
        rw [e2] at e
        simp only [PState.sequence, bind, Except.bind] at e
        have hcs : p'.charsets = p2.charsets := by
          split at e
          · split at e
            · cases e
            · cases e; rfl
          · cases e
        rw [hcs] at hn
        obtain ⟨b, b1, b2, b3, b4, b5⟩ := ihr hs.2 p1 p2 e2 hn
        obtain ⟨a, a1, a2, a3, a4, a5⟩ := ihl hs.1 p p1 e1 fun c h => hn c (b4 c h)
        rw [b1, a1] at e
        simp only at e
        cases e3 : p2.heap.newSeq a b with
        | error x => rw [e3] at e; cases e
        | ok y =>
          obtain ⟨h', t'⟩ := y
          rw [e3] at e
          simp only [Except.ok.injEq] at e
          subst e
          obtain ⟨⟨k1, k2⟩, rfl⟩ := newSeq_keeps e3
          refine ⟨.seq a b, rfl, (a2.trans b2).trans ⟨by show _ ≤ h'.length; omega, fun n _ => k1 n⟩, ?_,
            fun c h => b4 c (a4 c h), ?_, ?_⟩
          · intro n h
            simp only [Tree.pos, List.mem_append] at h
            have := a2.1
            have := b2.1
            rcases h with h | h
            · have := a3 n h; exact ⟨this.1, by show n < h'.length; omega⟩
            · have := b3 n h; exact ⟨by omega, by show n < h'.length; omega⟩
          · refine Shape.congr b4 a5 fun n h => ?_
            have := b2.2 n (a3 n h).2
            exact ⟨(k1 n).1.trans this.1, (k1 n).2.trans this.2⟩
          · exact Shape.congr (fun _ h => h) b5 fun n _ => k1 n
  | star s lz ih =>
    intro hs p p' e hn
    obtain ⟨rfl, ss, hs⟩ := hs
    simp only [PState.act, bind, Except.bind] at e
    cases e1 : PState.act tr s p with
    | error x => rw [e1] at e; cases e
    | ok p1 =>
      rw [e1] at e
      simp only [PState.zeroOrMore, bind, Except.bind] at e
      have hcs : p'.charsets = p1.charsets := by
        split at e
        · split at e
          · cases e
          · cases e; rfl
        · cases e
      rw [hcs] at hn
      obtain ⟨a, a1, a2, a3, a4, a5⟩ := act_set tr hc s ss hs p p1 e1 hn
      rw [a1] at e
      simp only [Heap.newIter, bind, Except.bind, pure, Except.pure] at e
      cases e2 : p1.heap.appendFollowAll a.lastpos a.firstpos with
      | error x => rw [e2] at e; cases e
      | ok h1 =>
        rw [e2] at e
        simp only at e
        obtain ⟨k1, k2⟩ := appendFollowAll_keeps _ _ e2
        obtain ⟨f1, f2, f3, f4, f5⟩ := a5.first
        obtain ⟨h2, g1, g2, g3, g4⟩ := Heap.setGreedyAll_spec a.firstpos .no h1 fun n hn => by
          rw [f1] at hn
          rw [(k1 n).1]; exact a5.tok n hn
        have : PState.opGreedy true = .no := rfl
        rw [this, g1] at e
        simp only [Except.ok.injEq] at e
        subst e
        rw [f1] at g4
        refine ⟨.iter a .no, rfl, ⟨?_, fun n hn => ?_⟩, ?_, a4, ?_⟩
        · have := a2.1; show _ ≤ h2.length; omega
        · have hm : n ∉ a.pos := fun h => by have := a3 n h; omega
          exact ⟨((g3 n).1.trans (k1 n).1).trans (a2.2 n hn).1, by
            rw [g4, if_neg hm]; exact (k1 n).2.trans (a2.2 n hn).2⟩
        · intro n hn
          have := a3 n hn
          exact ⟨this.1, by show n < h2.length; omega⟩
        · refine SetShape.lazy a5 fun n hn => ⟨(g3 n).1.trans (k1 n).1, ?_⟩
          rw [g4, if_pos hn, (k1 n).2]
  | _ => intro hs; exact hs.elim

theorem plain_of_parts : ∀ (r : Re), (∀ q ∈ r.parts, Plain q) → Plain r := by
  intro r
  induction r with
  | seq l r ihl ihr =>
    intro h
    exact ⟨ihl fun q hq => h q (by simp [Re.parts, hq]), ihr fun q hq => h q (by simp [Re.parts, hq])⟩
  | _ => intro h; exact h _ (by simp [Re.parts])

theorem Enclosed.plainRe {r : Re} (h : Enclosed r) : Plain r := by
  obtain ⟨us, vs, ss, s, _, _, h1, h2, _⟩ := h
  apply plain_of_parts
  intro q hq
  rw [h2] at hq
  simp only [List.mem_append, List.mem_cons, List.mem_map] at hq
  rcases hq with ⟨t, _, rfl⟩ | rfl | ⟨t, _, rfl⟩
  · trivial
  · exact ⟨rfl, ss, h1⟩
  · trivial

/-- Tree of a rule: the expression, then the end node. -/
def EncTree (cs : CharsetMap) (h : Heap) (r : Re) (t : Tree × Nat) : Prop :=
  ∃ body, t.1 = .seq body (.fin t.2) ∧ Shape cs h r body

theorem EncTree.ext {cs cs' : CharsetMap} {h h' : Heap} {r : Re} {t : Tree × Nat} (H : EncTree cs h r t)
    (hc : ∀ c ∈ cs, c ∈ cs') (he : ∃ x, h' = h ++ x) (hl : ∀ n ∈ t.1.pos, n < h.length) : EncTree cs' h' r t := by
  obtain ⟨body, h1, h2⟩ := H
  obtain ⟨x, rfl⟩ := he
  refine ⟨body, h1, Shape.congr hc h2 fun n hn => ?_⟩
  have := Heap.obs_append_left h x n (hl n (by rw [h1]; simp [Tree.pos, hn]))
  exact ⟨this.1, this.2.1⟩

theorem parse_act_ok {tr : Traits} {p p' : PState} {regex : List Tok} {r : Re} {info : RuleInfo} {seenBol : Bool}
    {root : Tree} (hd : Denotes regex (some r)) (he : PState.parse tr p regex info seenBol = .ok (p', root)) :
    ∃ p1, PState.act tr r p = .ok p1 := by
  cases hact : PState.act tr r p with
  | ok p1 => exact ⟨p1, rfl⟩
  | error x =>
    exfalso
    cases hd with
    | re b e ts r hb he' h =>
      have hl : PState.loop tr (16 * (b :: ts ++ [e]).length + 16) p [b] (ts ++ [e]) = .error x := by
        rw [PState.parseLoop_derives tr ts _ h b e hb he' p _ (by simp; omega), hact]
      cases ts with
      | nil =>
        have he2 : PState.parse tr p (b :: e :: []) info seenBol = .ok (p', root) := he
        rw [parse_eq] at he2
        have hl' : PState.loop tr (16 * (b :: e :: [] : List Tok).length + 16) p [b] [e] = .error x := hl
        rw [hl'] at he2; cases he2
      | cons t1 ts =>
        have he2 : PState.parse tr p (b :: t1 :: (ts ++ [e])) info seenBol = .ok (p', root) := he
        rw [parse_eq] at he2
        have hl' : PState.loop tr (16 * (b :: t1 :: (ts ++ [e])).length + 16) p [b]
          (t1 :: (ts ++ [e])) = .error x := hl
        rw [hl'] at he2; cases he2

/-- The tree made for a rule of this form. -/
theorem parse_shape {tr : Traits} (hc : tr.compressed = false) {p p' : PState} {regex : List Tok} {r : Re}
    {info : RuleInfo} {root : Tree} {f : Nat} (hd : Denotes regex (some r)) (hp : p.trees = [])
    (hr : Enclosed r) (he : PState.parse tr p regex info false = .ok (p', root))
    (hn : ∀ c ∈ p'.charsets, c.2 ≠ tr.nullToken) (hlast : root.lastpos = [f]) :
    EncTree p'.charsets p'.heap r (root, f) := by
  obtain ⟨p1, ha⟩ := parse_act_ok hd he
  obtain ⟨g, hw⟩ := parse_act tr p p1 regex r info false hd ha
  rw [he] at hw
  simp only [wrapUp, bind, Except.bind, Bool.false_eq_true, if_false] at hw
  cases hf : p1.finish info g with
  | error x => rw [hf] at hw; cases hw
  | ok y =>
    rw [hf] at hw
    have hw : (p', root) = y := by injection hw
    subst hw
    have hcs : p'.charsets = p1.charsets := by
      unfold PState.finish at hf
      dsimp only at hf
      split at hf
      · cases hf; rfl
      · simp only [bind, Except.bind] at hf
        split at hf
        · cases hf
        · cases hf; rfl
      · cases hf
    rw [hcs] at hn
    obtain ⟨t, t1, t2, t3, t4, t5⟩ := act_shape tr hc r (Enclosed.plainRe hr) p p1 ha hn
    rw [hp] at t1
    unfold PState.finish at hf
    rw [t1] at hf
    simp only [bind, Except.bind] at hf
    cases hs : Heap.newSeq (p1.heap ++ [⟨.fin info.id info.userId info.uniqueId info.nextDfa info.pushDfa
        info.popDfa g, []⟩]) t (.fin p1.heap.length) with
    | error x => rw [hs] at hf; cases hf
    | ok z =>
      obtain ⟨h', root'⟩ := z
      obtain ⟨⟨k1, k2⟩, rfl⟩ := newSeq_keeps hs
      rw [hs] at hf
      simp only [Except.ok.injEq, Prod.mk.injEq] at hf
      obtain ⟨hf1, hf2⟩ := hf
      subst hf1; subst hf2
      simp only [Tree.lastpos, Tree.nullable, Bool.false_eq_true, if_false, List.nil_append, List.cons.injEq, and_true] at hlast
      subst hlast
      refine ⟨t, rfl, Shape.congr (fun _ h => h) t5 fun n hn => ?_⟩
      have := Heap.obs_append_left p1.heap [⟨.fin info.id info.userId info.uniqueId info.nextDfa info.pushDfa
        info.popDfa g, []⟩] n (t3 n hn).2
      exact ⟨(k1 n).1.trans this.1, (k1 n).2.trans this.2.1⟩

end Enc
end Lexertl
