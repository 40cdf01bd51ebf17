import Verif.Proofs.Table

/-
What the parser puts into end nodes: they are made only by `finish` and never changed.
-/
namespace Lexertl

/-- `P` holds of the data of every node. -/
def HeapAll (P : NodeData → Prop) (h : Heap) : Prop := ∀ c ∈ h, P c.data

variable {P : NodeData → Prop} (hP : ∀ t g, P (.leaf t g))

theorem HeapAll.snoc {h : Heap} (H : HeapAll P h) {c : Cell} (hc : P c.data) : HeapAll P (h ++ [c]) := by
  intro x hx
  rcases List.mem_append.1 hx with h1 | h1
  · exact H x h1
  · rw [List.mem_singleton.1 h1]; exact hc

theorem HeapAll.set {h : Heap} (H : HeapAll P h) {n : Nat} {c : Cell} (hc : P c.data) : HeapAll P (h.set n c) := by
  intro x hx
  rcases List.mem_or_eq_of_mem_set hx with h1 | h1
  · exact H x h1
  · rw [h1]; exact hc

theorem HeapAll.get {h : Heap} (H : HeapAll P h) {n : Nat} {c : Cell} (hc : h[n]? = some c) : P c.data :=
  H c (List.mem_of_getElem? hc)

theorem appendFollow_all {h h' : Heap} {n : Nat} {fp : List Nat} (H : HeapAll P h)
    (e : h.appendFollow n fp = .ok h') : HeapAll P h' := by
  unfold Heap.appendFollow at e
  split at e
  · cases e
  · rename_i c hc
    split at e
    · cases e
      exact H.set (show P c.data from H.get hc)
    · cases e

theorem appendFollowAll_all (ns : List Nat) : ∀ {h h' : Heap} {fp : List Nat}, HeapAll P h →
    h.appendFollowAll ns fp = .ok h' → HeapAll P h' := by
  induction ns with
  | nil => intro h h' fp H e; cases e; exact H
  | cons n ns ih =>
    intro h h' fp H e
    obtain ⟨h1, e1, e2⟩ := bind_ok e
    exact ih (appendFollow_all H e1) e2

include hP

theorem setGreedy_all {h h' : Heap} {n : Nat} {g : Greedy} (H : HeapAll P h)
    (e : h.setGreedy n g = .ok h') : HeapAll P h' := by
  unfold Heap.setGreedy at e
  split at e
  · cases e
  · rename_i c hc
    split at e
    · cases e
      exact H.set (hP _ _)
    · cases e

theorem setGreedyAll_all (ns : List Nat) : ∀ {h h' : Heap} {g : Greedy}, HeapAll P h →
    h.setGreedyAll ns g = .ok h' → HeapAll P h' := by
  induction ns with
  | nil => intro h h' fp H e; cases e; exact H
  | cons n ns ih =>
    intro h h' fp H e
    obtain ⟨h1, e1, e2⟩ := bind_ok e
    exact ih (setGreedy_all hP H e1) e2

theorem newLeaf_all {h : Heap} {t : Nat} {g : Greedy} (H : HeapAll P h) : HeapAll P (h ++ [⟨.leaf t g, []⟩]) :=
  H.snoc (hP _ _)

omit hP in
theorem newSeq_all {h h' : Heap} {l r t : Tree} (H : HeapAll P h) (e : h.newSeq l r = .ok (h', t)) : HeapAll P h' := by
  obtain ⟨h1, e1, e2⟩ := bind_ok e
  cases e2
  exact appendFollowAll_all _ H e1

theorem newIter_all {h h' : Heap} {l t : Tree} {g : Greedy} (H : HeapAll P h) (e : h.newIter l g = .ok (h', t)) :
    HeapAll P h' := by
  obtain ⟨h1, e1, e2⟩ := bind_ok e
  obtain ⟨h2, e3, e4⟩ := bind_ok e2
  cases e4
  exact setGreedyAll_all hP _ (appendFollowAll_all _ H e1) e3

theorem copyNode_all {nt : Nat} {s s' : CopyState} {top : Tree} {rest : List Tree} (H : HeapAll P s.heap)
    (e : s.copyNode nt top rest = .ok s') : HeapAll P s'.heap := by
  unfold CopyState.copyNode at e
  split at e
  · split at e
    · cases e; exact newLeaf_all hP H
    · cases e
  · cases e; exact H
  · split at e
    · cases e
    · split at e
      · obtain ⟨⟨h1, t⟩, e1, e2⟩ := bind_ok e
        cases e2
        exact newSeq_all H e1
      · cases e
    · cases e; exact H
  · split at e
    · cases e
    · split at e
      · cases e; exact H
      · cases e
    · cases e; exact H
  · split at e
    · cases e
    · split at e
      · obtain ⟨⟨h1, t⟩, e1, e2⟩ := bind_ok e
        cases e2
        exact newIter_all hP H e1
      · cases e
    · cases e; exact H

omit hP in
theorem traverse_heap {s s' : CopyState} (e : s.traverse = .ok s') : s'.heap = s.heap := by
  unfold CopyState.traverse at e
  split at e <;> cases e <;> rfl

theorem run_all {nt : Nat} (fuel : Nat) : ∀ {s s' : CopyState}, HeapAll P s.heap →
    CopyState.run nt fuel s = .ok s' → HeapAll P s'.heap := by
  induction fuel with
  | zero => intro s s' _ e; cases e
  | succ fuel ih =>
    intro s s' H e
    unfold CopyState.run at e
    split at e
    · obtain ⟨s1, e1, e2⟩ := bind_ok e
      exact ih (by rw [traverse_heap e1]; exact H) e2
    · split at e
      · cases e; exact H
      · obtain ⟨s1, e1, e2⟩ := bind_ok e
        exact ih (copyNode_all hP H e1) e2

theorem copy_all {nt : Nat} {h h' : Heap} {t t' : Tree} (H : HeapAll P h) (e : h.copy nt t = .ok (h', t')) :
    HeapAll P h' := by
  obtain ⟨s, e1, e2⟩ := bind_ok e
  split at e2
  · cases e2
    exact run_all hP _ (by exact H) e1
  · cases e2

namespace PState

omit hP in
theorem sequence_all {p p' : PState} (H : HeapAll P p.heap) (e : p.sequence = .ok p') : HeapAll P p'.heap := by
  unfold sequence at e
  split at e
  · obtain ⟨⟨h1, t⟩, e1, e2⟩ := bind_ok e
    cases e2
    exact newSeq_all H e1
  · cases e

omit hP in
theorem performOr_all {p p' : PState} (H : HeapAll P p.heap) (e : p.performOr = .ok p') : HeapAll P p'.heap := by
  unfold performOr at e
  split at e
  · cases e; exact H
  · cases e

theorem optional_all {tr : Traits} {p p' : PState} {g : Greedy} (H : HeapAll P p.heap) (e : p.optional tr g = .ok p') :
    HeapAll P p'.heap := by
  unfold optional at e
  split at e
  · obtain ⟨h1, e1, e2⟩ := bind_ok e
    cases e2
    exact newLeaf_all hP (setGreedyAll_all hP _ H e1)
  · cases e

theorem zeroOrMore_all {p p' : PState} {g : Greedy} (H : HeapAll P p.heap) (e : p.zeroOrMore g = .ok p') :
    HeapAll P p'.heap := by
  unfold zeroOrMore at e
  split at e
  · obtain ⟨⟨h1, t⟩, e1, e2⟩ := bind_ok e
    cases e2
    exact newIter_all hP H e1
  · cases e

theorem oneOrMore_all {tr : Traits} {p p' : PState} {g : Greedy} (H : HeapAll P p.heap) (e : p.oneOrMore tr g = .ok p') :
    HeapAll P p'.heap := by
  unfold oneOrMore at e
  split at e
  · obtain ⟨⟨h1, t⟩, e1, e⟩ := bind_ok e
    obtain ⟨⟨h2, t2⟩, e2, e⟩ := bind_ok e
    obtain ⟨⟨h3, t3⟩, e3, e⟩ := bind_ok e
    cases e
    exact newSeq_all (newIter_all hP (copy_all hP H e1) e2) e3
  · cases e

theorem appendCopy_all {tr : Traits} {p p' : PState} {t t' : Tree} (H : HeapAll P p.heap)
    (e : p.appendCopy tr t = .ok (p', t')) : HeapAll P p'.heap := by
  obtain ⟨⟨h1, t1⟩, e1, e⟩ := bind_ok e
  obtain ⟨p2, e2, e⟩ := bind_ok e
  cases e
  exact sequence_all (by exact copy_all hP H e1) e2

theorem appendCopies_all {tr : Traits} (n : Nat) : ∀ {p p' : PState} {t t' : Tree}, HeapAll P p.heap →
    appendCopies tr n p t = .ok (p', t') → HeapAll P p'.heap := by
  induction n with
  | zero => intro p p' t t' H e; cases e; exact H
  | succ n ih =>
    intro p p' t t' H e
    obtain ⟨⟨p1, t1⟩, e1, e⟩ := bind_ok e
    exact ih (appendCopy_all hP H e1) e

omit hP in
theorem onTop_all {p p' : PState} {t t' : Tree} {op : PState → M PState}
    (hop : ∀ q q', HeapAll P q.heap → op q = .ok q' → HeapAll P q'.heap) (H : HeapAll P p.heap)
    (e : p.onTop t op = .ok (p', t')) : HeapAll P p'.heap := by
  obtain ⟨p1, e1, e⟩ := bind_ok e
  have := hop _ _ (by exact H) e1
  split at e
  · cases e; exact this
  · cases e

theorem repeatTail_all {tr : Traits} {p p' : PState} {t t' : Tree} {g : Greedy} {min max : Nat} {comma : Bool}
    (H : HeapAll P p.heap) (e : p.repeatTail tr t g min comma max = .ok (p', t')) : HeapAll P p'.heap := by
  unfold repeatTail at e
  split at e
  · obtain ⟨⟨p1, t1⟩, e1, e⟩ := bind_ok e
    have H1 : HeapAll P p1.heap := by
      split at e1
      · exact appendCopy_all hP H e1
      · cases e1; exact H
    dsimp only at e
    split at e
    · obtain ⟨⟨p2, t2⟩, e2, e⟩ := bind_ok e
      exact appendCopies_all hP _ (onTop_all (fun q q' => optional_all hP) H1 e2) e
    · exact onTop_all (fun q q' => zeroOrMore_all hP) H1 e
  · cases e; exact H

theorem repeatCounts_all {tr : Traits} {p p' : PState} {g : Greedy} {min max : Nat} {comma : Bool}
    (H : HeapAll P p.heap) (e : p.repeatCounts tr g min comma max = .ok p') : HeapAll P p'.heap := by
  unfold repeatCounts at e
  split at e
  · cases e; exact H
  · obtain ⟨p1, e1, e⟩ := bind_ok e
    have H1 : HeapAll P p1.heap := by
      split at e1
      · exact optional_all hP H e1
      · cases e1; exact H
    dsimp only at e
    split at e
    · cases e
    · obtain ⟨⟨h2, t2⟩, e2, e⟩ := bind_ok e
      obtain ⟨⟨p3, t3⟩, e3, e⟩ := bind_ok e
      obtain ⟨⟨p4, t4⟩, e4, e⟩ := bind_ok e
      dsimp only at e2 e3 e4 e
      have H4 := repeatTail_all hP (appendCopies_all hP _ (by exact copy_all hP H1 e2) e3) e4
      exact sequence_all (by exact H4) e

omit hP in
theorem lookup_heap (tr : Traits) (p : PState) (t : Token) : (p.lookup tr t).1.heap = p.heap := by
  unfold lookup
  split <;> rfl

theorem pushRange_all {tr : Traits} {p : PState} {t : Token} (H : HeapAll P p.heap) :
    HeapAll P (p.pushRange tr t).heap := by
  unfold pushRange pushLeaf
  exact newLeaf_all hP (by rw [lookup_heap]; exact H)

theorem pushRow_all {tr : Traits} {p p' : PState} {ts : List Token} (H : HeapAll P p.heap)
    (e : p.pushRow tr ts = .ok p') : HeapAll P p'.heap := by
  unfold pushRow at e
  split at e
  · cases e
  · rename_i t ts
    have H1 := pushRange_all (tr := tr) (t := t) hP H
    generalize p.pushRange tr t = q at e H1
    induction ts generalizing q with
    | nil => cases e; exact H1
    | cons t ts ih =>
      rw [List.foldlM_cons] at e
      obtain ⟨q1, e1, e⟩ := bind_ok e
      exact ih _ e (sequence_all (pushRange_all hP H1) e1)

theorem pushRows_all {tr : Traits} {p p' : PState} {rows : Slices} (H : HeapAll P p.heap)
    (e : p.pushRows tr rows = .ok p') : HeapAll P p'.heap := by
  unfold pushRows at e
  split at e
  · cases e
  · rename_i row rows
    obtain ⟨q, e1, e2⟩ := bind_ok e
    have H1 := pushRow_all hP H e1
    clear e e1 H
    revert q
    induction rows with
    | nil => intro q e H1; cases e; exact H1
    | cons r rs ih =>
      intro q e H1
      rw [List.foldlM_cons] at e
      obtain ⟨q1, e1, e⟩ := bind_ok e
      obtain ⟨q2, e2, e1⟩ := bind_ok e1
      exact ih _ e (performOr_all (pushRow_all hP H1 e2) e1)

theorem reduceHandle_all {tr : Traits} {p p' : PState} {hd new : List Tok} (H : HeapAll P p.heap)
    (e : p.reduceHandle tr hd = .ok (p', new)) : HeapAll P p'.heap := by
  unfold reduceHandle at e
  split at e
  · cases e
  · split at e
    · cases e; exact H
    · cases e; exact H
    · cases e; exact H
    · obtain ⟨q, e1, e⟩ := bind_ok e; cases e; exact performOr_all H e1
    · cases e; exact H
    · cases e; exact H
    · obtain ⟨q, e1, e⟩ := bind_ok e; cases e; exact sequence_all H e1
    · cases e; exact H
    · cases e; exact H
    · cases e; exact H
    · cases e; exact newLeaf_all hP H
    · have H1 : HeapAll P (p.lookup tr (Token.ofChar 13)).1.heap := by rw [lookup_heap]; exact H
      generalize p.lookup tr (Token.ofChar 13) = y at e H1
      obtain ⟨q, cr⟩ := y
      dsimp only at e H1
      have H2 : HeapAll P (q.lookup tr (Token.ofChar 10)).1.heap := by rw [lookup_heap]; exact H1
      generalize q.lookup tr (Token.ofChar 10) = y at e H2
      obtain ⟨r, nl⟩ := y
      dsimp only at e H2
      cases e
      refine newLeaf_all hP ?_
      by_cases h1 : cr = tr.npos <;> by_cases h2 : nl = tr.npos <;>
        simp only [h1, h2, ne_eq, not_true_eq_false, not_false_eq_true, if_true, if_false] <;> exact H2
    · split at e
      · obtain ⟨q, e1, e⟩ := bind_ok e; cases e; exact pushRows_all hP H e1
      · cases e; exact pushRange_all hP H
    · cases e; exact H
    · obtain ⟨q, e1, e⟩ := bind_ok e; cases e; exact optional_all hP H e1
    · obtain ⟨q, e1, e⟩ := bind_ok e; cases e; exact optional_all hP H e1
    · obtain ⟨q, e1, e⟩ := bind_ok e; cases e; exact zeroOrMore_all hP H e1
    · obtain ⟨q, e1, e⟩ := bind_ok e; cases e; exact zeroOrMore_all hP H e1
    · obtain ⟨q, e1, e⟩ := bind_ok e; cases e; exact oneOrMore_all hP H e1
    · obtain ⟨q, e1, e⟩ := bind_ok e; cases e; exact oneOrMore_all hP H e1
    · obtain ⟨q, e1, e⟩ := bind_ok e; cases e; exact repeatCounts_all hP H e1
    · obtain ⟨q, e1, e⟩ := bind_ok e; cases e; exact repeatCounts_all hP H e1
    all_goals cases e

theorem parseLoop_all {tr : Traits} (fuel : Nat) : ∀ {p p' : PState} {toks rest : List Tok} {rhs : Tok},
    HeapAll P p.heap → parseLoop tr fuel p toks rhs rest = .ok p' → HeapAll P p'.heap := by
  induction fuel with
  | zero => intro p p' toks rest rhs _ e; cases e
  | succ fuel ih =>
    intro p p' toks rest rhs H e
    unfold parseLoop at e
    split at e
    · cases e; exact H
    · split at e
      · split at e
        · cases e
        · exact ih H e
        · exact ih H e
      · split at e
        · cases e
        · exact ih H e
        · exact ih H e
      · obtain ⟨⟨q, tk⟩, e1, e⟩ := bind_ok e
        obtain ⟨⟨hd, st⟩, e2, e1⟩ := bind_ok e1
        obtain ⟨⟨q', new⟩, e3, e1⟩ := bind_ok e1
        cases e1
        exact ih (reduceHandle_all hP H e3) e
      · cases e

/-- The tree of a rule is not nullable, and the end nodes are those there were and that of
the rule. -/
theorem parse_all {tr : Traits} {p p' : PState} {regex : List Tok} {info : RuleInfo} {b : Bool} {root : Tree}
    (H : HeapAll P p.heap)
    (hf : ∀ g, P (.fin info.id info.userId info.uniqueId info.nextDfa info.pushDfa info.popDfa g))
    (e : p.parse tr regex info b = .ok (p', root)) : HeapAll P p'.heap ∧ root.nullable = false := by
  unfold parse at e
  split at e
  · obtain ⟨p1, e1, e⟩ := bind_ok e
    have H1 := parseLoop_all hP _ H e1
    obtain ⟨⟨p2, r2⟩, e2, e⟩ := bind_ok e
    have H2 : HeapAll P p2.heap ∧ r2.nullable = false := by
      unfold finish at e2
      dsimp only at e2
      split at e2
      · cases e2; exact ⟨H1.snoc (hf _), rfl⟩
      · obtain ⟨⟨h3, t3⟩, e3, e2⟩ := bind_ok e2
        cases e2
        refine ⟨newSeq_all (H1.snoc (hf _)) e3, ?_⟩
        obtain ⟨_, _, e4⟩ := bind_ok e3
        cases e4
        simp [Tree.nullable]
      · cases e2
    dsimp only at e
    split at e
    · unfold fixupBol at e
      split at e
      · cases e; exact H2
      · obtain ⟨⟨h3, t3⟩, e3, e⟩ := bind_ok e
        cases e
        refine ⟨newSeq_all (newLeaf_all hP (newLeaf_all hP H2.1)) e3, ?_⟩
        obtain ⟨_, _, e4⟩ := bind_ok e3
        cases e4
        simp [Tree.nullable, H2.2]
    · cases e; exact H2
  · cases e

end PState

omit hP in
theorem Tree.first_of_not_nullable : ∀ (t : Tree), t.nullable = false → t.firstpos ≠ []
  | .leaf n null, h => by simp only [Tree.nullable] at h; simp [Tree.firstpos, h]
  | .fin n, _ => by simp [Tree.firstpos]
  | .seq l r, h => by
    simp only [Tree.nullable, Bool.and_eq_false_iff] at h
    simp only [Tree.firstpos]
    by_cases hl : l.nullable = true
    · have hr := h.resolve_left (by simp [hl])
      have := Tree.first_of_not_nullable r hr
      rw [if_pos hl]
      simp [this]
    · have := Tree.first_of_not_nullable l (by simpa using hl)
      simp [this]
  | .sel l r, h => by
    simp only [Tree.nullable, Bool.or_eq_false_iff] at h
    have := Tree.first_of_not_nullable l h.1
    simp [Tree.firstpos, this]
  | .iter t g, h => by simp [Tree.nullable] at h

theorem buildTreeRest_all {tr : Traits} {b : Bool} (rs : List Rule) : ∀ {p p' : PState} {root root' : Tree}
    {uid uid' : Nat}, HeapAll P p.heap → root.nullable = false →
    (∀ r ∈ rs, ∀ u g, P (.fin r.id r.userId u r.nextDfa r.pushDfa r.popDfa g)) →
    buildTreeRest tr b rs p root uid = .ok (p', root', uid') → HeapAll P p'.heap ∧ root'.nullable = false := by
  induction rs with
  | nil => intro p p' root root' uid uid' H hr _ e; cases e; exact ⟨H, hr⟩
  | cons r rs ih =>
    intro p p' root root' uid uid' H hr hf e
    obtain ⟨⟨p1, r1⟩, e1, e⟩ := bind_ok e
    obtain ⟨H1, n1⟩ := PState.parse_all hP H (fun g => hf r (by simp) _ g) e1
    exact ih H1 (by simp [Tree.nullable, hr, n1]) (fun r' h => hf r' (by simp [h])) e

theorem buildTree_all {tr : Traits} {b : Bool} {rs : List Rule} {h : Heap} {p' : PState} {root' : Tree}
    {uid uid' : Nat} (H : HeapAll P h)
    (hf : ∀ r ∈ rs, ∀ u g, P (.fin r.id r.userId u r.nextDfa r.pushDfa r.popDfa g))
    (e : buildTree tr b rs h uid = .ok (p', root', uid')) : HeapAll P p'.heap ∧ root'.nullable = false := by
  unfold buildTree at e
  split at e
  · cases e
  · rename_i r rs
    obtain ⟨⟨p1, r1⟩, e1, e⟩ := bind_ok e
    obtain ⟨H1, n1⟩ := PState.parse_all (p := ⟨h, [], tr.npos, tr.npos, []⟩) hP H (fun g => hf r (by simp) _ g) e1
    exact buildTreeRest_all hP rs H1 n1 (fun r' h => hf r' (by simp [h])) e

end Lexertl
