import Verif.Proofs.WellFormed
import Verif.Proofs.Null
import Verif.Spec.Features

/-
The features of a built machine say what is in its tables.

First part: what the parser puts into leaves.
-/
namespace Lexertl.Feat
open Spec

variable {tr : Traits}

section
variable {P : NodeData → Prop}
  (hP : (∀ g, P (.leaf tr.nullToken g)) ∧ ∀ t g g', P (.leaf t g) → P (.leaf t g'))

include hP

theorem setGreedy_all {h h' : Heap} {n : Nat} {g : Greedy} (H : HeapAll P h)
    (e : h.setGreedy n g = .ok h') : HeapAll P h' := by
  unfold Heap.setGreedy at e
  split at e
  · cases e
  · rename_i c hc
    split at e
    · rename_i t old hd
      cases e
      refine H.set (hP.2 t old _ ?_)
      have := H.get hc
      rwa [hd] at this
    · cases e

theorem setGreedyAll_all (ns : List Nat) : ∀ {h h' : Heap} {g : Greedy}, HeapAll P h →
    h.setGreedyAll ns g = .ok h' → HeapAll P h' := by
  induction ns with
  | nil => intro h h' fp H e; cases e; exact H
  | cons n ns ih =>
    intro h h' fp H e
    obtain ⟨h1, e1, e2⟩ := bind_ok e
    exact ih (setGreedy_all hP H e1) e2

omit hP in
theorem newLeaf_all {h : Heap} {t : Nat} {g : Greedy} (H : HeapAll P h) (ht : P (.leaf t g)) : HeapAll P (h ++ [⟨.leaf t g, []⟩]) :=
  H.snoc ht

omit hP in
theorem newSeq_all {h h' : Heap} {l r t : Tree} (H : HeapAll P h) (e : h.newSeq l r = .ok (h', t)) : HeapAll P h' := by
  obtain ⟨h1, e1, e2⟩ := bind_ok e
  cases e2
  exact appendFollowAll_all _ H e1

theorem newIter_all {h h' : Heap} {l t : Tree} {g : Greedy} (H : HeapAll P h) (e : h.newIter l g = .ok (h', t)) :
    HeapAll P h' := by
  obtain ⟨h1, e1, e2⟩ := bind_ok e
  obtain ⟨h2, e3, e4⟩ := bind_ok e2
  cases e4
  exact setGreedyAll_all hP _ (appendFollowAll_all _ H e1) e3

theorem copyNode_all {nt : Nat} {s s' : CopyState} {top : Tree} {rest : List Tree} (H : HeapAll P s.heap)
    (e : s.copyNode nt top rest = .ok s') : HeapAll P s'.heap := by
  unfold CopyState.copyNode at e
  split at e
  · split at e
    · rename_i hc
      cases e; exact newLeaf_all H (H.get hc)
    · cases e
  · cases e; exact H
  · split at e
    · cases e
    · split at e
      · obtain ⟨⟨h1, t⟩, e1, e2⟩ := bind_ok e
        cases e2
        exact newSeq_all H e1
      · cases e
    · cases e; exact H
  · split at e
    · cases e
    · split at e
      · cases e; exact H
      · cases e
    · cases e; exact H
  · split at e
    · cases e
    · split at e
      · obtain ⟨⟨h1, t⟩, e1, e2⟩ := bind_ok e
        cases e2
        exact newIter_all hP H e1
      · cases e
    · cases e; exact H

omit hP in
theorem traverse_heap {s s' : CopyState} (e : s.traverse = .ok s') : s'.heap = s.heap := by
  unfold CopyState.traverse at e
  split at e <;> cases e <;> rfl

theorem run_all {nt : Nat} (fuel : Nat) : ∀ {s s' : CopyState}, HeapAll P s.heap →
    CopyState.run nt fuel s = .ok s' → HeapAll P s'.heap := by
  induction fuel with
  | zero => intro s s' _ e; cases e
  | succ fuel ih =>
    intro s s' H e
    unfold CopyState.run at e
    split at e
    · obtain ⟨s1, e1, e2⟩ := bind_ok e
      exact ih (by rw [traverse_heap e1]; exact H) e2
    · split at e
      · cases e; exact H
      · obtain ⟨s1, e1, e2⟩ := bind_ok e
        exact ih (copyNode_all hP H e1) e2

theorem copy_all {nt : Nat} {h h' : Heap} {t t' : Tree} (H : HeapAll P h) (e : h.copy nt t = .ok (h', t')) :
    HeapAll P h' := by
  obtain ⟨s, e1, e2⟩ := bind_ok e
  split at e2
  · cases e2
    exact run_all hP _ (by exact H) e1
  · cases e2


omit hP in
theorem sequence_all {p p' : PState} (H : HeapAll P p.heap) (e : p.sequence = .ok p') : HeapAll P p'.heap := by
  unfold PState.sequence at e
  split at e
  · obtain ⟨⟨h1, t⟩, e1, e2⟩ := bind_ok e
    cases e2
    exact newSeq_all H e1
  · cases e

omit hP in
theorem performOr_all {p p' : PState} (H : HeapAll P p.heap) (e : p.performOr = .ok p') : HeapAll P p'.heap := by
  unfold PState.performOr at e
  split at e
  · cases e; exact H
  · cases e

theorem optional_all {p p' : PState} {g : Greedy} (H : HeapAll P p.heap) (e : p.optional tr g = .ok p') :
    HeapAll P p'.heap := by
  unfold PState.optional at e
  split at e
  · obtain ⟨h1, e1, e2⟩ := bind_ok e
    cases e2
    exact newLeaf_all (setGreedyAll_all hP _ H e1) (hP.1 _)
  · cases e

theorem zeroOrMore_all {p p' : PState} {g : Greedy} (H : HeapAll P p.heap) (e : p.zeroOrMore g = .ok p') :
    HeapAll P p'.heap := by
  unfold PState.zeroOrMore at e
  split at e
  · obtain ⟨⟨h1, t⟩, e1, e2⟩ := bind_ok e
    cases e2
    exact newIter_all hP H e1
  · cases e

theorem oneOrMore_all {p p' : PState} {g : Greedy} (H : HeapAll P p.heap) (e : p.oneOrMore tr g = .ok p') :
    HeapAll P p'.heap := by
  unfold PState.oneOrMore at e
  split at e
  · obtain ⟨⟨h1, t⟩, e1, e⟩ := bind_ok e
    obtain ⟨⟨h2, t2⟩, e2, e⟩ := bind_ok e
    obtain ⟨⟨h3, t3⟩, e3, e⟩ := bind_ok e
    cases e
    exact newSeq_all (newIter_all hP (copy_all hP H e1) e2) e3
  · cases e

theorem appendCopy_all {p p' : PState} {t t' : Tree} (H : HeapAll P p.heap)
    (e : p.appendCopy tr t = .ok (p', t')) : HeapAll P p'.heap := by
  obtain ⟨⟨h1, t1⟩, e1, e⟩ := bind_ok e
  obtain ⟨p2, e2, e⟩ := bind_ok e
  cases e
  exact sequence_all (by exact copy_all hP H e1) e2

theorem appendCopies_all (n : Nat) : ∀ {p p' : PState} {t t' : Tree}, HeapAll P p.heap →
    PState.appendCopies tr n p t = .ok (p', t') → HeapAll P p'.heap := by
  induction n with
  | zero => intro p p' t t' H e; cases e; exact H
  | succ n ih =>
    intro p p' t t' H e
    obtain ⟨⟨p1, t1⟩, e1, e⟩ := bind_ok e
    exact ih (appendCopy_all hP H e1) e

omit hP in
theorem onTop_all {p p' : PState} {t t' : Tree} {op : PState → M PState}
    (hop : ∀ q q', HeapAll P q.heap → op q = .ok q' → HeapAll P q'.heap) (H : HeapAll P p.heap)
    (e : p.onTop t op = .ok (p', t')) : HeapAll P p'.heap := by
  obtain ⟨p1, e1, e⟩ := bind_ok e
  have := hop _ _ (by exact H) e1
  split at e
  · cases e; exact this
  · cases e

theorem repeatTail_all {p p' : PState} {t t' : Tree} {g : Greedy} {min max : Nat} {comma : Bool}
    (H : HeapAll P p.heap) (e : p.repeatTail tr t g min comma max = .ok (p', t')) : HeapAll P p'.heap := by
  unfold PState.repeatTail at e
  split at e
  · obtain ⟨⟨p1, t1⟩, e1, e⟩ := bind_ok e
    have H1 : HeapAll P p1.heap := by
      split at e1
      · exact appendCopy_all hP H e1
      · cases e1; exact H
    dsimp only at e
    split at e
    · obtain ⟨⟨p2, t2⟩, e2, e⟩ := bind_ok e
      exact appendCopies_all hP _ (onTop_all (fun q q' => optional_all hP) H1 e2) e
    · exact onTop_all (fun q q' => zeroOrMore_all hP) H1 e
  · cases e; exact H

theorem repeatCounts_all {p p' : PState} {g : Greedy} {min max : Nat} {comma : Bool}
    (H : HeapAll P p.heap) (e : p.repeatCounts tr g min comma max = .ok p') : HeapAll P p'.heap := by
  unfold PState.repeatCounts at e
  split at e
  · cases e; exact H
  · obtain ⟨p1, e1, e⟩ := bind_ok e
    have H1 : HeapAll P p1.heap := by
      split at e1
      · exact optional_all hP H e1
      · cases e1; exact H
    dsimp only at e
    split at e
    · cases e
    · obtain ⟨⟨h2, t2⟩, e2, e⟩ := bind_ok e
      obtain ⟨⟨p3, t3⟩, e3, e⟩ := bind_ok e
      obtain ⟨⟨p4, t4⟩, e4, e⟩ := bind_ok e
      dsimp only at e2 e3 e4 e
      have H4 := repeatTail_all hP (appendCopies_all hP _ (by exact copy_all hP H1 e2) e3) e4
      exact sequence_all (by exact H4) e


omit hP in
theorem sequence_cs {p p' : PState} (e : p.sequence = .ok p') : p'.charsets = p.charsets := by
  unfold PState.sequence at e
  split at e
  · obtain ⟨_, _, e⟩ := bind_ok e
    cases e; rfl
  · cases e

omit hP in
theorem performOr_cs {p p' : PState} (e : p.performOr = .ok p') : p'.charsets = p.charsets := by
  unfold PState.performOr at e
  split at e
  · cases e; rfl
  · cases e

omit hP in
theorem optional_cs {p p' : PState} {g : Greedy} (e : p.optional tr g = .ok p') : p'.charsets = p.charsets := by
  unfold PState.optional at e
  split at e
  · obtain ⟨_, _, e⟩ := bind_ok e
    cases e; rfl
  · cases e

omit hP in
theorem zeroOrMore_cs {p p' : PState} {g : Greedy} (e : p.zeroOrMore g = .ok p') : p'.charsets = p.charsets := by
  unfold PState.zeroOrMore at e
  split at e
  · obtain ⟨_, _, e⟩ := bind_ok e
    cases e; rfl
  · cases e

omit hP in
theorem oneOrMore_cs {p p' : PState} {g : Greedy} (e : p.oneOrMore tr g = .ok p') : p'.charsets = p.charsets := by
  unfold PState.oneOrMore at e
  split at e
  · obtain ⟨_, _, e⟩ := bind_ok e
    obtain ⟨_, _, e⟩ := bind_ok e
    obtain ⟨_, _, e⟩ := bind_ok e
    cases e; rfl
  · cases e

omit hP in
theorem appendCopy_cs {p p' : PState} {t t' : Tree} (e : p.appendCopy tr t = .ok (p', t')) : p'.charsets = p.charsets := by
  obtain ⟨_, _, e⟩ := bind_ok e
  obtain ⟨_, e2, e⟩ := bind_ok e
  cases e
  exact (sequence_cs e2).trans rfl

omit hP in
theorem appendCopies_cs (n : Nat) : ∀ {p p' : PState} {t t' : Tree},
    PState.appendCopies tr n p t = .ok (p', t') → p'.charsets = p.charsets := by
  induction n with
  | zero => intro p p' t t' e; cases e; rfl
  | succ n ih =>
    intro p p' t t' e
    obtain ⟨⟨p1, t1⟩, e1, e⟩ := bind_ok e
    exact (ih e).trans (appendCopy_cs e1)

omit hP in
theorem onTop_cs {p p' : PState} {t t' : Tree} {op : PState → M PState}
    (hop : ∀ q q', op q = .ok q' → q'.charsets = q.charsets)
    (e : p.onTop t op = .ok (p', t')) : p'.charsets = p.charsets := by
  obtain ⟨p1, e1, e⟩ := bind_ok e
  have := hop _ _ e1
  split at e
  · cases e; exact this
  · cases e

omit hP in
theorem repeatTail_cs {p p' : PState} {t t' : Tree} {g : Greedy} {min max : Nat} {comma : Bool}
    (e : p.repeatTail tr t g min comma max = .ok (p', t')) : p'.charsets = p.charsets := by
  unfold PState.repeatTail at e
  split at e
  · obtain ⟨⟨p1, t1⟩, e1, e⟩ := bind_ok e
    have H1 : p1.charsets = p.charsets := by
      split at e1
      · exact appendCopy_cs e1
      · cases e1; rfl
    dsimp only at e
    rw [← H1]
    split at e
    · obtain ⟨⟨p2, t2⟩, e2, e⟩ := bind_ok e
      exact (appendCopies_cs _ e).trans (onTop_cs (fun q q' => optional_cs) e2)
    · exact onTop_cs (fun q q' => zeroOrMore_cs) e
  · cases e; rfl

omit hP in
theorem repeatCounts_cs {p p' : PState} {g : Greedy} {min max : Nat} {comma : Bool}
    (e : p.repeatCounts tr g min comma max = .ok p') : p'.charsets = p.charsets := by
  unfold PState.repeatCounts at e
  split at e
  · cases e; rfl
  · obtain ⟨p1, e1, e⟩ := bind_ok e
    have H1 : p1.charsets = p.charsets := by
      split at e1
      · exact optional_cs e1
      · cases e1; rfl
    dsimp only at e
    rw [← H1]
    split at e
    · cases e
    · obtain ⟨⟨h2, t2⟩, e2, e⟩ := bind_ok e
      obtain ⟨⟨p3, t3⟩, e3, e⟩ := bind_ok e
      obtain ⟨⟨p4, t4⟩, e4, e⟩ := bind_ok e
      dsimp only at e2 e3 e4 e
      have h3 := appendCopies_cs _ e3
      have h4 := repeatTail_cs e4
      have h5 := sequence_cs e
      exact h5.trans (h4.trans h3)

end

/-! ### What is in the nodes -/

/-- A leaf stands for `^` only if `B`, for `$` only if `E`; the end nodes have the id, push
state and pop flag `Q` allows. -/
def NodeOk (tr : Traits) (B E : Prop) (Q : Nat → Nat → Bool → Prop) : NodeData → Prop
  | .leaf t _ => (t = tr.bolToken → B) ∧ (t = tr.eolToken → E)
  | .fin id _ _ _ push pop _ => Q id push pop

variable {B E : Prop} {Q : Nat → Nat → Bool → Prop}

theorem nodeOk_hP (hn : 2 < tr.npos) : (∀ g, NodeOk tr B E Q (.leaf tr.nullToken g)) ∧
    ∀ t g g', NodeOk tr B E Q (.leaf t g) → NodeOk tr B E Q (.leaf t g') := by
  refine ⟨fun g => ⟨fun h => ?_, fun h => ?_⟩, fun t g g' h => h⟩
  · simp only [Traits.nullToken, Traits.bolToken] at h; omega
  · simp only [Traits.nullToken, Traits.eolToken] at h; omega

/-- Holds while the charsets are few: their ids are their numbers, and the nodes are as they
should be. -/
def PInv (tr : Traits) (B E : Prop) (Q : Nat → Nat → Bool → Prop) (p : PState) : Prop :=
  p.charsets.length + 2 ≤ tr.npos → (∀ e ∈ p.charsets, e.2 < p.charsets.length) ∧ HeapAll (NodeOk tr B E Q) p.heap

/-- A step of the parser: the number of charsets does not shrink, and `PInv` is kept. -/
structure Steps (tr : Traits) (B E : Prop) (Q : Nat → Nat → Bool → Prop) (p p' : PState) : Prop where
  le : p.charsets.length ≤ p'.charsets.length
  inv : PInv tr B E Q p → PInv tr B E Q p'

theorem Steps.refl (p : PState) : Steps tr B E Q p p := ⟨Nat.le_refl _, id⟩

theorem Steps.trans {p q r : PState} (h : Steps tr B E Q p q) (k : Steps tr B E Q q r) : Steps tr B E Q p r :=
  ⟨Nat.le_trans h.le k.le, fun x => k.inv (h.inv x)⟩

theorem Steps.of {p p' : PState} (hc : p'.charsets = p.charsets)
    (hh : HeapAll (NodeOk tr B E Q) p.heap → HeapAll (NodeOk tr B E Q) p'.heap) : Steps tr B E Q p p' := by
  refine ⟨by rw [hc]; exact Nat.le_refl _, ?_⟩
  intro h hl
  rw [hc] at hl ⊢
  exact ⟨(h hl).1, hh (h hl).2⟩

theorem toId_lt {i : Nat} (h : i + 2 ≤ tr.npos) : tr.toId i = i := Nat.mod_eq_of_lt (by omega)

theorem lookup_steps (p : PState) (t : Token) : Steps tr B E Q p (p.lookup tr t).1 ∧
    (PInv tr B E Q p → (p.lookup tr t).1.charsets.length + 2 ≤ tr.npos → (p.lookup tr t).2 + 2 < tr.npos) := by
  unfold PState.lookup
  split
  · rename_i e he
    refine ⟨.refl _, fun h hl => ?_⟩
    have := (h hl).1 e (List.mem_of_find?_eq_some he)
    dsimp only at hl ⊢
    omega
  · refine ⟨⟨by simp [CharsetMap.length_insert], fun h hl => ?_⟩, fun h hl => ?_⟩
    · dsimp only at hl ⊢
      rw [CharsetMap.length_insert] at hl ⊢
      obtain ⟨h1, h2⟩ := h (by omega)
      refine ⟨fun e he => ?_, h2⟩
      rcases (CharsetMap.mem_insert _ _ _ _).1 he with rfl | he
      · show tr.toId _ < _
        rw [toId_lt (tr := tr) (i := p.charsets.length) (by omega)]; omega
      · have := h1 e he; omega
    · dsimp only at hl ⊢
      rw [CharsetMap.length_insert] at hl
      rw [toId_lt (tr := tr) (i := p.charsets.length) (by omega)]; omega

theorem pushRange_steps (p : PState) (t : Token) : Steps tr B E Q p (p.pushRange tr t) := by
  obtain ⟨h1, h2⟩ := lookup_steps (tr := tr) (B := B) (E := E) (Q := Q) p t
  show Steps tr B E Q p ((p.lookup tr t).1.pushLeaf tr (p.lookup tr t).2 .yes)
  refine ⟨h1.le, fun h hl => ?_⟩
  obtain ⟨k1, k2⟩ := h1.inv h hl
  have := h2 h hl
  refine ⟨k1, newLeaf_all k2 ⟨fun h => ?_, fun h => ?_⟩⟩
  · simp only [Traits.bolToken] at h; omega
  · simp only [Traits.eolToken] at h; omega

theorem sequence_steps {p p' : PState} (e : p.sequence = .ok p') : Steps tr B E Q p p' :=
  .of (sequence_cs e) fun H => sequence_all H e

theorem performOr_steps {p p' : PState} (e : p.performOr = .ok p') : Steps tr B E Q p p' :=
  .of (performOr_cs e) fun H => performOr_all H e

theorem pushRow_steps {p p' : PState} {ts : List Token} (e : p.pushRow tr ts = .ok p') : Steps tr B E Q p p' := by
  unfold PState.pushRow at e
  split at e
  · cases e
  · rename_i t ts
    refine (pushRange_steps p t).trans ?_
    generalize p.pushRange tr t = q at e
    induction ts generalizing q with
    | nil => cases e; exact .refl _
    | cons t ts ih =>
      rw [List.foldlM_cons] at e
      obtain ⟨q1, e1, e⟩ := bind_ok e
      exact ((pushRange_steps q t).trans (sequence_steps e1)).trans (ih _ e)

theorem pushRows_steps {p p' : PState} {rows : Slices} (e : p.pushRows tr rows = .ok p') : Steps tr B E Q p p' := by
  unfold PState.pushRows at e
  split at e
  · cases e
  · rename_i row rows
    obtain ⟨q, e1, e2⟩ := bind_ok e
    refine (pushRow_steps e1).trans ?_
    clear e e1
    induction rows generalizing q with
    | nil => cases e2; exact .refl _
    | cons r rs ih =>
      rw [List.foldlM_cons] at e2
      obtain ⟨q1, e1, e⟩ := bind_ok e2
      obtain ⟨q2, e2, e1⟩ := bind_ok e1
      exact ((pushRow_steps e2).trans (performOr_steps e1)).trans (ih _ e)

/-- A token that may be read: `^` only if `B`, `$` only if `E`. -/
def TokFit (B E : Prop) (t : Tok) : Prop := (t.type = .bol → B) ∧ (t.type = .eol → E)

theorem reduceHandle_steps (hn : 2 < tr.npos) {p p' : PState} {hd new : List Tok} (ht : ∀ t ∈ hd, TokFit B E t)
    (e : p.reduceHandle tr hd = .ok (p', new)) : Steps tr B E Q p p' ∧ ∀ t ∈ new, TokFit B E t := by
  have hP := nodeOk_hP (B := B) (E := E) (Q := Q) hn
  have nt : ∀ k : TT, k ≠ .bol → k ≠ .eol → TokFit B E (PState.newTok k) :=
    fun k h1 h2 => ⟨fun h => (h1 h).elim, fun h => (h2 h).elim⟩
  unfold PState.reduceHandle at e
  split at e
  · cases e
  · rename_i rhs hs
    have hr := ht rhs (by simp)
    split at e
    · cases e; exact ⟨.refl _, by simp⟩
    · cases e; exact ⟨.refl _, by simp⟩
    · cases e; exact ⟨.refl _, by simpa using nt _ (by decide) (by decide)⟩
    · obtain ⟨q, e1, e⟩ := bind_ok e; cases e
      exact ⟨performOr_steps e1, by simpa using nt _ (by decide) (by decide)⟩
    · cases e; exact ⟨.refl _, by simpa using nt _ (by decide) (by decide)⟩
    · cases e; exact ⟨.refl _, by simpa using nt _ (by decide) (by decide)⟩
    · obtain ⟨q, e1, e⟩ := bind_ok e; cases e
      exact ⟨sequence_steps e1, by simpa using nt _ (by decide) (by decide)⟩
    · cases e; exact ⟨.refl _, by simpa using nt _ (by decide) (by decide)⟩
    · cases e; exact ⟨.refl _, by simpa using nt _ (by decide) (by decide)⟩
    · cases e; exact ⟨.refl _, by simpa using nt _ (by decide) (by decide)⟩
    · rename_i hty _
      cases e
      refine ⟨.of rfl fun H => newLeaf_all H ⟨fun _ => hr.1 hty, fun h => ?_⟩, by simpa using nt _ (by decide) (by decide)⟩
      simp only [Traits.bolToken, Traits.eolToken] at h; omega
    · rename_i hty _
      obtain ⟨h1, h2⟩ := lookup_steps (tr := tr) (B := B) (E := E) (Q := Q) p (Token.ofChar 13)
      generalize p.lookup tr (Token.ofChar 13) = y at e h1 h2
      obtain ⟨q, cr⟩ := y
      dsimp only at e h1 h2
      obtain ⟨h3, h4⟩ := lookup_steps (tr := tr) (B := B) (E := E) (Q := Q) q (Token.ofChar 10)
      generalize q.lookup tr (Token.ofChar 10) = y at e h3 h4
      obtain ⟨r, nl⟩ := y
      dsimp only at e h3 h4
      cases e
      refine ⟨(h1.trans h3).trans (.of ?_ fun H => newLeaf_all ?_ ⟨fun h => ?_, fun _ => hr.2 hty⟩),
        by simpa using nt _ (by decide) (by decide)⟩
      · by_cases h1 : cr = tr.npos <;> by_cases h2 : nl = tr.npos <;>
          simp only [PState.pushLeaf, h1, h2, ne_eq, not_true_eq_false, not_false_eq_true, if_true, if_false]
      · by_cases h1 : cr = tr.npos <;> by_cases h2 : nl = tr.npos <;>
          simp only [h1, h2, ne_eq, not_true_eq_false, not_false_eq_true, if_true, if_false] <;> exact H
      · simp only [Traits.bolToken, Traits.eolToken] at h; omega
    · split at e
      · obtain ⟨q, e1, e⟩ := bind_ok e; cases e
        refine ⟨pushRows_steps e1, ?_⟩
        intro t ht
        simp only [List.mem_cons, List.not_mem_nil, or_false] at ht
        rcases ht with rfl | rfl | rfl <;> exact nt _ (by decide) (by decide)
      · cases e; exact ⟨pushRange_steps _ _, by simpa using nt _ (by decide) (by decide)⟩
    · cases e; exact ⟨.refl _, by simpa using nt _ (by decide) (by decide)⟩
    · obtain ⟨q, e1, e⟩ := bind_ok e; cases e
      exact ⟨.of (optional_cs e1) fun H => optional_all hP H e1, by simpa using nt _ (by decide) (by decide)⟩
    · obtain ⟨q, e1, e⟩ := bind_ok e; cases e
      exact ⟨.of (optional_cs e1) fun H => optional_all hP H e1, by simpa using nt _ (by decide) (by decide)⟩
    · obtain ⟨q, e1, e⟩ := bind_ok e; cases e
      exact ⟨.of (zeroOrMore_cs e1) fun H => zeroOrMore_all hP H e1, by simpa using nt _ (by decide) (by decide)⟩
    · obtain ⟨q, e1, e⟩ := bind_ok e; cases e
      exact ⟨.of (zeroOrMore_cs e1) fun H => zeroOrMore_all hP H e1, by simpa using nt _ (by decide) (by decide)⟩
    · obtain ⟨q, e1, e⟩ := bind_ok e; cases e
      exact ⟨.of (oneOrMore_cs e1) fun H => oneOrMore_all hP H e1, by simpa using nt _ (by decide) (by decide)⟩
    · obtain ⟨q, e1, e⟩ := bind_ok e; cases e
      exact ⟨.of (oneOrMore_cs e1) fun H => oneOrMore_all hP H e1, by simpa using nt _ (by decide) (by decide)⟩
    · obtain ⟨q, e1, e⟩ := bind_ok e; cases e
      exact ⟨.of (repeatCounts_cs e1) fun H => repeatCounts_all hP H e1, by simpa using nt _ (by decide) (by decide)⟩
    · obtain ⟨q, e1, e⟩ := bind_ok e; cases e
      exact ⟨.of (repeatCounts_cs e1) fun H => repeatCounts_all hP H e1, by simpa using nt _ (by decide) (by decide)⟩
    all_goals cases e

theorem popHandle_mem : ∀ (toks hd : List Tok) {a b : List Tok}, PState.popHandle hd toks = .ok (a, b) →
    (∀ t ∈ a, t ∈ hd ∨ t ∈ toks) ∧ ∀ t ∈ b, t ∈ toks := by
  intro toks
  induction toks with
  | nil => intro hd a b e; cases e
  | cons rhs stack ih =>
    intro hd a b e
    unfold PState.popHandle at e
    split at e
    · cases e
      refine ⟨fun t ht => ?_, by simp⟩
      rcases List.mem_cons.1 ht with rfl | h
      · exact .inr (by simp)
      · exact .inl h
    · rename_i lhs st
      split at e
      · obtain ⟨h1, h2⟩ := ih _ e
        refine ⟨fun t ht => ?_, fun t ht => List.mem_cons_of_mem _ (h2 t ht)⟩
        rcases h1 t ht with h | h
        · rcases List.mem_cons.1 h with rfl | h
          · exact .inr (by simp)
          · exact .inl h
        · exact .inr (List.mem_cons_of_mem _ h)
      · cases e
        refine ⟨fun t ht => ?_, fun t ht => List.mem_cons_of_mem _ ht⟩
        rcases List.mem_cons.1 ht with rfl | h
        · exact .inr (by simp)
        · exact .inl h
      · cases e

theorem parseLoop_steps (hn : 2 < tr.npos) (fuel : Nat) : ∀ {p p' : PState} {toks rest : List Tok} {rhs : Tok},
    (∀ t ∈ toks, TokFit B E t) → TokFit B E rhs → (∀ t ∈ rest, TokFit B E t) →
    PState.parseLoop tr fuel p toks rhs rest = .ok p' → Steps tr B E Q p p' := by
  induction fuel with
  | zero => intro p p' toks rest rhs _ _ _ e; cases e
  | succ fuel ih =>
    intro p p' toks rest rhs h1 h2 h3 e
    have h4 : ∀ t ∈ rhs :: toks, TokFit B E t := by
      intro t ht
      rcases List.mem_cons.1 ht with rfl | ht
      · exact h2
      · exact h1 t ht
    unfold PState.parseLoop at e
    split at e
    · cases e; exact .refl _
    · split at e
      · split at e
        · cases e
        · exact ih h4 (h3 _ (by simp)) (fun t ht => h3 t ht) e
        · exact ih h4 (h3 _ (by simp)) (fun t ht => h3 t (List.mem_cons_of_mem _ ht)) e
      · split at e
        · cases e
        · exact ih h4 (h3 _ (by simp)) (fun t ht => h3 t ht) e
        · exact ih h4 (h3 _ (by simp)) (fun t ht => h3 t (List.mem_cons_of_mem _ ht)) e
      · obtain ⟨⟨q, tk⟩, e1, e⟩ := bind_ok e
        obtain ⟨⟨hd, st⟩, e2, e1⟩ := bind_ok e1
        obtain ⟨⟨q', new⟩, e3, e1⟩ := bind_ok e1
        cases e1
        obtain ⟨k1, k2⟩ := popHandle_mem _ _ e2
        obtain ⟨g1, g2⟩ := reduceHandle_steps (Q := Q) hn (fun t ht => by
          rcases k1 t ht with h | h
          · cases h
          · exact h1 t h) e3
        refine g1.trans (ih (fun t ht => ?_) h2 h3 e)
        rcases List.mem_append.1 ht with h | h
        · exact g2 t h
        · exact h1 t (k2 t h)
      · cases e

/-- `parse` of a rule. -/
theorem parse_steps (hn : 2 < tr.npos) {p p' : PState} {regex : List Tok} {info : RuleInfo} {b : Bool} {root : Tree}
    (ht : ∀ t ∈ regex, TokFit B E t) (hb : b = true → B) (hf : Q info.id info.pushDfa info.popDfa)
    (e : p.parse tr regex info b = .ok (p', root)) : Steps tr B E Q p p' := by
  have hP := nodeOk_hP (B := B) (E := E) (Q := Q) hn
  unfold PState.parse at e
  split at e
  · rename_i t0 t1 rest
    obtain ⟨p1, e1, e⟩ := bind_ok e
    obtain ⟨⟨p2, r2⟩, e2, e⟩ := bind_ok e
    have H1 : Steps tr B E Q p p1 := by
      refine parseLoop_steps hn _ ?_ (ht _ (by simp)) ?_ e1
      · intro t h
        rw [List.mem_singleton.1 h]; exact ht _ (by simp)
      · intro t h
        split at h
        · rw [List.mem_singleton.1 h]; exact ht _ (by simp)
        · exact ht _ (by simp [h])
    refine H1.trans ?_
    have hfin : ∀ g, NodeOk tr B E Q (.fin info.id info.userId info.uniqueId info.nextDfa info.pushDfa info.popDfa g) :=
      fun _ => hf
    have H2 : Steps tr B E Q p1 p2 := by
      unfold PState.finish at e2
      dsimp only at e2
      split at e2
      · cases e2; exact .of rfl fun H => H.snoc (hfin _)
      · obtain ⟨⟨h3, t3⟩, e3, e2⟩ := bind_ok e2
        cases e2
        exact .of rfl fun H => newSeq_all (H.snoc (hfin _)) e3
      · cases e2
    refine H2.trans ?_
    dsimp only at e
    split at e
    · rename_i hbt
      unfold PState.fixupBol at e
      split at e
      · cases e; exact .refl _
      · obtain ⟨⟨h3, t3⟩, e3, e⟩ := bind_ok e
        cases e
        refine .of rfl fun H => newSeq_all (newLeaf_all (newLeaf_all H ⟨fun _ => hb hbt, fun h => ?_⟩) (hP.1 _)) e3
        simp only [Traits.bolToken, Traits.eolToken] at h; omega
    · cases e; exact .refl _
  · cases e

theorem buildTreeRest_steps (hn : 2 < tr.npos) {b : Bool} (hb : b = true → B) (rs : List Rule) :
    ∀ {p p' : PState} {root root' : Tree} {uid uid' : Nat},
    (∀ r ∈ rs, (∀ t ∈ r.regex, TokFit B E t) ∧ Q r.id r.pushDfa r.popDfa) →
    buildTreeRest tr b rs p root uid = .ok (p', root', uid') → Steps tr B E Q p p' := by
  induction rs with
  | nil => intro p p' root root' uid uid' _ e; cases e; exact .refl _
  | cons r rs ih =>
    intro p p' root root' uid uid' h e
    obtain ⟨⟨p1, r1⟩, e1, e⟩ := bind_ok e
    exact (parse_steps hn (h r (by simp)).1 hb (h r (by simp)).2 e1).trans (ih (fun r' h' => h r' (by simp [h'])) e)

theorem buildTree_steps (hn : 2 < tr.npos) {b : Bool} (hb : b = true → B) {rs : List Rule} {h : Heap} {p' : PState}
    {root' : Tree} {uid uid' : Nat} (H : HeapAll (NodeOk tr B E Q) h)
    (hr : ∀ r ∈ rs, (∀ t ∈ r.regex, TokFit B E t) ∧ Q r.id r.pushDfa r.popDfa)
    (e : buildTree tr b rs h uid = .ok (p', root', uid')) (hl : p'.charsets.length + 2 ≤ tr.npos) :
    HeapAll (NodeOk tr B E Q) p'.heap := by
  unfold buildTree at e
  split at e
  · cases e
  · rename_i r rs
    obtain ⟨⟨p1, r1⟩, e1, e⟩ := bind_ok e
    have s := (parse_steps hn (hr r (by simp)).1 hb (hr r (by simp)).2 e1).trans
      (buildTreeRest_steps hn hb rs (fun r' h' => hr r' (by simp [h'])) e)
    exact (s.inv (fun _ => ⟨fun c hc => (nomatch hc), H⟩) hl).2

end Lexertl.Feat
